import Verif.MessageQueue.TxLemmas

/-!
# Properties C01–C05, C07, C08 of the message queue

Every theorem is about `run (init cfg now) ops`: the queue started on an empty database with any configuration
at any time, after any history `ops` of operations (see `BaseOp`, `Op`), power cuts included.
-/

namespace Verif.MQ

/-- A small lively history used to show that the theorems talk about something: two transaction messages and a boot
notification, a failed and a successful transmission, a power cut, an answer and a timeout. -/
def demo : List Op :=
  [.run (.resume false), .run (.dispatch .boot false), .run (.worker true), .run (.recvResult 0),
   .run (.regStatus true), .run (.dispatch .txStart false), .run (.dispatch .txUpdate false),
   .run (.worker false), .run (.resume false), .run (.worker true), .run .timeout, .run (.tick 100), .run .notifyFire,
   .run (.worker true), .run (.recvResult 3), .run (.worker true),
   .crash (.recvResult 2) 0 {} false, .run (.resume false), .run (.dispatch .boot false), .run (.worker true),
   .run (.recvResult 4), .run (.regStatus true), .run (.worker true)]

/-! ## C01 -/

/-- **C01.** If a transaction-related CALL `m'` is transmitted after a transaction-related CALL `m`, then it is the
same message again or `m` was handed over by the application before `m'`. -/
theorem C01_transaction_order (cfg : Cfg) (now : Int) (ops : List Op) (a b c : List Ev) (m m' : Msg)
    (h : (run (init cfg now) ops).trace = a ++ .send m :: b ++ .send m' :: c)
    (hm : m.kind.isTx = true) (hm' : m'.kind.isTx = true) :
    m.iid = m'.iid ∨ [m.iid, m'.iid].Sublist (pushIds (run (init cfg now) ops).trace) := by
  have hS := run_sinv _ (init_sinv cfg now) ops
  have hp := run_J01 cfg now ops
  have hs := hS.inv.sendsSorted
  have hu := hS.inv.pushed
  simp only [St.core] at hs hu hp
  rw [h] at hs hp
  have hle : m.iid ≤ m'.iid := by
    simp only [txSends_append, List.append_assoc, List.cons_append] at hs
    have := (List.pairwise_append.1 hs).2.1
    rw [txSends_send_cons, txSends_append, List.pairwise_append] at this
    exact this.2.2 m.iid (by simp [hm]) m'.iid (by rw [txSends_send_cons]; simp [hm'])
  rcases Nat.lt_or_eq_of_le hle with hlt | he
  · right
    have h1 : m.iid ∈ pushIds (run (init cfg now) ops).trace := by
      rw [h, List.append_assoc, pushIds_append]
      exact List.mem_append_left _ (pendingTx_pushed _ _ (hp a m (b ++ .send m' :: c) (by simp) hm))
    have h2 : m'.iid ∈ pushIds (run (init cfg now) ops).trace := by
      rw [h, pushIds_append]
      exact List.mem_append_left _ (pendingTx_pushed _ _ (hp (a ++ .send m :: b) m' c (by simp) hm'))
    exact sublist_of_sorted (List.pairwise_append.1 hu).1 h1 h2 hlt
  · exact Or.inl he

example : txSends (run (init {} 0) demo).trace = [1, 1, 2, 2] ∧ pushIds (run (init {} 0) demo).trace = [0, 1, 2, 4] := by
  decide +kernel

/-- **C01, supplement.** A transaction-related CALL is only transmitted while it is pending: handed over by the
application and neither answered, given up, evicted nor ignored. -/
theorem C01_only_pending (cfg : Cfg) (now : Int) (ops : List Op) (a b : List Ev) (m : Msg)
    (h : (run (init cfg now) ops).trace = a ++ .send m :: b) (hm : m.kind.isTx = true) : m.iid ∈ pendingTx a :=
  run_J01 cfg now ops a m b h hm

/-! ## C02 -/

/-- **C02.** When a CALL is transmitted no other CALL is outstanding: each earlier one has been answered, or its timeout
or CALLERROR has been handled, or the station was restarted. -/
theorem C02_single_outstanding (cfg : Cfg) (now : Int) (ops : List Op) (a b : List Ev) (m : Msg)
    (h : (run (init cfg now) ops).trace = a ++ .send m :: b) : openCall a = none :=
  (run_J02 cfg now ops).ok a m b h

example : openCall (run (init {} 0) demo).trace = some 2 ∧
    (((run (init {} 0) demo).trace.filter (isSendOf 1)).length = 2) := by decide +kernel

/-! ## C03 -/

/-- **C03, invariant.** At every moment the transaction-related messages that are pending (handed over, not finished) are
exactly the outstanding one and the queued ones, in order of handing over. -/
theorem C03_pending_held (cfg : Cfg) (now : Int) (ops : List Op) :
    let s := run (init cfg now) ops
    pendingTx s.trace = (s.inFlight.toList.filter (·.kind.isTx)).map Msg.iid ++ s.txq.map Msg.iid := by
  intro s
  have hS : SInv s := run_sinv _ (init_sinv cfg now) ops
  rw [show pendingTx s.trace = _ from hS.inv.spec, hS.inv.ids]
  cases hi : s.inFlight with
  | none => simp [St.core, hi, infTx]
  | some m => cases hk : m.kind.isTx <;> simp [St.core, hi, infTx, hk, Msg.key]

/-- **C03, power cut between two operations.** After a restart the queue holds again, in order, the outstanding and the
queued transaction-related messages; if the station is configured to ignore old security events, without those. -/
theorem C03_restart (cfg : Cfg) (now : Int) (ops : List Op) (cfg' : Cfg) (ign : Bool) :
    let s := run (init cfg now) ops
    ((step s (.run (.restart cfg' ign))).txq.map fun m => (m.iid, m.kind)) =
      ((s.inFlight.toList.filter (·.kind.isTx) ++ s.txq).map fun m => (m.iid, m.kind)).filter
        (fun e => !(ign && decide (e.2 = Kind.secEvent))) := by
  intro s
  have hS : SInv s := run_sinv _ (init_sinv cfg now) ops
  have hstep : step s (.run (.restart cfg' ign)) = ({ s with writes := [] } : St).restart cfg' ign := by
    by_cases hf : s.fault.isSome <;> simp [step, hf, baseStep]
  rw [hstep]
  have hk := (restart_facts { s with writes := [] } cfg' ign hS.db).txKeys
  have e1 : (fun m : Msg => (m.iid, m.kind)) = Msg.key := rfl
  rw [e1, hk]
  have e2 : (s.inFlight.toList.filter (·.kind.isTx) ++ s.txq).map Msg.key = s.dbT.map Row.key := by
    rw [show List.map Row.key s.dbT = _ from hS.inv.eq]
    cases hi : s.inFlight with
    | none => simp [St.core, hi, infTx]
    | some m => cases hk : m.kind.isTx <;> simp [St.core, hi, infTx, hk]
  rw [e2, List.filter_map]
  rfl

/-- **C03, power cut anywhere.** An operation `b` is interrupted after any number `k` of its database writes and the station
starts again. Then every transaction-related message that was pending before `b` and that a completed `b` would
not have finished is queued; whatever is queued was pending before or was created by `b`; and the queue is in order of
handing over (numbers are handed out in that order, `C03_numbers`). -/
theorem C03_crash_anywhere (cfg : Cfg) (now : Int) (ops : List Op) (b : BaseOp) (k : Nat) (cfg' : Cfg) :
    let s := run (init cfg now) ops
    let full := step s (.run b)
    let cut := step s (.crash b k cfg' false)
    (∀ i, i ∈ pendingTx s.trace → i ∈ pendingTx full.trace → i ∈ cut.txq.map Msg.iid) ∧
    (∀ i, i ∈ cut.txq.map Msg.iid → i ∈ pendingTx s.trace ∨ (s.nextId ≤ i ∧ i < full.nextId)) ∧
    (cut.txq.map Msg.iid).Pairwise (· < ·) :=
  crash_anywhere (run (init cfg now) ops) (run_sinv _ (init_sinv cfg now) ops) b k cfg'

/-- **C03, numbers.** The numbers of messages are handed out in the order in which the application hands over messages. -/
theorem C03_numbers (cfg : Cfg) (now : Int) (ops : List Op) :
    (pushIds (run (init cfg now) ops).trace).Pairwise (· < ·) :=
  (List.pairwise_append.1 (run_sinv _ (init_sinv cfg now) ops).inv.pushed).1

/-- **C03, reasons.** (Histories whose power cuts fall between operations.) A pending transaction-related message stops
being pending only because its answer came, because its timeout or CALLERROR was handled, because it is a
periodic update evicted by the overflow rule, or because it is a security event that the station ignores at start. -/
theorem C03_reasons (cfg : Cfg) (now : Int) (ops : List Op) (hops : ∀ op ∈ ops, op.isCrash = false)
    (a b : List Ev) (i : Nat) (w : Reason)
    (h : (run (init cfg now) ops).trace = a ++ .done i w :: b) (hi : i ∈ pendingTx a) :
    (w = .answered ∧ ∃ u, .answer u i ∈ a) ∨ (w = .gaveUp ∧ ∃ u, .failed u i ∈ a) ∨
    (w = .evicted ∧ .push i .txUpdate ∈ a) ∨ (w = .ignored ∧ .push i .secEvent ∈ a) :=
  (run_J03 cfg now ops hops).ok a _ b h i w rfl hi

/-- The interrupted answer to message 2: the message is queued again. -/
example :
    let s := run (init {} 0) (demo.take 16)
    pendingTx s.trace = [2] ∧ pendingTx (step s (.run (.recvResult 2))).trace = [] ∧
    (step s (.crash (.recvResult 2) 0 {} false)).txq.map Msg.iid = [2] ∧
    (step s (.crash (.recvResult 2) 1 {} false)).txq.map Msg.iid = [] := by decide +kernel

example :
    let s := run (init {} 0) (demo.take 7)
    pendingTx s.trace = [1, 2] ∧ pendingTx (step s (.run (.dispatch .txOther false))).trace = [1, 2, 3] ∧
    (step s (.crash (.dispatch .txOther false) 0 {} false)).txq.map Msg.iid = [1, 2] ∧
    (step s (.crash (.dispatch .txOther false) 1 {} false)).txq.map Msg.iid = [1, 2, 3] := by decide +kernel

/-! ## C04 -/

/-- **C04.** With a fixed attempts setting in force since the last start, a message other than BootNotification has been
transmitted at most `max 1 attempts` times since then. -/
theorem C04_transmissions_bounded (cfg : Cfg) (now : Int) (ops : List Op)
    (hops : ∀ op ∈ ops, ∀ n, op ≠ .run (.setAttempts n)) (i : Nat)
    (hi : ∀ m, .send m ∈ sinceRestart (run (init cfg now) ops).trace → m.iid = i → m.kind ≠ .boot) :
    (sendCount i (sinceRestart (run (init cfg now) ops).trace) : Int) ≤ max 1 (run (init cfg now) ops).cfg.attempts :=
  (run_J04 cfg now ops hops).all i hi

/-- **C04.** A message that is neither transaction-related, nor kept while offline, nor a BootNotification is
transmitted at most once. -/
theorem C04_others_once (cfg : Cfg) (now : Int) (ops : List Op)
    (hops : ∀ op ∈ ops, ∀ n, op ≠ .run (.setAttempts n)) (i : Nat)
    (hi : ∀ m, .send m ∈ sinceRestart (run (init cfg now) ops).trace → m.iid = i →
      m.kind.isTx = false ∧ (run (init cfg now) ops).cfg.checkQueue m.kind = false ∧ m.kind ≠ .boot) :
    sendCount i (sinceRestart (run (init cfg now) ops).trace) ≤ 1 := by
  refine (run_J04 cfg now ops hops).once i ?_
  intro m hm he hl
  obtain ⟨h1, h2, h3⟩ := hi m hm he
  rcases hl with h | h | h
  · rw [h1] at h; cases h
  · rw [show (run (init cfg now) ops).core.chk m.kind = (run (init cfg now) ops).cfg.checkQueue m.kind from rfl, h2] at h
    cases h
  · exact h3 h

/-- Two of three permitted transmissions of message 1. -/
example : sendCount 1 (sinceRestart (run (init {} 0) (demo.take 16)).trace) = 2 := by decide +kernel

/-! ## C05 -/

/-- The history of C05: two attempts are configured; the first send fails because the connection is lost, the second one
is transmitted but not answered. -/
def lostAttempt : List Op :=
  [.run (.resume false), .run (.dispatch .boot false), .run (.worker true), .run (.recvResult 0),
   .run (.regStatus true), .run (.dispatch .txOther false), .run (.worker false), .run (.resume false),
   .run (.worker true), .run .timeout]

/-- **C05 is violated**: with two attempts configured a transaction-related message is given up after it was transmitted
only once. -/
theorem C05_violated : ∃ ops : List Op, ∃ a b i,
    (run (init { attempts := 2 } 0) ops).trace = a ++ .done i .gaveUp :: b ∧ i ∈ pendingTx a ∧ sendCount i a = 1 := by
  refine ⟨lostAttempt, (run (init { attempts := 2 } 0) lostAttempt).trace.dropLast, [], 1, ?_⟩
  decide +kernel

/-- **C05, partial.** (Missing: histories with failed sends, for which the claim is false; power cuts inside an operation;
changes of the attempts setting.) A transaction-related message is given up only after it has been transmitted
`attempts` times since the last start. -/
theorem C05_given_up_partial (cfg : Cfg) (now : Int) (ops : List Op)
    (hops : ∀ op ∈ ops, op.isCrash = false ∧ op ≠ .run (.worker false) ∧ (∀ n, op ≠ .run (.setAttempts n)) ∧
      ∀ c ign, op = .run (.restart c ign) → c.attempts = cfg.attempts)
    (a b : List Ev) (i : Nat)
    (h : (run (init cfg now) ops).trace = a ++ .done i .gaveUp :: b) (hi : i ∈ pendingTx a) :
    cfg.attempts ≤ sendCount i (sinceRestart a) :=
  (run_J05 cfg now ops hops).ok a _ b h i rfl hi

/-- Given up after two transmissions. -/
example :
    let ops : List Op := [.run (.resume false), .run (.dispatch .boot false), .run (.worker true), .run (.recvResult 0),
      .run (.regStatus true), .run (.dispatch .txOther false), .run (.worker true), .run .timeout, .run (.tick 100),
      .run .notifyFire, .run (.worker true), .run .timeout]
    let tr := (run (init { attempts := 2 } 0) ops).trace
    tr = tr.dropLast ++ [.done 1 .gaveUp] ∧ 1 ∈ pendingTx tr.dropLast ∧ sendCount 1 tr = 2 := by decide +kernel

/-! ## C07 -/

/-- The history of C07: a stalled BootNotification is at the front of the normal queue (persisted by the previous run),
a Heartbeat behind it is selected, its send fails; the BootNotification is dropped, the Heartbeat is
fulfilled and sent again; its answer sets the promise a second time. -/
def wrongPop : List Op :=
  [.run (.resume false), .run (.push (.normal 7) true), .run (.pushAsync (.normal 0)),
   .run (.worker false), .run (.resume false), .run (.worker true), .run (.recvResult 1)]

/-- **C07 is violated**: a message's promise is set twice, which takes the process down; and the message that was
ahead of it has disappeared although nobody sent it. -/
theorem C07_violated : ∃ ops : List Op,
    (run (init {} 0) ops).fault = some .promiseTwice ∧
    (∃ i, .done i .popped ∈ (run (init {} 0) ops).trace ∧ sendCount i (run (init {} 0) ops).trace = 0 ∧
      fulfilCount i (run (init {} 0) ops).trace = 0) := by
  refine ⟨wrongPop, ?_, 0, ?_⟩
  · decide +kernel
  · decide +kernel

/-- **C07, partial.** (Missing: histories in which a send fails for a normal message that is not at the front of its
queue, for which the claim is false.) No promise is ever set twice, and once a message's promise is set the message is
neither queued nor outstanding. -/
theorem C07_promise_once_partial (cfg : Cfg) (now : Int) (ops : List Op)
    (hops : Along (fun s op => ∀ b, op = .run b → midFail s b = false) (init cfg now) ops) :
    let s := run (init cfg now) ops
    s.fault ≠ some .promiseTwice ∧
    (∀ i, fulfilCount i (sinceRestart s.trace) ≤ 1) ∧
    ∀ i off, .fulfil i off ∈ sinceRestart s.trace →
      (∀ m ∈ s.txq, m.iid ≠ i) ∧ (∀ m ∈ s.nq, m.iid ≠ i) ∧ ∀ m, s.inFlight = some m → m.iid ≠ i := by
  intro s
  have h := run_J07 cfg now ops hops
  have hp := run_JP cfg now ops
  refine ⟨h.ok, hp.once, ?_⟩
  intro i off hf
  have hi := hp.mem i off hf
  exact ⟨fun m hm e => h.tx m hm (e ▸ hi), fun m hm e => h.n m hm (e ▸ hi), fun m hm e => h.inf m hm (e ▸ hi)⟩

/-- **C07, supplement.** In every history, a promise that is set a second time stops the process (nothing is observed
after it), so the futures seen from outside are fulfilled at most once between two starts. -/
theorem C07_observed_once (cfg : Cfg) (now : Int) (ops : List Op) (i : Nat) :
    fulfilCount i (sinceRestart (run (init cfg now) ops).trace) ≤ 1 :=
  (run_JP cfg now ops).once i

example : Along (fun s op => ∀ b, op = .run b → midFail s b = false) (init {} 0) demo ∧
    fulfilCount 1 (run (init {} 0) demo).trace = 1 := by
  refine ⟨along_of_check _ _ ?_, ?_⟩ <;> decide +kernel

/-! ## C08 -/

/-- **C08.** If the application hands messages to the dispatcher (BootNotification may also be pushed directly), then a
CALL transmitted before the CSMS has accepted a BootNotification of this start is itself a BootNotification, or it was
dispatched as triggered by the CSMS. -/
theorem C08_silent_until_accepted (cfg : Cfg) (now : Int) (ops : List Op)
    (hops : ∀ op ∈ ops, ∀ b, op = .run b → b.raw = false) (a b : List Ev) (m : Msg)
    (h : (run (init cfg now) ops).trace = a ++ .send m :: b) :
    acceptedNow a = true ∨ m.kind = .boot ∨ m.trig = true :=
  (run_J08 cfg now ops hops).ok a m b h

/-- After the power cut of `demo` the pending transaction message is transmitted only after the second acceptance. -/
example :
    let tr := (run (init {} 0) demo).trace
    (sinceRestart tr).filter (fun e => match e with | .send _ => true | .accepted => true | _ => false) =
      [.send ⟨4, 4, .boot, 1, 100, false, none, false, false⟩, .accepted,
       .send ⟨2, 2, .txUpdate, 1, 0, true, none, false, false⟩] := by decide +kernel

end Verif.MQ
