import Verif.EndToEnd.Theorems
import Verif.MessageQueue.Drain

/-! # In the end everything arrives -/

namespace Verif.EndToEnd

open Verif.MQ (Kind Cfg BaseOp)

/-- The act is not a failing transmission of a message that is not at the front of the queue of the messages that do not
concern transactions (the defect of C07). -/
def smoothStep (s : Station) : Act → Bool
  | .queue (.worker false) => !MQ.midFail s.mq (.worker false)
  | _ => true

/-- No such act in a history. -/
def smooth (s : Station) : List Act → Bool
  | [] => true
  | a :: l => smoothStep s a && smooth (step s a) l

def SmoothInv (cfg : Cfg) (now : Int) (mq : MQ.St) : Prop :=
  ∃ ops : List MQ.Op, MQ.Along (fun s op => ∀ b, op = .run b → MQ.midFail s b = false) (MQ.init cfg now) ops ∧
    mq = MQ.run (MQ.init cfg now) ops

theorem SmoothInv.op {cfg : Cfg} {now : Int} {mq : MQ.St} (h : SmoothInv cfg now mq) (op : MQ.Op)
    (ho : ∀ b, op = .run b → MQ.midFail mq b = false) : SmoothInv cfg now (MQ.step mq op) := by
  obtain ⟨ops, h1, h2⟩ := h
  refine ⟨ops ++ [op], ?_, by rw [MQ.run_snoc, h2]⟩
  rw [MQ.along_append]
  exact ⟨h1, by rw [← h2]; exact ho, trivial⟩

theorem handAll_smooth {cfg : Cfg} {now : Int} (es : List Tx.Event) (s : Station) (h : SmoothInv cfg now s.mq) :
    SmoothInv cfg now (handAll s es).mq := by
  induction es generalizing s with
  | nil => exact h
  | cons e es ih => exact ih (hand s e) (h.op (.run (handOp e)) (by intro b hb; cases hb; rfl))

theorem SmoothInv.step {cfg : Cfg} {now : Int} {s : Station} (h : SmoothInv cfg now s.mq) (a : Act)
    (ha : smoothStep s a = true) : SmoothInv cfg now (step s a).mq := by
  cases a with
  | app o =>
    simp only [EndToEnd.step]
    split
    · exact h
    · exact handAll_smooth _ { s with tx := Tx.step s.tx (.op o) } h
  | queue b =>
    simp only [EndToEnd.step]
    split
    · refine h.op (.run b) ?_
      intro b' hb
      cases hb
      cases b with
      | worker ok => cases ok with
        | false => simpa [smoothStep] using ha
        | true => rfl
      | _ => rfl
    · exact h
  | restart cs c ign => exact h.op (.run (.restart c ign)) (by intro b hb; cases hb; rfl)
  | power o k j c ign =>
    simp only [EndToEnd.step]
    split
    · exact h
    · unfold handAllCut
      split
      · exact h.op (.run (.restart c ign)) (by intro b hb; cases hb; rfl)
      · rename_i e _
        exact (handAll_smooth _ { s with tx := Tx.step s.tx (.cut o k) } h).op (.crash (handOp e) j c ign) (by intro b hb; cases hb)
  | powerQueue b j c ign =>
    simp only [EndToEnd.step]
    split
    · exact h.op (.crash b j c ign) (by intro b hb; cases hb)
    · exact h

theorem run_smooth {cfg : Cfg} {now : Int} (acts : List Act) (s : Station) (h : SmoothInv cfg now s.mq)
    (ha : smooth s acts = true) : SmoothInv cfg now (run s acts).mq := by
  induction acts generalizing s with
  | nil => exact h
  | cons a l ih =>
    simp only [smooth, Bool.and_eq_true] at ha
    exact ih _ (h.step a ha.1) ha.2

/-! ## The rounds as acts -/

def toAct : MQ.Op → Act
  | .run b => .queue b
  | .crash b j c ign => .powerQueue b j c ign

theorem run_rounds (ops : List MQ.Op) (s : Station)
    (h : ∀ op ∈ ops, op = .run (.worker true) ∨ ∃ u, op = .run (.recvResult u)) :
    run s (ops.map toAct) = { s with mq := MQ.run s.mq ops } := by
  induction ops generalizing s with
  | nil => rfl
  | cons op ops ih =>
    have h1 : step s (toAct op) = { s with mq := MQ.step s.mq op } := by
      rcases h op (by simp) with rfl | ⟨u, rfl⟩ <;> rfl
    show run (step s (toAct op)) (ops.map toAct) = _
    rw [h1, ih _ (fun o ho => h o (by simp [ho]))]
    rfl

/-- **C249, partial.** (Missing: power cuts inside an operation, the defects of C07 and C12.) In the end everything
arrives: take any history of a station without power cuts inside an operation, with restarts, lost connections, timeouts,
errors and failed transmissions, in which transaction ids are unique and the database takes the writes, and after which
the station is connected, accepted and idle, its worker is awake, the time of every queued message has come, and no
TransactionEvent has been given up or dropped. If from then on the connection works and the CSMS answers, then after
finitely many transmissions and answers the CSMS has answered every TransactionEvent that the station ever decided to
send: for every transaction the numbers 0, 1, 2, ... without gap, of type Started, then Updated, and at most one Ended at
the end, which is not there if the transaction is still running. -/
theorem C249_partial (conns : List Nat) (resume : Bool) (cfg : Cfg) (now : Int) (acts : List Act)
    (ha : ∀ a ∈ acts, calm a = true) (hs : smooth (fresh conns resume cfg now) acts = true)
    (hf : Tx.FreshIds (acts.filterMap txCmd)) (hd : Tx.DiskFine (acts.filterMap txCmd))
    (hi : MQ.Idle (run (fresh conns resume cfg now) acts).mq)
    (hdue : ∀ m ∈ (run (fresh conns resume cfg now) acts).mq.txq ++ (run (fresh conns resume cfg now) acts).mq.nq,
      m.ts ≤ (run (fresh conns resume cfg now) acts).mq.now)
    (hw : (run (fresh conns resume cfg now) acts).mq.newMsg = true)
    (hg : ∀ i, ¬ GivenUp (run (fresh conns resume cfg now) acts) i)
    (he : ∀ i, ¬ Dropped (run (fresh conns resume cfg now) acts) i) :
    ∃ more : List Act, (∀ a ∈ more, a = .queue (.worker true) ∨ ∃ u, a = .queue (.recvResult u)) ∧
      ∀ x : Verif.Auth.Str,
        let s := run (fresh conns resume cfg now) acts
        let s' := run s more
        received s' x = (decided s).filter (fun e => e.txId = x) ∧
        (received s' x).map (·.seqNo) = List.range (received s' x).length ∧
        (received s' x = [] ∨ Tx.Running ((received s' x).map (·.type)) ∨ Tx.Finished ((received s' x).map (·.type))) ∧
        (∀ (v : Nat) (t : Tx.Tx), s.tx.tx v = some t → t.id = x → Tx.Running ((received s' x).map (·.type))) := by
  obtain ⟨ops, ho1, ho2⟩ := run_smooth acts (fresh conns resume cfg now) ⟨[], trivial, rfl⟩ hs
  have hr : MQ.Ready (run (fresh conns resume cfg now) acts).mq := by
    rw [ho2]
    exact MQ.ready_of cfg now ops ho1 (by rw [← ho2]; exact hi) (by rw [← ho2]; exact hdue) (by rw [← ho2]; exact hw)
  have happ : ∀ more, run (run (fresh conns resume cfg now) acts) more = run (fresh conns resume cfg now) (acts ++ more) := by
    intro more; unfold run; rw [List.foldl_append]
  generalize hn : ((run (fresh conns resume cfg now) acts).mq.txq ++ (run (fresh conns resume cfg now) acts).mq.nq).length = n
  obtain ⟨g1, g2, g3, es, g4, g5, _⟩ := MQ.serves_ready n hr hn
  have hmem := MQ.serveOps_mem n (run (fresh conns resume cfg now) acts).mq
  have hmore : ∀ a ∈ (MQ.serveOps n (run (fresh conns resume cfg now) acts).mq).map toAct,
      a = .queue (.worker true) ∨ ∃ u, a = .queue (.recvResult u) := by
    intro a hm
    obtain ⟨op, h1, rfl⟩ := List.mem_map.1 hm
    rcases hmem op h1 with rfl | ⟨u, rfl⟩
    · exact Or.inl rfl
    · exact Or.inr ⟨u, rfl⟩
  have hrun := run_rounds _ (run (fresh conns resume cfg now) acts) hmem
  rw [← MQ.serves_run] at hrun
  refine ⟨_, hmore, ?_⟩
  intro x
  dsimp only
  have hcmd : (acts ++ (MQ.serveOps n (run (fresh conns resume cfg now) acts).mq).map toAct).filterMap txCmd =
      acts.filterMap txCmd := by
    rw [List.filterMap_append]
    have : ((MQ.serveOps n (run (fresh conns resume cfg now) acts).mq).map toAct).filterMap txCmd = [] := by
      rw [List.filterMap_eq_nil_iff]
      intro a hm
      rcases hmore a hm with rfl | ⟨u, rfl⟩ <;> rfl
    rw [this, List.append_nil]
  have hinv := run_inv conns resume cfg now (acts ++ (MQ.serveOps n (run (fresh conns resume cfg now) acts).mq).map toAct)
  have key := C247_partial conns resume cfg now (acts ++ (MQ.serveOps n (run (fresh conns resume cfg now) acts).mq).map toAct)
    (by
      intro a hm
      rcases List.mem_append.1 hm with hm | hm
      · exact ha a hm
      · rcases hmore a hm with rfl | ⟨u, rfl⟩ <;> rfl)
    (by rw [hcmd]; exact hf) (by rw [hcmd]; exact hd)
  rw [← happ, hrun] at key hinv
  rw [hrun]
  have hsub : ∀ {e : MQ.Ev}, e ∈ (MQ.serves n (run (fresh conns resume cfg now) acts).mq).trace →
      e ∈ (run (fresh conns resume cfg now) acts).mq.trace ∨ e ∈ es := by
    intro e hm; rw [g4] at hm; exact List.mem_append.1 hm
  refine key ?_ ?_ ?_ x
  · intro i hp
    unfold Pending at hp
    have h1 : MQ.pendingTx (MQ.serves n (run (fresh conns resume cfg now) acts).mq).trace =
      (MQ.serves n (run (fresh conns resume cfg now) acts).mq).dbT.map MQ.Row.iid := hinv.q.inv.inv.spec
    have h2 : (MQ.serves n (run (fresh conns resume cfg now) acts).mq).dbT.map MQ.Row.iid =
      (MQ.infTx (MQ.serves n (run (fresh conns resume cfg now) acts).mq).inFlight).map Prod.fst ++
        (MQ.serves n (run (fresh conns resume cfg now) acts).mq).txq.map MQ.Msg.iid := hinv.q.inv.inv.ids
    rw [g1.inFlight, g2] at h2
    dsimp only at hp
    rw [h1, h2] at hp
    cases hp
  · intro i ⟨h1, u, h2⟩
    rcases hsub h2 with h2 | h2
    · rcases hsub h1 with h1 | h1
      · exact hg i ⟨h1, u, h2⟩
      · have := (g5 _ h1).1 i _ rfl; cases this
    · exact (g5 _ h2).2 u i rfl
  · intro i h1
    rcases hsub h1 with h1 | h1
    · exact he i h1
    · have := (g5 _ h1).1 i _ rfl; cases this

/-- A transaction during which the connection is lost, a transmission fails and times out; then the connection is back. -/
def exOffline : List Act :=
  exStart ++ [.app (Tx.startOp 1 Tx.txX none), .queue (.worker true), .queue .timeout, .queue (.tick 100), .queue .notifyFire,
    .queue (.worker false), .app (.meter 1), .app (Tx.finishOp 1), .queue (.resume false)]

example : (∀ a ∈ exOffline, calm a = true) ∧ smooth (fresh [1] true {} 0) exOffline = true ∧
    Tx.FreshIds (exOffline.filterMap txCmd) ∧ MQ.Idle (run (fresh [1] true {} 0) exOffline).mq ∧
    (∀ m ∈ (run (fresh [1] true {} 0) exOffline).mq.txq ++ (run (fresh [1] true {} 0) exOffline).mq.nq,
      m.ts ≤ (run (fresh [1] true {} 0) exOffline).mq.now) ∧
    (run (fresh [1] true {} 0) exOffline).mq.newMsg = true ∧
    (received (run (fresh [1] true {} 0) exOffline) Tx.txX).map (·.seqNo) = [] ∧
    (received ({ run (fresh [1] true {} 0) exOffline with mq := MQ.serves 3 (run (fresh [1] true {} 0) exOffline).mq })
      Tx.txX).map (·.seqNo) = [0, 1, 2] ∧
    ((run (fresh [1] true {} 0) exOffline).mq.trace.all fun | .done _ w => w == .answered | _ => true) = true := by
  refine ⟨by decide, by decide +kernel, by unfold Tx.FreshIds exOffline; decide, ⟨by decide +kernel, by decide +kernel,
    by decide +kernel, by decide +kernel, by decide +kernel, by decide +kernel⟩, by decide +kernel, by decide +kernel,
    by decide +kernel, by decide +kernel, by decide +kernel⟩

end Verif.EndToEnd
