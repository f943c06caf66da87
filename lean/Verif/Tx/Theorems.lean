import Verif.Tx.Reset

/-
Properties of transactions, their events, remote start ids and pending resets.
Vocabulary: Verif/Tx/Spec.lean.
-/
set_option linter.constructorNameAsVariable false

namespace Verif.Tx

open Verif.Auth (Str Token ciEq)

def tokA : Token := { id := ['A'], type := [] }
def tokB : Token := { id := ['a'], type := [] }
def tokC : Token := { id := ['C'], type := [] }
def txX : Str := ['x']
def txY : Str := ['y']

/-- Start transaction `x` at connector 1 of EVSE `e`. -/
def startOp (e : Nat) (x : Str) (tok : Option Token) : Op := .start e 1 x (.other 0) tok none .evConnected
def finishOp (e : Nat) : Op := .finish e (.other 1) none .idle

/-! ## C29: sequence numbers -/

/-- C29, every history, including power cuts at any point and restarts: the sequence numbers of the events
of one transaction grow strictly; no number is ever used twice. -/
theorem C29_strictly_increasing (conns : List Nat) (resume : Bool) (h : List Cmd) (hf : FreshIds h)
    (hd : DiskFine h) (x : Str) :
    (seqNos (run (clean conns resume) h).out x).Pairwise (· < ·) := by
  obtain ⟨used, hi⟩ := Inv.run h 0 [] _ (Inv.clean conns resume) hf (by simp) hd
  exact hi.sorted x

/-- C29: each power cut loses at most one number: with `n` events sent, every number is smaller than
`n + cuts`. -/
theorem C29_missing (conns : List Nat) (resume : Bool) (h : List Cmd) (hf : FreshIds h) (hd : DiskFine h)
    (x : Str) : ∀ a ∈ seqNos (run (clean conns resume) h).out x,
      a < (seqNos (run (clean conns resume) h).out x).length + cuts h := by
  obtain ⟨used, hi⟩ := Inv.run h 0 [] _ (Inv.clean conns resume) hf (by simp) hd
  have := hi.bound x
  simpa using this

/-- C29: without power cuts, but with any number of restarts, the events of a transaction carry the numbers
0, 1, 2, ... without gap. -/
theorem C29_gap_free (conns : List Nat) (resume : Bool) (h : List Cmd) (hf : FreshIds h) (hd : DiskFine h)
    (hc : NoCut h) (x : Str) :
    seqNos (run (clean conns resume) h).out x =
      List.range (events (run (clean conns resume) h).out x).length := by
  have hcuts : cuts h = 0 := by
    unfold cuts
    rw [List.countP_eq_zero]
    intro c hc'
    simp [hc c hc']
  have h1 := eq_range_of_sorted _ (C29_strictly_increasing conns resume h hf hd x) (by
    have := C29_missing conns resume h hf hd x
    rw [hcuts] at this
    simpa using this)
  rw [h1]
  simp [seqNos]

def exRestart : List Cmd :=
  [.op (startOp 1 txX none), .op (.meter 1), .op (.boot [1]), .op (.meter 1), .op (finishOp 1)]

example : FreshIds exRestart ∧ DiskFine exRestart ∧ NoCut exRestart ∧
    seqNos (run (clean [1] true) exRestart).out txX = [0, 1, 2, 3] := by
  refine ⟨by unfold FreshIds exRestart; decide, ?_, ?_, by decide⟩
  · intro c hc
    simp only [exRestart, List.mem_cons, List.not_mem_nil, or_false] at hc
    rcases hc with rfl | rfl | rfl | rfl | rfl <;> simp [opOf, startOp, finishOp]
  · unfold NoCut exRestart; decide

def exCut : List Cmd := [.op (startOp 1 txX none), .cut (.meter 1) 1, .op (.meter 1)]

example : FreshIds exCut ∧ DiskFine exCut ∧ cuts exCut = 1 ∧
    seqNos (run (clean [1] true) exCut).out txX = [0, 2] := by
  refine ⟨by unfold FreshIds exCut; decide, ?_, by decide, by decide⟩
  intro c hc
  simp only [exCut, List.mem_cons, List.not_mem_nil, or_false] at hc
  rcases hc with rfl | rfl | rfl <;> simp [opOf, startOp]

/-- C29 fails if the database refuses a write: the failure is only logged, and after a restart the number
is handed out again. -/
theorem C29_database_violated :
    ∃ h : List Cmd, FreshIds h ∧ NoCut h ∧
      seqNos (run (clean [1] true) h).out txX = [0, 1, 1] :=
  ⟨[.op (startOp 1 txX none), .op (.disk false), .op (.meter 1), .op (.disk true), .op (.boot [1]), .op (.meter 1)],
    by unfold FreshIds; decide, by unfold NoCut; decide, by decide⟩

/-! ## C61: the order of the events of a transaction -/

/-- C61, histories without power cuts (restarts allowed): the events of every transaction are Started, then
Updated events, then at most one Ended. -/
theorem C61_lifecycle_partial (conns : List Nat) (resume : Bool) (h : List Cmd) (hf : FreshIds h)
    (hd : DiskFine h) (hc : NoCut h) (x : Str) :
    types (run (clean conns resume) h).out x = [] ∨ Running (types (run (clean conns resume) h).out x) ∨
      Finished (types (run (clean conns resume) h).out x) :=
  (LInv.run h [] _ (Inv.clean conns resume) (LInv.clean conns resume) hc hf (by simp) hd).life x

/-- C61: a transaction that is running has sent its Started event and no Ended event. -/
theorem C61_running_partial (conns : List Nat) (resume : Bool) (h : List Cmd) (hf : FreshIds h)
    (hd : DiskFine h) (hc : NoCut h) (e : Nat) (t : Tx) (ht : (run (clean conns resume) h).tx e = some t) :
    Running (types (run (clean conns resume) h).out t.id) :=
  (LInv.run h [] _ (Inv.clean conns resume) (LInv.clean conns resume) hc hf (by simp) hd).held t.id
    (Or.inl ⟨e, t, ht, rfl⟩) (by simp)

example : types (run (clean [1] true) exRestart).out txX = [.started, .updated, .updated, .ended] := by decide
example : Finished (types (run (clean [1] true) exRestart).out txX) := ⟨2, by decide⟩

/-- C61 fails: power cut between the Ended event and the deletion of the row; the transaction is resumed
and ends a second time. -/
theorem C61_ended_twice_violated :
    types (run (clean [1] true)
      [.op (startOp 1 txX none), .cut (finishOp 1) 3, .op (finishOp 1)]).out txX =
      [.started, .ended, .ended] := by decide

/-- C61 fails: power cut between the storage of the new transaction and its Started event; it is resumed
and its first event is Updated. -/
theorem C61_started_lost_violated :
    types (run (clean [1] true)
      [.cut (startOp 1 txX none) 3, .op (.meter 1), .op (finishOp 1)]).out txX = [.updated, .ended] := by decide

/-- C61 (a started transaction ends) fails: after a restart without ResumeTransactionsOnBoot the
transaction is dropped and never gets an Ended event. -/
theorem C61_dropped_violated :
    types (run (clean [1] false)
      [.op (startOp 1 txX none), .op (.boot [1]), .op (finishOp 1), .op (startOp 1 txY none)]).out txX =
      [.started] := by decide

/-- C61 (a started transaction ends) fails: a second start at the same EVSE replaces the running
transaction without an Ended event for it. -/
theorem C61_replaced_violated :
    types (run (clean [1] true)
      [.op (startOp 1 txX none), .op (startOp 1 txY none), .op (finishOp 1)]).out txX = [.started] ∧
    types (run (clean [1] true)
      [.op (startOp 1 txX none), .op (startOp 1 txY none), .op (finishOp 1)]).out txY = [.started, .ended] := by
  decide

/-! ## C62: the charging state last reported -/

/-- C62, histories without restart: right after the application reported charging state `cs` of an EVSE
with a running transaction, the last event sent for that transaction carries `cs`. -/
theorem C62_reported_partial (conns : List Nat) (resume : Bool) (h : List Cmd) (hf : FreshIds h)
    (hd : DiskFine h) (hc : NoRestart h) (e : Nat) (cs : Charging) (tr : Trigger)
    (he : evseExists (run (clean conns resume) h).conns e = true) (t : Tx)
    (ht : (run (clean conns resume) h).tx e = some t) :
    ∃ ev, (events (run (clean conns resume) (h ++ [.op (.charging e cs tr)])).out t.id).getLast? = some ev ∧
      ev.charging = some cs := by
  obtain ⟨used, hi⟩ := Inv.run h 0 [] _ (Inv.clean conns resume) hf (by simp) hd
  have hcuts : cuts h = 0 := by
    unfold cuts
    rw [List.countP_eq_zero]
    intro c hc'
    simp [hc.1 c hc']
  have hcinv := CInv.run h [] _ (Inv.clean conns resume) (by intro e t ht; cases ht) hc hf (by simp) hd
  have hstep := hcinv.step hi (.charging e cs tr) (by simp [opId]) rfl
  have hrun : run (clean conns resume) (h ++ [.op (.charging e cs tr)]) =
      exec (run (clean conns resume) h) (steps (run (clean conns resume) h) (.charging e cs tr)) := by
    simp [run, step]
  rw [hrun]
  have key : ∃ t', (exec (run (clean conns resume) h)
      (steps (run (clean conns resume) h) (.charging e cs tr))).tx e = some t' ∧ t'.id = t.id ∧
      t'.charging = some cs := by
    simp only [steps]
    rw [if_neg (by simp [he]), ht]
    dsimp only
    by_cases hcs : t.charging = some cs
    · rw [if_pos hcs]
      exact ⟨t, ht, rfl, hcs⟩
    · rw [if_neg hcs, exec_cons, exec_cons, exec_cons, exec_nil]
      obtain ⟨_, _, _, _, _, htx, _, hb⟩ := bump_send_events e .updated tr false none
        (setTx (run (clean conns resume) h) e (some { t with charging := some cs })) hi.disk _
        (by simp only [setTx, if_true]; rfl)
      rw [htx, hb]
      exact ⟨{ t with charging := some cs, seqNo := t.seqNo + 1 }, by simp only [if_true], rfl, rfl⟩
  obtain ⟨t', ht', hid, hch⟩ := key
  obtain ⟨ev, h1, h2⟩ := hstep e t' ht' (by simp)
  rw [hid] at h1
  exact ⟨ev, h1, by rw [h2, hch]⟩

/-- C62, histories without restart: at every moment the last event of a running transaction carries its
present charging state. -/
theorem C62_current_partial (conns : List Nat) (resume : Bool) (h : List Cmd) (hf : FreshIds h)
    (hd : DiskFine h) (hc : NoRestart h) (e : Nat) (t : Tx) (ht : (run (clean conns resume) h).tx e = some t) :
    ∃ ev, (events (run (clean conns resume) h).out t.id).getLast? = some ev ∧ ev.charging = t.charging :=
  CInv.run h [] _ (Inv.clean conns resume) (by intro e t ht; cases ht) hc hf (by simp) hd e t ht (by simp)

def exCharging : List Cmd := [.op (startOp 1 txX none), .op (.charging 1 .charging (.other 2)), .op (.meter 1)]

example : FreshIds exCharging ∧ DiskFine exCharging ∧ NoRestart exCharging ∧
    evseExists (run (clean [1] true) exCharging).conns 1 = true ∧
    ((run (clean [1] true) exCharging).tx 1).isSome = true ∧
    (events (run (clean [1] true) (exCharging ++ [.op (.charging 1 .suspendedEV (.other 2))])).out txX).map Event.charging =
      [some .evConnected, some .charging, some .charging, some .suspendedEV] := by
  refine ⟨by unfold FreshIds exCharging; decide, ?_, ⟨by unfold NoCut exCharging; decide, by unfold exCharging; decide⟩, by decide, by decide, by decide⟩
  intro c hc
  simp only [exCharging, List.mem_cons, List.not_mem_nil, or_false] at hc
  rcases hc with rfl | rfl | rfl <;> simp [opOf, startOp]

/-- C62 fails after a restart: the charging state is not updated in the database, so after a restart the
station believes in the state of the start, and a report of that same state is swallowed: the CSMS keeps
the state Charging. -/
theorem C62_restart_violated :
    (events (run (clean [1] true) [.op (startOp 1 txX none), .op (.charging 1 .charging (.other 2)),
      .op (.boot [1]), .op (.charging 1 .evConnected (.other 2))]).out txX).map Event.charging =
      [some .evConnected, some .charging] := by decide

/-! ## C63: remote start ids -/

/-- C63, every history with power cuts and restarts: if the CSMS uses each remote start id once and the
application passes none of its own, at most one event ever carries a given id. -/
theorem C63_at_most_once (conns : List Nat) (resume : Bool) (h : List Cmd)
    (hn : (h.filterMap remoteIdOf).Nodup) (ho : ∀ c ∈ h, NoOwnRemoteId c) (rid : Int) :
    (carrying (run (clean conns resume) h).out rid).length ≤ 1 := by
  have hr := RInv.run h [] _ (RInv.clean conns resume) (by
    simp only [List.nil_append]
    have : (remotesOf h).map (fun p => p.2.2) = h.filterMap remoteIdOf := by
      unfold remotesOf
      rw [List.map_filterMap]
      congr 1
      funext c
      cases c with
      | op o => cases o <;> rfl
      | cut o k => cases o <;> rfl
    rw [this]; exact hn) ho
  exact hr.once rid

/-- C63: an event carries a remote start id only if a RequestStartTransaction with this id was accepted
before, for the same token and for this EVSE or for no EVSE in particular; its trigger is RemoteStart. -/
theorem C63_cause (conns : List Nat) (resume : Bool) (h : List Cmd)
    (hn : (h.filterMap remoteIdOf).Nodup) (ho : ∀ c ∈ h, NoOwnRemoteId c) (rid : Int) (ev : Event)
    (hev : ev ∈ carrying (run (clean conns resume) h).out rid) :
    ∃ c ∈ h, ∃ e tok, opOf c = .remoteStart e tok rid ∧ ev.trigger = .remoteStart ∧
      (∃ k, ev.token = some k ∧ ciEq tok.id k.id = true) ∧ (e = 0 ∨ ev.evse = some e) := by
  have hr := RInv.run h [] _ (RInv.clean conns resume) (by
    simp only [List.nil_append]
    have : (remotesOf h).map (fun p => p.2.2) = h.filterMap remoteIdOf := by
      unfold remotesOf
      rw [List.map_filterMap]
      congr 1
      funext c
      cases c with
      | op o => cases o <;> rfl
      | cut o k => cases o <;> rfl
    rw [this]; exact hn) ho
  obtain ⟨p, hp, a1, a2, a3, a4⟩ := hr.cause rid ev hev
  simp only [List.nil_append] at hp
  obtain ⟨c, hc, hcp⟩ := List.mem_filterMap.mp hp
  have hrid : p.2.2 = rid := by
    have : ev.remoteStartId = some rid := by simpa [carrying] using (List.mem_filter.mp hev).2
    rw [this] at a2
    exact (Option.some.inj a2).symm
  refine ⟨c, hc, p.1, p.2.1, ?_, a1, a3, a4⟩
  cases hco : opOf c <;> rw [hco] at hcp <;> simp only [opRemote] at hcp <;> try cases hcp
  rw [← hrid]

def exRemote : List Cmd :=
  [.op (.remoteStart 2 tokA 7), .op (.remoteStart 0 tokC 8), .op (startOp 1 txX (some tokB)),
   .op (startOp 2 txY (some tokB)), .op (.meter 2)]

example : (exRemote.filterMap remoteIdOf).Nodup ∧ (∀ c ∈ exRemote, NoOwnRemoteId c) ∧
    (carrying (run (clean [1, 1] true) exRemote).out 7).map Event.txId = [txY] := by
  refine ⟨by decide, ?_, by decide⟩
  intro c hc
  simp only [exRemote, List.mem_cons, List.not_mem_nil, or_false] at hc
  rcases hc with rfl | rfl | rfl | rfl | rfl <;> simp [NoOwnRemoteId, startOp]

/-- A remote start for EVSE `e` (or for any) and token `tok` is waiting after this history and no other
one waits for a matching token. -/
theorem find_remote_single (m : List (Nat × Token × Int)) (e : Nat) (tok : Token) (rid : Int)
    (k : Token) (oe : Option Nat) (h : ∀ p ∈ m, ciEq p.2.1.id k.id = false)
    (hm : remoteMatches (some k) oe (e, tok, rid) = true) :
    (putRemote m e tok rid).find? (remoteMatches (some k) oe) = some (e, tok, rid) := by
  have hnone : ∀ p ∈ m, remoteMatches (some k) oe p = false := by
    intro p hp
    simp [remoteMatches, h p hp]
  have hf : ∀ q : Nat × Token × Int → Bool, (m.filter q).find? (remoteMatches (some k) oe) = none := by
    intro q
    rw [List.find?_eq_none]
    intro p hp
    simp [hnone p (List.mem_filter.mp hp).1]
  unfold putRemote
  rw [List.find?_append, List.find?_append, hf]
  simp [hm]

/-- C63: a transaction started at EVSE `e` right after an accepted RequestStartTransaction for this EVSE (or
for none in particular) with the same token carries its remote start id in the Started event, whatever
happened before. -/
theorem C63_applied (s : State) (r e k : Nat) (tok tok' : Token) (rid : Int) (x : Str) (tr : Trigger)
    (ch : Charging) (he : evseExists s.conns e = true) (hk : connectorExists s.conns e k = true)
    (htok : ciEq tok.id tok'.id = true) (hr : r = 0 ∨ r = e)
    (hother : ∀ p ∈ s.remote, ciEq p.2.1.id tok'.id = false)
    (hdb : openThrows s e (newTx s k x (some tok') none ch) = false) :
    ∃ ev, (run s [.op (.remoteStart r tok rid), .op (.start e k x tr (some tok') none ch)]).out =
        s.out ++ [Out.event ev] ∧
      ev.type = .started ∧ ev.txId = x ∧ ev.remoteStartId = some rid ∧ ev.trigger = .remoteStart ∧
      ev.evse = some e ∧ ev.token = some tok' := by
  let s1 : State := { s with remote := putRemote s.remote r tok rid }
  have hs1 : run s [.op (.remoteStart r tok rid), .op (.start e k x tr (some tok') none ch)] =
      exec s1 (steps s1 (.start e k x tr (some tok') none ch)) := rfl
  rw [hs1]
  simp only [steps]
  have he1 : evseExists s1.conns e = true := he
  have hk1 : connectorExists s1.conns e k = true := hk
  have hdb1 : openThrows s1 e (newTx s1 k x (some tok') none ch) = false := by
    have : openThrows s1 e (newTx s1 k x (some tok') none ch) = openThrows s e (newTx s k x (some tok') none ch) := by
      unfold openThrows canInsert deleteOwn
      show (s.resume && _ && _) = (s.resume && _ && _)
      have hg : getRow s1 e = getRow s e := rfl
      rw [hg]
      cases getRow s e with
      | none => rfl
      | some r => simp only [deleteRow]; show _ = _; by_cases hdk : s.diskOk = true <;> simp [s1, hdk, newTx]
    rw [this]; exact hdb
  rw [if_neg (by simp [he1, hk1]), hdb1]
  rw [exec_append, exec_append, exec_cons, exec_nil]
  -- the database part touches neither memory nor outputs
  have open_ : ∀ s2 : State, (exec s2 (openSteps s1 e (newTx s1 k x (some tok') none ch))).tx = s2.tx ∧
      (exec s2 (openSteps s1 e (newTx s1 k x (some tok') none ch))).out = s2.out ∧
      (exec s2 (openSteps s1 e (newTx s1 k x (some tok') none ch))).remote = s2.remote := by
    intro s2
    unfold openSteps
    have ins : ∀ s3 : State, (insertRow e (newTx s1 k x (some tok') none ch) s3).tx = s3.tx ∧
        (insertRow e (newTx s1 k x (some tok') none ch) s3).out = s3.out ∧
        (insertRow e (newTx s1 k x (some tok') none ch) s3).remote = s3.remote := by
      intro s3; unfold insertRow; split <;> exact ⟨rfl, rfl, rfl⟩
    have del : ∀ s3 : State, (deleteOwn e s3).tx = s3.tx ∧ (deleteOwn e s3).out = s3.out ∧
        (deleteOwn e s3).remote = s3.remote := by
      intro s3
      unfold deleteOwn deleteRow
      split
      · exact ⟨rfl, rfl, rfl⟩
      · split <;> exact ⟨rfl, rfl, rfl⟩
    split
    · exact ⟨rfl, rfl, rfl⟩
    · split
      · exact ins s2
      · obtain ⟨d1, d2, d3⟩ := del s2
        obtain ⟨i1, i2, i3⟩ := ins (deleteOwn e s2)
        exact ⟨by rw [exec_cons, exec_cons, exec_nil, i1, d1], by rw [exec_cons, exec_cons, exec_nil, i2, d2],
          by rw [exec_cons, exec_cons, exec_nil, i3, d3]⟩
  obtain ⟨o1, o2, o3⟩ := open_ (setTx s1 e (some (newTx s1 k x (some tok') none ch)))
  generalize hs3 : exec (setTx s1 e (some (newTx s1 k x (some tok') none ch)))
    (openSteps s1 e (newTx s1 k x (some tok') none ch)) = s3 at o1 o2 o3
  have ht3 : s3.tx e = some (newTx s1 k x (some tok') none ch) := by rw [o1]; simp [setTx]
  have hout3 : s3.out = s.out := by rw [o2]; rfl
  have hrem3 : s3.remote = putRemote s.remote r tok rid := by rw [o3]; rfl
  simp only [Bool.false_eq_true, if_false, exec_cons, exec_nil]
  obtain ⟨t4, ht4, hid4, hout4, hrem4⟩ : ∃ t4, (bump e s3).tx e = some t4 ∧ t4.id = x ∧ (bump e s3).out = s3.out ∧
      (bump e s3).remote = s3.remote := by
    unfold bump
    rw [ht3]
    dsimp only
    split
    · unfold updateRows
      split <;> exact ⟨_, by simp only [setTx, if_true]; rfl, rfl, rfl, rfl⟩
    · exact ⟨_, by simp only [setTx, if_true]; rfl, rfl, rfl, rfl⟩
  unfold send
  rw [ht4]
  dsimp only
  have hfind : (bump e s3).remote.find? (remoteMatches (some tok') (if true = true then some e else none)) =
      some (r, tok, rid) := by
    rw [hrem4, hrem3]
    refine find_remote_single _ _ _ _ _ _ hother ?_
    simp only [remoteMatches, htok, Bool.true_and, if_true]
    rcases hr with hr | hr <;> simp [hr]
  rw [hfind]
  exact ⟨_, by simp only [emit]; rw [hout4, hout3], rfl, hid4, rfl, rfl, rfl, rfl⟩

example : evseExists (clean [1, 1] true).conns 2 = true ∧ connectorExists (clean [1, 1] true).conns 2 1 = true ∧
    ciEq tokA.id tokB.id = true ∧
    openThrows (clean [1, 1] true) 2 (newTx (clean [1, 1] true) 1 txX (some tokB) none .evConnected) = false := by
  decide

/-- C63 fails when the application reports a transaction of another user first: a remote start for no EVSE
in particular (id 8) and one for EVSE 2 (id 7) with the same token; the transaction of EVSE 2 gets id 8. -/
theorem C63_wrong_id_violated :
    (events (run (clean [1, 1] true)
      [.op (.remoteStart 2 tokA 7), .op (.remoteStart 0 tokA 8), .op (startOp 2 txX (some tokA))]).out txX).map
      Event.remoteStartId = [some 8] := by decide

/-! ## C30: scheduled resets -/

/-- C30: the answer to a Reset request for the whole station: Rejected if not allowed; otherwise
Scheduled exactly if it is OnIdle and a transaction is running; otherwise Accepted, and only then the
reset takes place at once. -/
theorem C30_station_answer (s : State) (type : ResetType) (allowed : Bool) (ar : Option Bool) :
    ∃ l l', (run s [.op (.resetReq none type allowed ar)]).out = s.out ++ l ++ l' ∧
      (∀ o ∈ l', ∀ st, o ≠ .resetAnswer st) ∧
      ((allowed = false ∧ l = [.resetAnswer .rejected] ∧ l' = []) ∨
       (allowed = true ∧ type = .onIdle ∧ AnyActive s ∧ l = [.resetAnswer .scheduled] ∧
          ∀ o ∈ l', ∀ e t, o ≠ .reset e t) ∨
       (allowed = true ∧ ¬(type = .onIdle ∧ AnyActive s) ∧ l = [.resetAnswer .accepted] ∧
          l'.getLast? = some (.reset none .immediate))) := by
  have emits : ∀ (l : List Out) (s0 : State),
      exec s0 (l.map (fun o => fun s => emit s o)) = { s0 with out := s0.out ++ l } := by
    intro l
    induction l with
    | nil => intro s0; simp [exec]
    | cons o l ih => intro s0; rw [List.map_cons, exec_cons, ih]; simp [emit]
  have mapped : ∀ (f : Nat → Out) (l : List Nat), l.map (fun e => fun s => emit s (f e)) =
      (l.map f).map (fun o => fun s => emit s o) := by
    intro f l; rw [List.map_map]; rfl
  have hempty : (resetActive s none).isEmpty = false ↔ AnyActive s := by
    rw [← any_active]
    simp only [resetActive]
    rw [← Bool.not_eq_true, List.isEmpty_iff, List.filter_eq_nil_iff, List.any_eq_true]
    constructor
    · intro h
      exact Classical.byContradiction fun hc => h (fun a ha hact => hc ⟨a, ha, hact⟩)
    · rintro ⟨a, ha, hact⟩ h
      exact h a ha hact
  show ∃ l l', (exec s (steps s (.resetReq none type allowed ar))).out = _ ∧ _
  simp only [steps, unknownEvse, Bool.false_eq_true, if_false]
  cases allowed with
  | false =>
    have hst : resetStatus s none type false ar = .rejected := by simp [resetStatus]
    rw [hst]
    refine ⟨[.resetAnswer .rejected], [], ?_, by simp, Or.inl ⟨rfl, rfl, rfl⟩⟩
    simp [exec, emit]
  | true =>
    by_cases hA : AnyActive s
    · have hne := hempty.mpr hA
      cases type with
      | onIdle =>
        have hst : resetStatus s none .onIdle true ar = .scheduled := by simp [resetStatus, hne]
        rw [hst]
        simp only [reduceCtorEq, if_true, if_false, false_or, hne, Bool.false_eq_true, List.append_nil]
        rw [mapped Out.unavailable, exec_append, emits]
        refine ⟨[.resetAnswer .scheduled], (resetIdle s none).map Out.unavailable, ?_, ?_, Or.inr (Or.inl ⟨by trivial, by trivial, hA, rfl, ?_⟩)⟩
        · simp [exec, schedule, emit]
        · intro o ho st
          obtain ⟨_, _, rfl⟩ := List.mem_map.mp ho; simp
        · intro o ho e t
          obtain ⟨_, _, rfl⟩ := List.mem_map.mp ho; simp
      | immediate =>
        have hst : resetStatus s none .immediate true ar = .accepted := by simp [resetStatus]
        rw [hst]
        simp only [reduceCtorEq, if_true, if_false, false_or, hne, Bool.false_eq_true, List.nil_append]
        rw [mapped Out.stop, exec_append, exec_append, emits]
        refine ⟨[.resetAnswer .accepted], (resetActive s none).map Out.stop ++ [.reset none .immediate], ?_, ?_,
          Or.inr (Or.inr ⟨by trivial, by simp, rfl, by simp⟩)⟩
        · simp [exec, emit]
        · intro o ho st
          rcases List.mem_append.mp ho with ho | ho
          · obtain ⟨_, _, rfl⟩ := List.mem_map.mp ho; simp
          · rw [List.mem_singleton.mp ho]; simp
    · have hem : (resetActive s none).isEmpty = true := by
        cases h : (resetActive s none).isEmpty with
        | true => rfl
        | false => exact absurd (hempty.mp h) hA
      have hst : resetStatus s none type true ar = .accepted := by simp [resetStatus, hem]
      rw [hst]
      refine ⟨[.resetAnswer .accepted], [.reset none .immediate], ?_, by simp,
        Or.inr (Or.inr ⟨rfl, fun hc => hA hc.2, rfl, by simp⟩)⟩
      simp [exec, emit, hem]

/-- C30: a scheduled reset of the station is carried out only when no transaction is running. -/
theorem C30_only_when_idle (s : State) (c : Op) (l : List Out)
    (h : (run s [.op c]).out = s.out ++ l) (hl : Out.reset none .onIdle ∈ l) :
    ¬AnyActive (run s [.op c]) := by
  have hrun : run s [.op c] = exec s (steps s c) := rfl
  rw [hrun] at h ⊢
  have quiet_absurd : Quiet s (exec s (steps s c)) → False := by
    intro q
    obtain ⟨m, hm, hm'⟩ := q.out
    rw [h] at hm
    have := hm' _ (List.append_cancel_left hm ▸ hl)
    simp [isIdleReset] at this
  cases hc : c with
  | finish e tr tok ch =>
    rw [hc] at h quiet_absurd
    by_cases hx : evseExists s.conns e = true ∧ active s e = true
    · obtain ⟨s1, ev, h1, h2, h3, h4, h5, h6⟩ := finish_facts s e tr tok ch hx.1 hx.2
      rw [h1] at h ⊢
      intro hA
      have hA1 : AnyActive s1 := by
        obtain ⟨e', a1, a2, a3⟩ := hA
        rw [afterFinish_conns] at a2
        have : active (afterFinish e s1) e' = true := a3
        rw [afterFinish_active] at this
        exact ⟨e', a1, a2, this⟩
      have hno : ∃ m, (afterFinish e s1).out = s1.out ++ m ∧ Out.reset none .onIdle ∉ m := by
        unfold afterFinish
        split
        · exact ⟨[], by simp, by simp⟩
        · split
          · split
            · exact ⟨[_], rfl, by simp⟩
            · exact ⟨[], by simp, by simp⟩
          · rw [if_pos ((any_active s1).mpr hA1)]
            exact ⟨[_], rfl, by simp⟩
      obtain ⟨m, hm, hm'⟩ := hno
      rw [hm, h6, List.append_assoc] at h
      have := List.append_cancel_left h
      rw [← this] at hl
      rcases List.mem_append.mp hl with hl | hl
      · simp at hl
      · exact hm' hl
    · exact absurd (finish_idle s e tr tok ch hx) quiet_absurd
  | resetReq oe ty al ar =>
    rw [hc] at h
    obtain ⟨m, hm, hm', _⟩ := reset_facts s oe ty al ar
    rw [h] at hm
    have := hm' _ (List.append_cancel_left hm ▸ hl)
    simp [isIdleReset] at this
  | boot conns =>
    exfalso
    rw [hc] at h
    have hboot : (exec s (steps s (.boot conns))).out = s.out := by
      show (bootAll conns s).out = s.out
      unfold bootAll
      have : ∀ (l : List Nat) (s0 : State), (l.foldl bootEvse s0).out = s0.out := by
        intro l
        induction l with
        | nil => intro s0; rfl
        | cons e l ih =>
          intro s0
          rw [List.foldl_cons, ih]
          unfold bootEvse
          split
          · rfl
          · split
            · rfl
            · unfold deleteRow; split <;> rfl
      rw [this]; rfl
    rw [hboot] at h
    have : l = [] := by
      have h' : s.out ++ [] = s.out ++ l := by rw [List.append_nil]; exact h
      exact (List.append_cancel_left h').symm
    rw [this] at hl
    cases hl
  | start e k x tr tok rid ch => exact (quiet_absurd (Quiet.op s c (by rw [hc]; trivial))).elim
  | authorized e tok => exact (quiet_absurd (Quiet.op s c (by rw [hc]; trivial))).elim
  | charging e st tr => exact (quiet_absurd (Quiet.op s c (by rw [hc]; trivial))).elim
  | meter e => exact (quiet_absurd (Quiet.op s c (by rw [hc]; trivial))).elim
  | triggerMessage oe => exact (quiet_absurd (Quiet.op s c (by rw [hc]; trivial))).elim
  | remoteStart e tok rid => exact (quiet_absurd (Quiet.op s c (by rw [hc]; trivial))).elim
  | setResume b => exact (quiet_absurd (Quiet.op s c (by rw [hc]; trivial))).elim
  | disk ok => exact (quiet_absurd (Quiet.op s c (by rw [hc]; trivial))).elim

/-- A Reset OnIdle request for a single EVSE. -/
def EvseReset : Op → Prop
  | .resetReq (some _) _ _ _ => True
  | _ => False

/-- A scheduled reset of the station waits. -/
def StationPending (s : State) : Prop := s.resetScheduled = true ∧ s.resetEvses = [] ∧ AnyActive s

theorem Quiet.pending {s s' : State} (q : Quiet s s') (h : StationPending s) : StationPending s' := by
  obtain ⟨h1, h2, e, a1, a2, a3⟩ := h
  exact ⟨by rw [q.sched, h1], by rw [q.evses, h2], e, a1, by rw [q.conns]; exact a2, q.act e a3⟩

theorem StationPending.step {s : State} (h : StationPending s) (o : Op) (hb : isBoot o = false)
    (he : ¬EvseReset o) :
    StationPending (exec s (steps s o)) ∨
    ∃ l, (exec s (steps s o)).out = s.out ++ l ∧ Out.reset none .onIdle ∈ l := by
  cases o with
  | finish e tr tok ch =>
    by_cases hx : evseExists s.conns e = true ∧ active s e = true
    · obtain ⟨s1, ev, h1, h2, h3, h4, h5, h6⟩ := finish_facts s e tr tok ch hx.1 hx.2
      rw [h1]
      by_cases hA : AnyActive s1
      · left
        have : afterFinish e s1 = emit s1 (.unavailable e) := by
          unfold afterFinish
          rw [if_neg (by rw [h3, h.1]; simp), if_neg (by rw [h4, h.2.1]; simp), if_pos ((any_active s1).mpr hA)]
        rw [this]
        exact ⟨by show s1.resetScheduled = true; rw [h3, h.1], by show s1.resetEvses = []; rw [h4, h.2.1], hA⟩
      · right
        refine ⟨[Out.event ev, Out.reset none .onIdle], ?_, by simp⟩
        unfold afterFinish
        rw [if_neg (by rw [h3, h.1]; simp), if_neg (by rw [h4, h.2.1]; simp),
          if_neg (fun hh => hA ((any_active s1).mp hh))]
        show s1.out ++ _ = _
        rw [h6, List.append_assoc]
        rfl
    · exact Or.inl ((finish_idle s e tr tok ch hx).pending h)
  | resetReq oe ty al ar =>
    left
    cases oe with
    | some e => exact absurd trivial he
    | none =>
      obtain ⟨l, _, _, r3, r4, r5, r6⟩ := reset_facts s none ty al ar
      obtain ⟨h1, h2, e, a1, a2, a3⟩ := h
      refine ⟨by rw [r5, h1]; simp, ?_, e, a1, by rw [r3]; exact a2, by rw [r4]; exact a3⟩
      rw [r6]
      split
      · exact h2
      · exact h2
  | boot conns => exact absurd hb (by simp [isBoot])
  | start e k x tr tok rid ch => exact Or.inl (Quiet.pending (Quiet.op s _ (by trivial)) h)
  | authorized e tok => exact Or.inl (Quiet.pending (Quiet.op s _ (by trivial)) h)
  | charging e st tr => exact Or.inl (Quiet.pending (Quiet.op s _ (by trivial)) h)
  | meter e => exact Or.inl (Quiet.pending (Quiet.op s _ (by trivial)) h)
  | triggerMessage oe => exact Or.inl (Quiet.pending (Quiet.op s _ (by trivial)) h)
  | remoteStart e tok rid => exact Or.inl (Quiet.pending (Quiet.op s _ (by trivial)) h)
  | setResume b => exact Or.inl (Quiet.pending (Quiet.op s _ (by trivial)) h)
  | disk ok => exact Or.inl (Quiet.pending (Quiet.op s _ (by trivial)) h)

theorem exec_extends (s : State) (o : Op) : ∃ l, (exec s (steps s o)).out = s.out ++ l := by
  cases o with
  | finish e tr tok ch =>
    by_cases hx : evseExists s.conns e = true ∧ active s e = true
    · obtain ⟨s1, ev, h1, h2, h3, h4, h5, h6⟩ := finish_facts s e tr tok ch hx.1 hx.2
      rw [h1]
      have : ∃ m, (afterFinish e s1).out = s1.out ++ m := by
        unfold afterFinish
        split
        · exact ⟨[], by simp⟩
        · split
          · split
            · exact ⟨[_], rfl⟩
            · exact ⟨[], by simp⟩
          · split
            · exact ⟨[_], rfl⟩
            · exact ⟨[_], rfl⟩
      obtain ⟨m, hm⟩ := this
      exact ⟨[Out.event ev] ++ m, by rw [hm, h6, List.append_assoc]⟩
    · obtain ⟨l, hl, _⟩ := (finish_idle s e tr tok ch hx).out
      exact ⟨l, hl⟩
  | resetReq oe ty al ar =>
    obtain ⟨l, hl, _⟩ := reset_facts s oe ty al ar
    exact ⟨l, hl⟩
  | boot conns =>
    refine ⟨[], ?_⟩
    rw [List.append_nil]
    show (bootAll conns s).out = s.out
    unfold bootAll
    have : ∀ (l : List Nat) (s0 : State), (l.foldl bootEvse s0).out = s0.out := by
      intro l
      induction l with
      | nil => intro s0; rfl
      | cons e l ih =>
        intro s0
        rw [List.foldl_cons, ih]
        unfold bootEvse
        split
        · rfl
        · split
          · rfl
          · unfold deleteRow; split <;> rfl
    rw [this]; rfl
  | start e k x tr tok rid ch => obtain ⟨l, hl, _⟩ := (Quiet.op s (.start e k x tr tok rid ch) trivial).out; exact ⟨l, hl⟩
  | authorized e tok => obtain ⟨l, hl, _⟩ := (Quiet.op s (.authorized e tok) trivial).out; exact ⟨l, hl⟩
  | charging e st tr => obtain ⟨l, hl, _⟩ := (Quiet.op s (.charging e st tr) trivial).out; exact ⟨l, hl⟩
  | meter e => obtain ⟨l, hl, _⟩ := (Quiet.op s (.meter e) trivial).out; exact ⟨l, hl⟩
  | triggerMessage oe => obtain ⟨l, hl, _⟩ := (Quiet.op s (.triggerMessage oe) trivial).out; exact ⟨l, hl⟩
  | remoteStart e tok rid => obtain ⟨l, hl, _⟩ := (Quiet.op s (.remoteStart e tok rid) trivial).out; exact ⟨l, hl⟩
  | setResume b => obtain ⟨l, hl, _⟩ := (Quiet.op s (.setResume b) trivial).out; exact ⟨l, hl⟩
  | disk ok => obtain ⟨l, hl, _⟩ := (Quiet.op s (.disk ok) trivial).out; exact ⟨l, hl⟩

theorem run_extends : ∀ (h : List Op) (s : State), ∃ l, (run s (h.map .op)).out = s.out ++ l := by
  intro h
  induction h with
  | nil => intro s; exact ⟨[], by simp [run]⟩
  | cons o h ih =>
    intro s
    obtain ⟨l, hl⟩ := exec_extends s o
    obtain ⟨m, hm⟩ := ih (exec s (steps s o))
    exact ⟨l ++ m, by rw [← List.append_assoc, ← hl, ← hm]; rfl⟩

/-- C30, station, without restart and without Reset requests for single EVSEs: after an OnIdle request was
answered with Scheduled, the reset has been carried out as soon as no transaction is running any more,
whatever happens in between. -/
theorem C30_station_partial (s : State) (ar : Option Bool) (hs : s.resetEvses = []) (hA : AnyActive s)
    (h : List Op) (hb : ∀ o ∈ h, isBoot o = false ∧ ¬EvseReset o)
    (hidle : ¬AnyActive (run s (.op (.resetReq none .onIdle true ar) :: h.map .op))) :
    ∃ l, (run s (.op (.resetReq none .onIdle true ar) :: h.map .op)).out = s.out ++ l ∧
      Out.resetAnswer .scheduled ∈ l ∧ Out.reset none .onIdle ∈ l := by
  obtain ⟨l0, l0', a1, _, a3⟩ := C30_station_answer s .onIdle true ar
  have hsched : Out.resetAnswer .scheduled ∈ l0 ++ l0' := by
    rcases a3 with ⟨h1, _⟩ | ⟨_, _, _, h1, _⟩ | ⟨_, h1, _⟩
    · cases h1
    · rw [h1]; simp
    · exact absurd ⟨rfl, hA⟩ h1
  have hne : (resetActive s none).isEmpty = false := by
    have := (any_active s).mpr hA
    simp only [resetActive]
    rw [← Bool.not_eq_true, List.isEmpty_iff, List.filter_eq_nil_iff]
    rw [List.any_eq_true] at this
    obtain ⟨a, ha, hact⟩ := this
    exact fun hh => hh a ha hact
  have hst : resetStatus s none .onIdle true ar = .scheduled := by simp [resetStatus, hne]
  have hpend : StationPending (exec s (steps s (.resetReq none .onIdle true ar))) := by
    obtain ⟨l, _, _, r3, r4, r5, r6⟩ := reset_facts s none .onIdle true ar
    obtain ⟨e, b1, b2, b3⟩ := hA
    refine ⟨by rw [r5, hst]; simp [unknownEvse], ?_, e, b1, by rw [r3]; exact b2, by rw [r4]; exact b3⟩
    rw [r6]
    split
    · exact hs
    · exact hs
  have key : ∀ (h : List Op) (s1 : State), StationPending s1 → (∀ o ∈ h, isBoot o = false ∧ ¬EvseReset o) →
      ¬AnyActive (run s1 (h.map .op)) →
      ∃ l, (run s1 (h.map .op)).out = s1.out ++ l ∧ Out.reset none .onIdle ∈ l := by
    intro h
    induction h with
    | nil => intro s1 hp _ hi; exact absurd hp.2.2 hi
    | cons o h ih =>
      intro s1 hp hb hi
      have hrun : run s1 ((o :: h).map .op) = run (exec s1 (steps s1 o)) (h.map .op) := rfl
      rw [hrun] at hi ⊢
      rcases hp.step o (hb o (by simp)).1 (hb o (by simp)).2 with hp' | ⟨l, hl, hmem⟩
      · obtain ⟨m, hm, hmem⟩ := ih _ hp' (fun o' ho' => hb o' (List.mem_cons_of_mem _ ho')) hi
        obtain ⟨l, hl⟩ := exec_extends s1 o
        exact ⟨l ++ m, by rw [hm, hl, List.append_assoc], List.mem_append_right _ hmem⟩
      · obtain ⟨m, hm⟩ := run_extends h (exec s1 (steps s1 o))
        exact ⟨l ++ m, by rw [hm, hl, List.append_assoc], List.mem_append_left _ hmem⟩
  obtain ⟨m, hm, hmem⟩ := key h _ hpend hb hidle
  refine ⟨(l0 ++ l0') ++ m, ?_, List.mem_append_left _ hsched, List.mem_append_right _ hmem⟩
  have hrun : run s (.op (.resetReq none .onIdle true ar) :: h.map .op) =
      run (exec s (steps s (.resetReq none .onIdle true ar))) (h.map .op) := rfl
  rw [hrun, hm]
  have a1' : (exec s (steps s (.resetReq none .onIdle true ar))).out = s.out ++ l0 ++ l0' := a1
  rw [a1']
  simp [List.append_assoc]

def exTwo : State := run (clean [1, 1] true) [.op (startOp 1 txX none), .op (startOp 2 txY none)]

example : exTwo.resetEvses = [] ∧ AnyActive exTwo ∧
    (run exTwo (.op (.resetReq none .onIdle true none) :: [finishOp 2, .meter 1, finishOp 1].map .op)).out.drop 2 =
      [.resetAnswer .scheduled,
       .event { type := .ended, txId := txY, seqNo := 1, trigger := .other 1, charging := some .idle, remoteStartId := none, evse := none, token := none, stopped := true },
       .unavailable 2,
       .event { type := .updated, txId := txX, seqNo := 1, trigger := .meterValue, charging := some .evConnected, remoteStartId := none, evse := none, token := none, stopped := false },
       .event { type := .ended, txId := txX, seqNo := 2, trigger := .other 1, charging := some .idle, remoteStartId := none, evse := none, token := none, stopped := true },
       .reset none .onIdle] :=
  ⟨by decide, ⟨1, by decide, by decide, by decide⟩, by decide⟩

/-- The transaction of EVSE `e` is finished by this operation. -/
def finishes (e : Nat) : Op → Bool
  | .finish e' _ _ _ => e' == e
  | _ => false

/-- C30, single EVSE with a running transaction, without restart: after an OnIdle request for it was
scheduled, it is reset when its transaction ends, and not before, whatever happens at other EVSEs. -/
theorem C30_evse_partial (s : State) (e : Nat) (ar : Option Bool) (har : ar ≠ some false)
    (he : evseExists s.conns e = true) (ha : active s e = true) (h : List Op)
    (hb : ∀ o ∈ h, isBoot o = false ∧ finishes e o = false) (tr : Trigger) (tok : Option Token) (ch : Charging) :
    ∃ l l', (run s (.op (.resetReq (some e) .onIdle true ar) :: h.map .op)).out = s.out ++ l ∧
      Out.resetAnswer .scheduled ∈ l ∧ Out.reset (some e) .onIdle ∉ l ∧
      (run s (.op (.resetReq (some e) .onIdle true ar) :: h.map .op ++ [.op (.finish e tr tok ch)])).out =
        s.out ++ l ++ l' ∧ Out.reset (some e) .onIdle ∈ l' := by
  -- the invariant
  let P : State → Prop := fun s => s.resetScheduled = true ∧ e ∈ s.resetEvses ∧ active s e = true ∧ evseExists s.conns e = true
  have hQ : ∀ s s', Quiet s s' → P s → P s' := by
    intro s s' q ⟨h1, h2, h3, h4⟩
    exact ⟨by rw [q.sched, h1], by rw [q.evses]; exact h2, q.act e h3, by rw [q.conns]; exact h4⟩
  have hno : ∀ l : List Out, (∀ o ∈ l, isIdleReset o = false) → Out.reset (some e) .onIdle ∉ l := by
    intro l hl hm
    have := hl _ hm
    simp [isIdleReset] at this
  have hstep : ∀ (s1 : State) (o : Op), P s1 → isBoot o = false → finishes e o = false →
      P (exec s1 (steps s1 o)) ∧ ∃ l, (exec s1 (steps s1 o)).out = s1.out ++ l ∧ Out.reset (some e) .onIdle ∉ l := by
    intro s1 o hP hbo hfo
    have quiet : Quiet s1 (exec s1 (steps s1 o)) → P (exec s1 (steps s1 o)) ∧
        ∃ l, (exec s1 (steps s1 o)).out = s1.out ++ l ∧ Out.reset (some e) .onIdle ∉ l := by
      intro q
      obtain ⟨l, hl, hl'⟩ := q.out
      exact ⟨hQ _ _ q hP, l, hl, hno l hl'⟩
    cases o with
    | finish e' tr tok ch =>
      by_cases hx : evseExists s1.conns e' = true ∧ active s1 e' = true
      · have hne : e' ≠ e := by simpa [finishes] using hfo
        obtain ⟨s2, ev, h1, h2, h3, h4, h5, h6⟩ := finish_facts s1 e' tr tok ch hx.1 hx.2
        rw [h1]
        have hmem : e ∈ s2.resetEvses := by rw [h4]; exact hP.2.1
        have hact : active s2 e = true := by rw [h5, if_neg (fun h => hne h.symm)]; exact hP.2.2.1
        have hex : evseExists s2.conns e = true := by rw [h2]; exact hP.2.2.2
        have hsch : s2.resetScheduled = true := by rw [h3]; exact hP.1
        have hnil : s2.resetEvses ≠ [] := by intro hh; rw [hh] at hmem; cases hmem
        unfold afterFinish
        rw [if_neg (by simp [hsch]), if_pos hnil]
        split
        · have hmem' : e ∈ s2.resetEvses.filter (fun e => e != e') :=
            List.mem_filter.mpr ⟨hmem, by simpa using fun h => hne h.symm⟩
          refine ⟨⟨?_, hmem', hact, hex⟩, [Out.event ev, Out.reset (some e') .onIdle], ?_, ?_⟩
          · show (!(s2.resetEvses.filter (fun e => e != e')).isEmpty) = true
            cases hr : s2.resetEvses.filter (fun e => e != e') with
            | nil => rw [hr] at hmem'; cases hmem'
            | cons a l => rfl
          · show s2.out ++ _ = _
            rw [h6, List.append_assoc]; rfl
          · simp only [List.mem_cons, reduceCtorEq, Out.reset.injEq, Option.some.injEq, and_true, false_or,
              List.not_mem_nil, or_false]
            exact fun h => hne h.symm
        · exact ⟨⟨hsch, hmem, hact, hex⟩, [Out.event ev], h6, by simp⟩
      · exact quiet (finish_idle s1 e' tr tok ch hx)
    | resetReq oe ty al ar' =>
      obtain ⟨l, r1, r2, r3, r4, r5, r6⟩ := reset_facts s1 oe ty al ar'
      refine ⟨⟨by rw [r5, hP.1]; simp, ?_, by unfold active; rw [r4]; exact hP.2.2.1, by rw [r3]; exact hP.2.2.2⟩, l, r1, hno l r2⟩
      rw [r6]
      split
      · cases oe with
        | none => exact hP.2.1
        | some e' =>
          simp only [schedule]
          split
          · exact hP.2.1
          · exact List.mem_cons_of_mem _ hP.2.1
      · exact hP.2.1
    | boot conns => exact absurd hbo (by simp [isBoot])
    | start e k x tr tok rid ch => exact quiet (Quiet.op s1 _ (by trivial))
    | authorized e tok => exact quiet (Quiet.op s1 _ (by trivial))
    | charging e st tr => exact quiet (Quiet.op s1 _ (by trivial))
    | meter e => exact quiet (Quiet.op s1 _ (by trivial))
    | triggerMessage oe => exact quiet (Quiet.op s1 _ (by trivial))
    | remoteStart e tok rid => exact quiet (Quiet.op s1 _ (by trivial))
    | setResume b => exact quiet (Quiet.op s1 _ (by trivial))
    | disk ok => exact quiet (Quiet.op s1 _ (by trivial))
  have key : ∀ (h : List Op) (s1 : State), P s1 → (∀ o ∈ h, isBoot o = false ∧ finishes e o = false) →
      P (run s1 (h.map .op)) ∧
      ∃ l, (run s1 (h.map .op)).out = s1.out ++ l ∧ Out.reset (some e) .onIdle ∉ l := by
    intro h
    induction h with
    | nil => intro s1 hP _; exact ⟨hP, [], by simp [run], by simp⟩
    | cons o h ih =>
      intro s1 hP hb
      obtain ⟨hP', l, hl, hn⟩ := hstep s1 o hP (hb o (by simp)).1 (hb o (by simp)).2
      obtain ⟨hP'', m, hm, hn'⟩ := ih _ hP' (fun o' ho' => hb o' (List.mem_cons_of_mem _ ho'))
      have hrun : run s1 ((o :: h).map .op) = run (exec s1 (steps s1 o)) (h.map .op) := rfl
      rw [hrun]
      refine ⟨hP'', l ++ m, by rw [hm, hl, List.append_assoc], ?_⟩
      intro hmem
      rcases List.mem_append.mp hmem with hmem | hmem
      · exact hn hmem
      · exact hn' hmem
  have hunk : unknownEvse s.conns (some e) = false := by simp [unknownEvse, he]
  have hact : resetActive s (some e) = [e] := by simp [resetActive, ha]
  have hst : resetStatus s (some e) .onIdle true ar = .scheduled := by
    have : ar.getD true = true := by
      cases ar with
      | none => rfl
      | some b => cases b with
        | true => rfl
        | false => exact absurd rfl har
    simp [resetStatus, hact, this]
  obtain ⟨l0, r1, r2, r3, r4, r5, r6⟩ := reset_facts s (some e) .onIdle true ar
  have hans : Out.resetAnswer .scheduled ∈ l0 := by
    have h' : (exec s (steps s (.resetReq (some e) .onIdle true ar))).out = s.out ++ [.resetAnswer .scheduled] := by
      simp only [steps, hunk, Bool.false_eq_true, if_false, hst, hact, resetIdle, ha, if_true, reduceCtorEq, List.map_nil,
        List.append_nil, List.isEmpty_cons, false_or]
      rfl
    rw [r1] at h'
    rw [List.append_cancel_left h']
    simp
  have hP0 : P (exec s (steps s (.resetReq (some e) .onIdle true ar))) := by
    refine ⟨by rw [r5, hst, hunk]; simp, ?_, by unfold active; rw [r4]; exact ha, by rw [r3]; exact he⟩
    rw [r6, hst, hunk]
    simp only [schedule, Bool.not_false, decide_true, Bool.and_self, if_true]
    split
    · assumption
    · simp
  obtain ⟨hP1, m, hm, hmn⟩ := key h _ hP0 hb
  have hrun : run s (.op (.resetReq (some e) .onIdle true ar) :: h.map .op) =
      run (exec s (steps s (.resetReq (some e) .onIdle true ar))) (h.map .op) := rfl
  have hrun2 : run s (.op (.resetReq (some e) .onIdle true ar) :: h.map .op ++ [.op (.finish e tr tok ch)]) =
      exec (run s (.op (.resetReq (some e) .onIdle true ar) :: h.map .op))
        (steps (run s (.op (.resetReq (some e) .onIdle true ar) :: h.map .op)) (.finish e tr tok ch)) := by
    simp [run, step]
  rw [hrun2, hrun]
  generalize run (exec s (steps s (.resetReq (some e) .onIdle true ar))) (h.map .op) = s1 at *
  obtain ⟨s2, ev, h1, h2, h3, h4, h5, h6⟩ := finish_facts s1 e tr tok ch hP1.2.2.2 hP1.2.2.1
  refine ⟨l0 ++ m, [Out.event ev, Out.reset (some e) .onIdle], by rw [hm, r1, List.append_assoc],
    List.mem_append_left _ hans, ?_, ?_, by simp⟩
  · intro hmem
    rcases List.mem_append.mp hmem with hmem | hmem
    · exact hno l0 r2 hmem
    · exact hmn hmem
  · rw [h1]
    have hmem : e ∈ s2.resetEvses := by rw [h4]; exact hP1.2.1
    have hnil : s2.resetEvses ≠ [] := by intro hh; rw [hh] at hmem; cases hmem
    unfold afterFinish
    rw [if_neg (by rw [h3, hP1.1]; simp), if_pos hnil, if_pos hmem]
    show s2.out ++ _ = _
    rw [h6, hm, r1]
    simp [List.append_assoc]

example : evseExists exTwo.conns 1 = true ∧ active exTwo 1 = true ∧
    isBoot (finishOp 2) = false ∧ finishes 1 (finishOp 2) = false := by decide

/-- C30: an Immediate reset of an EVSE that has a transaction stops that transaction only; an Immediate
reset of the station stops exactly the running transactions. -/
theorem C30_stops_partial (s : State) (oe : Option Nat) (ar : Option Bool) (har : ar ≠ some false)
    (he : ∀ e, oe = some e → evseExists s.conns e = true ∧ active s e = true) (e' : Nat) :
    Out.stop e' ∈ (run s [.op (.resetReq oe .immediate true ar)]).out.drop s.out.length ↔
      (1 ≤ e' ∧ e' ≤ s.conns.length ∧ active s e' = true ∧ ∀ e, oe = some e → e' = e) := by
  have hunk : unknownEvse s.conns oe = false := by
    cases oe with
    | none => rfl
    | some e => simp [unknownEvse, (he e rfl).1]
  have hg : ar.getD true = true := by
    cases ar with
    | none => rfl
    | some b => cases b with
      | true => rfl
      | false => exact absurd rfl har
  have hst : resetStatus s oe .immediate true ar = .accepted := by
    simp [resetStatus, hg]
  have emits : ∀ (l : List Out) (s0 : State),
      exec s0 (l.map (fun o => fun s => emit s o)) = { s0 with out := s0.out ++ l } := by
    intro l
    induction l with
    | nil => intro s0; simp [exec]
    | cons o l ih => intro s0; rw [List.map_cons, exec_cons, ih]; simp [emit]
  have hout : (run s [.op (.resetReq oe .immediate true ar)]).out =
      s.out ++ ([.resetAnswer .accepted] ++ (resetActive s oe).map Out.stop ++ [.reset oe .immediate]) := by
    show (exec s (steps s (.resetReq oe .immediate true ar))).out = _
    simp only [steps, hunk, Bool.false_eq_true, if_false, hst, reduceCtorEq, false_or, if_true, List.nil_append]
    split
    · rename_i hem
      rw [List.isEmpty_iff.mp hem]
      simp [exec, emit]
    · have hmap : (resetActive s oe).map (fun e => fun s => emit s (Out.stop e)) =
          ((resetActive s oe).map Out.stop).map (fun o => fun s => emit s o) := by rw [List.map_map]; rfl
      rw [hmap, exec_append, exec_append, emits]
      simp [exec, emit]
  rw [hout, List.drop_left]
  simp only [List.mem_append, List.mem_cons, reduceCtorEq, List.not_mem_nil, or_false, false_or, List.mem_map,
    Out.stop.injEq, exists_eq_right]
  cases oe with
  | none =>
    simp only [resetActive, List.mem_filter, mem_evseIds]
    constructor
    · rintro ⟨⟨h1, h2⟩, h3⟩; exact ⟨h1, h2, h3, by simp⟩
    · rintro ⟨h1, h2, h3, _⟩; exact ⟨⟨h1, h2⟩, h3⟩
  | some e =>
    obtain ⟨h1, h2⟩ := he e rfl
    simp only [resetActive, h2, if_true, List.mem_singleton]
    constructor
    · rintro rfl
      have := h1
      simp only [evseExists, decide_eq_true_eq] at this
      exact ⟨this.1, this.2, h2, by simp⟩
    · rintro ⟨_, _, _, h⟩; exact h e rfl

example : (run exTwo [.op (.resetReq (some 2) .immediate true none)]).out.drop 2 =
    [.resetAnswer .accepted, .stop 2, .reset (some 2) .immediate] := by decide

def exOne : State := run (clean [1, 1] true) [.op (startOp 1 txX none)]

/-- C30 fails: an OnIdle request for an EVSE without transaction is answered with Scheduled because
another EVSE has one; the EVSE is not reset when that transaction ends. -/
theorem C30_idle_evse_violated :
    (run exOne [.op (.resetReq (some 2) .onIdle true none), .op (finishOp 1)]).out.drop 1 =
      [.resetAnswer .scheduled, .unavailable 2,
       .event { type := .ended, txId := txX, seqNo := 1, trigger := .other 1, charging := some .idle, remoteStartId := none, evse := none, token := none, stopped := true }] ∧
    ¬AnyActive (run exOne [.op (.resetReq (some 2) .onIdle true none), .op (finishOp 1)]) := by
  refine ⟨by decide, ?_⟩
  rw [← any_active]
  decide

/-- C30 fails: an Immediate reset of an idle EVSE stops the transaction of another EVSE. -/
theorem C30_other_stopped_violated :
    (run exOne [.op (.resetReq (some 2) .immediate true none)]).out.drop 1 =
      [.resetAnswer .accepted, .stop 1, .reset (some 2) .immediate] := by decide

/-- C30 fails: a scheduled reset of the station is forgotten when a reset of one EVSE is scheduled as well:
after all transactions have ended only the EVSE was reset. -/
theorem C30_station_lost_violated :
    ((run exTwo [.op (.resetReq none .onIdle true none), .op (.resetReq (some 1) .onIdle true none),
      .op (finishOp 1), .op (finishOp 2)]).out.filter isIdleReset) = [.reset (some 1) .onIdle] ∧
    ¬AnyActive (run exTwo [.op (.resetReq none .onIdle true none), .op (.resetReq (some 1) .onIdle true none),
      .op (finishOp 1), .op (finishOp 2)]) ∧
    (run exTwo [.op (.resetReq none .onIdle true none), .op (.resetReq (some 1) .onIdle true none),
      .op (finishOp 1), .op (finishOp 2)]).resetScheduled = false := by
  refine ⟨by decide, ?_, by decide⟩
  rw [← any_active]
  decide

end Verif.Tx
