import Verif.Tx.Lemmas

/- Invariants behind the order of events and behind the charging state last reported. -/
set_option linter.constructorNameAsVariable false

namespace Verif.Tx

open Verif.Auth (Str Token ciEq)

/-- The station still knows the transaction, in memory or in the database. -/
def Held (s : State) (x : Str) : Prop :=
  (∃ e t, s.tx e = some t ∧ t.id = x) ∨ ∃ r ∈ s.rows, r.txId = x

/-- Every transaction the station knows, except those in `ex`, has sent Started and Updated events only;
every transaction ever seen has an orderly list of events. -/
structure LInv (ex : List Str) (s : State) : Prop where
  life : ∀ x, types s.out x = [] ∨ Running (types s.out x) ∨ Finished (types s.out x)
  held : ∀ x, Held s x → x ∉ ex → Running (types s.out x)

theorem LInv.congr {ex : List Str} {s s' : State} (h : LInv ex s) (h1 : ∀ x, Held s' x → x ∉ ex → Held s x)
    (h2 : ∀ x, types s'.out x = types s.out x) : LInv ex s' where
  life x := by rw [h2]; exact h.life x
  held x hx hn := by rw [h2]; exact h.held x (h1 x hx hn) hn

theorem Held.tx_congr {s s' : State} (h1 : ∀ e t', s'.tx e = some t' → ∃ e0 t, s.tx e0 = some t ∧ t.id = t'.id)
    (h2 : ∀ r ∈ s'.rows, ∃ r0 ∈ s.rows, r0.txId = r.txId) (x : Str) (h : Held s' x) : Held s x := by
  rcases h with ⟨e, t', ht, hx⟩ | ⟨r, hr, hx⟩
  · obtain ⟨e0, t, ht0, hi⟩ := h1 e t' ht
    exact Or.inl ⟨e0, t, ht0, hi.trans hx⟩
  · obtain ⟨r0, hr0, hi⟩ := h2 r hr
    exact Or.inr ⟨r0, hr0, hi.trans hx⟩

theorem Held.mono {s s' : State} (h1 : s'.tx = s.tx) (h2 : ∀ r ∈ s'.rows, r ∈ s.rows) (x : Str)
    (h : Held s' x) : Held s x :=
  Held.tx_congr (fun e t ht => ⟨e, t, by rw [← h1]; exact ht, rfl⟩) (fun r hr => ⟨r, h2 r hr, rfl⟩) x h

theorem held_bump (e : Nat) (s : State) (hd : s.diskOk = true) (x : Str) (h : Held (bump e s) x) : Held s x := by
  cases ht : s.tx e with
  | none => rw [bump_none e s ht] at h; exact h
  | some t =>
    obtain ⟨h1, _, _, _, _, h4⟩ := bump_some e s t ht hd
    refine Held.tx_congr ?_ ?_ x h
    · intro e' t' ht'
      rw [h1] at ht'
      by_cases he : e' = e
      · simp only [he, if_true] at ht'
        exact ⟨e, t, ht, by rw [← Option.some.inj ht']⟩
      · simp only [he, if_false] at ht'
        exact ⟨e', t', ht', rfl⟩
    · intro r hr
      rw [h4] at hr
      split at hr
      · simp only [List.mem_map] at hr
        obtain ⟨r0, hr0, he⟩ := hr
        refine ⟨r0, hr0, ?_⟩
        rw [← he]; split <;> rfl
      · exact ⟨r, hr, rfl⟩

theorem out_bump (e : Nat) (s : State) : (bump e s).out = s.out := by
  unfold bump
  split
  · rfl
  · dsimp only
    split
    · unfold updateRows; split <;> rfl
    · rfl

/-- What `bump` followed by `send` does to the events. -/
theorem bump_send_events (e : Nat) (ty : EventType) (tr : Trigger) (w : Bool) (tok : Option Token) (s : State)
    (hd : s.diskOk = true) (t : Tx) (ht : s.tx e = some t) :
    ∃ ev : Event, ev.type = ty ∧ ev.txId = t.id ∧ ev.charging = t.charging ∧
      (send e ty tr w tok (bump e s)).out = s.out ++ [Out.event ev] ∧
      (send e ty tr w tok (bump e s)).tx = (bump e s).tx ∧
      (send e ty tr w tok (bump e s)).rows = (bump e s).rows ∧
      (bump e s).tx = (fun e' => if e' = e then some { t with seqNo := t.seqNo + 1 } else s.tx e') := by
  obtain ⟨h1, h2, _, _, _, _⟩ := bump_some e s t ht hd
  have ht' : (bump e s).tx e = some { t with seqNo := t.seqNo + 1 } := by rw [h1]; simp
  obtain ⟨ev, a1, a2, _, a4, _, a6, a7, a8, _, _, _⟩ := send_some e ty tr w tok _ _ ht'
  exact ⟨ev, a1, a2, a4, by rw [a6, h2], a7, a8, h1⟩

theorem Running.updated {l : List EventType} (h : Running l) : Running (l ++ [.updated]) := by
  obtain ⟨n, hn⟩ := h
  exact ⟨n + 1, by rw [hn, List.replicate_succ']; simp⟩

theorem Running.ended {l : List EventType} (h : Running l) : Finished (l ++ [.ended]) := by
  obtain ⟨n, hn⟩ := h
  exact ⟨n, by rw [hn]⟩

theorem running_started : Running [.started] := ⟨0, rfl⟩

/-- An Updated event. -/
theorem LInv.update {c : Nat} {used ex : List Str} {s : State} (h : LInv ex s) (hi : Inv c used s) (e : Nat)
    (tr : Trigger) (w : Bool) (tok : Option Token) (hex : ∀ t, s.tx e = some t → t.id ∉ ex) :
    LInv ex (send e .updated tr w tok (bump e s)) := by
  cases ht : s.tx e with
  | none => rw [bump_none e s ht, send_none _ _ _ _ _ _ ht]; exact h
  | some t =>
    obtain ⟨ev, h1, h2, _, ho, htx, hrw, _⟩ := bump_send_events e .updated tr w tok s hi.disk t ht
    have hrun : Running (types s.out t.id) := h.held t.id (Or.inl ⟨e, t, ht, rfl⟩) (hex t ht)
    have hty : ∀ x, types (send e .updated tr w tok (bump e s)).out x =
        if t.id = x then types s.out x ++ [.updated] else types s.out x := by
      intro x; rw [ho, types_event, h1, h2]
    constructor
    · intro x
      rw [hty]
      split
      · rename_i hx; rw [← hx]; exact Or.inr (Or.inl hrun.updated)
      · exact h.life x
    · intro x hx hn
      have hx' : Held s x := held_bump e s hi.disk x
        (Held.mono (s := bump e s) htx (fun r hr => by rw [hrw] at hr; exact hr) x hx)
      rw [hty]
      split
      · rename_i hxe; rw [← hxe]; exact hrun.updated
      · exact h.held x hx' hn

/-- The Started event of a new transaction. -/
theorem LInv.started {c : Nat} {used : List Str} {s : State} {x : Str} (h : LInv [x] s) (hi : Inv c used s)
    (e : Nat) (t : Tx) (ht : s.tx e = some t) (hx : t.id = x) (hnew : types s.out x = []) (tr : Trigger)
    (w : Bool) (tok : Option Token) : LInv [] (send e .started tr w tok (bump e s)) := by
  obtain ⟨ev, h1, h2, _, ho, htx, hrw, _⟩ := bump_send_events e .started tr w tok s hi.disk t ht
  have hty : ∀ y, types (send e .started tr w tok (bump e s)).out y =
      if x = y then types s.out y ++ [.started] else types s.out y := by
    intro y; rw [ho, types_event, h1, h2, hx]
  constructor
  · intro y
    rw [hty]
    split
    · rename_i hy; rw [← hy, hnew]; exact Or.inr (Or.inl running_started)
    · exact h.life y
  · intro y hy _
    have hy' : Held s y := held_bump e s hi.disk y
      (Held.mono (s := bump e s) htx (fun r hr => by rw [hrw] at hr; exact hr) y hy)
    rw [hty]
    split
    · rename_i hxe; rw [← hxe, hnew]; exact running_started
    · rename_i hne; exact h.held y hy' (by simpa using fun h => hne h.symm)

/-- The Ended event; afterwards the station must forget the transaction. -/
theorem LInv.ended {c : Nat} {used : List Str} {s : State} (h : LInv [] s) (hi : Inv c used s) (e : Nat)
    (t : Tx) (ht : s.tx e = some t) (tr : Trigger) (w : Bool) (tok : Option Token) :
    LInv [t.id] (send e .ended tr w tok (bump e s)) := by
  obtain ⟨ev, h1, h2, _, ho, htx, hrw, _⟩ := bump_send_events e .ended tr w tok s hi.disk t ht
  have hrun : Running (types s.out t.id) := h.held t.id (Or.inl ⟨e, t, ht, rfl⟩) (by simp)
  have hty : ∀ y, types (send e .ended tr w tok (bump e s)).out y =
      if t.id = y then types s.out y ++ [.ended] else types s.out y := by
    intro y; rw [ho, types_event, h1, h2]
  constructor
  · intro y
    rw [hty]
    split
    · rename_i hy; rw [← hy]; exact Or.inr (Or.inr hrun.ended)
    · exact h.life y
  · intro y hy hn
    have hy' : Held s y := held_bump e s hi.disk y
      (Held.mono (s := bump e s) htx (fun r hr => by rw [hrw] at hr; exact hr) y hy)
    rw [hty]
    split
    · rename_i hxe; exact absurd (by simp [hxe]) hn
    · exact h.held y hy' (by simp)

theorem LInv.emit_other {ex : List Str} {s : State} (h : LInv ex s) (o : Out) (ho : o.event? = none) :
    LInv ex (emit s o) :=
  h.congr (fun x hx _ => Held.mono (s := s) rfl (fun _ hr => hr) x hx)
    (fun x => by simp [types, events_emit_other s o ho])

theorem LInv.deleteRow {ex : List Str} {s : State} (h : LInv ex s) (x : Str) : LInv ex (deleteRow x s) := by
  obtain ⟨_, h2, h3, _, _, h4⟩ := deleteRow_facts x s
  exact h.congr (fun y hy _ => Held.mono h2 h4 y hy) (fun y => by rw [h3])

theorem LInv.deleteOwn {ex : List Str} {s : State} (h : LInv ex s) (e : Nat) : LInv ex (deleteOwn e s) := by
  obtain ⟨_, h2, h3, _, _, h4⟩ := deleteOwn_facts e s
  exact h.congr (fun y hy _ => Held.mono h2 h4 y hy) (fun y => by rw [h3])

theorem LInv.setTx_same {ex : List Str} {s : State} (h : LInv ex s) (e : Nat) (t t' : Tx)
    (ht : s.tx e = some t) (hid : t'.id = t.id) : LInv ex (setTx s e (some t')) := by
  refine h.congr ?_ (fun _ => rfl)
  intro x hx _
  refine Held.tx_congr (s' := setTx s e (some t')) (s := s) ?_ (fun r hr => ⟨r, hr, rfl⟩) x hx
  intro e' t'' ht''
  rw [setTx_tx] at ht''
  split at ht''
  · cases ht''; exact ⟨e, t, ht, hid.symm⟩
  · exact ⟨e', t'', ht'', rfl⟩

theorem LInv.setTx_new {s : State} (h : LInv [] s) (e : Nat) (t : Tx) : LInv [t.id] (setTx s e (some t)) := by
  refine ⟨h.life, ?_⟩
  intro x hx hn
  refine h.held x ?_ (by simp)
  rcases hx with ⟨e', t', ht', hi⟩ | ⟨r, hr, hi⟩
  · rw [setTx_tx] at ht'
    split at ht'
    · cases ht'; exact absurd (by simp [hi]) hn
    · exact Or.inl ⟨e', t', ht', hi⟩
  · exact Or.inr ⟨r, hr, hi⟩

theorem LInv.insertRow_new {s : State} {t : Tx} (h : LInv [t.id] s) (e : Nat) : LInv [t.id] (insertRow e t s) := by
  unfold insertRow
  split
  · refine ⟨h.life, ?_⟩
    intro x hx hn
    refine h.held x ?_ hn
    rcases hx with hx | ⟨r, hr, hi⟩
    · exact Or.inl hx
    · rcases List.mem_append.mp hr with hr | hr
      · exact Or.inr ⟨r, hr, hi⟩
      · have : r = rowOf e t := by simpa using hr
        rw [this] at hi
        exact absurd (by simp [← hi, rowOf]) hn
  · exact h

theorem LInv.markTokenSent {ex : List Str} {s : State} (h : LInv ex s) (e : Nat) :
    LInv ex (markTokenSent e s) := by
  unfold Tx.markTokenSent
  cases ht : s.tx e with
  | none => exact h
  | some t =>
    dsimp only
    have h' := h.setTx_same e t { t with idTokenSent := true } ht rfl
    split
    · refine h'.congr ?_ (fun x => by unfold updateRows; split <;> rfl)
      intro x hx _
      refine Held.tx_congr ?_ ?_ x hx
      · intro e' t' ht'
        refine ⟨e', t', ?_, rfl⟩
        unfold updateRows at ht'
        split at ht' <;> exact ht'
      · intro r hr
        unfold updateRows at hr
        split at hr
        · simp only [List.mem_map] at hr
          obtain ⟨r0, hr0, he⟩ := hr
          refine ⟨r0, hr0, ?_⟩
          rw [← he]; split <;> rfl
        · exact ⟨r, hr, rfl⟩
    · exact h'

theorem LInv.bootEvse {s : State} (h : LInv [] s) (e : Nat) : LInv [] (bootEvse s e) := by
  unfold Tx.bootEvse
  cases hr : getRow s e with
  | none => exact h
  | some r =>
    obtain ⟨hm, _⟩ := getRow_mem hr
    dsimp only
    split
    · refine h.congr ?_ (fun _ => rfl)
      intro x hx _
      rcases hx with ⟨e', t', ht', hi⟩ | hx
      · rw [setTx_tx] at ht'
        split at ht'
        · cases ht'; exact Or.inr ⟨r, hm, hi⟩
        · exact Or.inl ⟨e', t', ht', hi⟩
      · exact Or.inr hx
    · exact h.deleteRow _

theorem LInv.bootAll {s : State} (h : LInv [] s) (conns : List Nat) : LInv [] (bootAll conns s) := by
  unfold Tx.bootAll
  have h0 : LInv [] { Tx.powerOff s with conns := conns } := by
    refine h.congr ?_ (fun _ => rfl)
    intro x hx _
    rcases hx with ⟨_, _, ht, _⟩ | hx
    · cases ht
    · exact Or.inr hx
  revert h0
  generalize ({ Tx.powerOff s with conns := conns } : State) = s0
  generalize evseIds conns = l
  induction l generalizing s0 with
  | nil => intro h0; exact h0
  | cons e l ih => intro h0; exact ih _ (h0.bootEvse e)

theorem types_of_fresh {c : Nat} {used : List Str} {s : State} (h : Inv c used s) {x : Str} (hx : x ∉ used) :
    types s.out x = [] := by
  have := h.fresh x hx
  simpa [seqNos, types] using this

/-- Opening a transaction with a new id does not throw. -/
theorem openThrows_false {c : Nat} {used : List Str} {s : State} (h : Inv c used s) (e : Nat) (t : Tx)
    (hx : t.id ∉ used) : openThrows s e t = false := by
  unfold openThrows
  have hc : canInsert (deleteOwn e s) e t.id = true := by
    obtain ⟨h1, _, _, _, _, h4⟩ := deleteOwn_facts e s
    unfold canInsert
    simp only [Bool.and_eq_true, List.all_eq_true, bne_iff_ne]
    refine ⟨by rw [h1]; exact h.disk, ?_⟩
    intro r hr
    have hrs := h4 r hr
    refine ⟨?_, fun hi => hx (hi ▸ (h.row r hrs).2)⟩
    intro he
    unfold deleteOwn at hr
    cases hg : getRow s e with
    | none =>
      unfold getRow at hg
      have := List.find?_eq_none.mp hg r hrs
      simp [he] at this
    | some r0 =>
      rw [hg] at hr
      obtain ⟨hm0, he0⟩ := getRow_mem hg
      have : r = r0 := h.evses r r0 hrs hm0 (by rw [he, he0])
      exact deleteRow_gone _ _ h.disk r hr (by rw [this])
  simp [hc]

theorem exec_emits (f : Nat → Out) : ∀ (l : List Nat) (s : State),
    exec s (l.map (fun e => fun s => emit s (f e))) = { s with out := s.out ++ l.map f } := by
  intro l
  induction l with
  | nil => intro s; simp [exec]
  | cons e l ih =>
    intro s
    rw [List.map_cons, exec_cons, ih]
    simp [emit]

theorem events_none {g : List Out} (hg : ∀ o ∈ g, o.event? = none) (x : Str) : events g x = [] := by
  unfold events
  have : g.filterMap Out.event? = [] := by
    rw [List.filterMap_eq_nil_iff]; exact hg
  rw [this]; rfl

/-- What a Reset request adds to the outputs. -/
def resetOut (s : State) (oe : Option Nat) (ty : ResetType) (al : Bool) (ar : Option Bool) : List Out :=
  [Out.resetAnswer (resetStatus s oe ty al ar)] ++
  (if resetStatus s oe ty al ar = .rejected ∨ (resetActive s oe).isEmpty then []
   else if ty = .immediate then (resetActive s oe).map Out.stop
   else (resetIdle s oe).map Out.unavailable) ++
  (if resetStatus s oe ty al ar = .accepted then [Out.reset oe .immediate] else [])

theorem exec_reset_known (s : State) (oe : Option Nat) (ty : ResetType) (al : Bool) (ar : Option Bool)
    (hk : unknownEvse s.conns oe = false) :
    exec s (steps s (.resetReq oe ty al ar)) =
      { (if resetStatus s oe ty al ar = .scheduled then schedule oe s else s) with
        out := s.out ++ resetOut s oe ty al ar } := by
  simp only [steps]
  rw [if_neg (by simp [hk]), exec_append, exec_append, exec_append]
  have h1 : exec s (if resetStatus s oe ty al ar = .scheduled then [schedule oe] else []) =
      if resetStatus s oe ty al ar = .scheduled then schedule oe s else s := by split <;> rfl
  have h1o : (if resetStatus s oe ty al ar = .scheduled then schedule oe s else s).out = s.out := by split <;> rfl
  rw [h1]
  generalize (if resetStatus s oe ty al ar = .scheduled then schedule oe s else s) = s1 at h1o
  have h2 : ∀ s2 : State, exec s2 (if resetStatus s oe ty al ar = .rejected ∨ (resetActive s oe).isEmpty then []
       else if ty = .immediate then (resetActive s oe).map (fun e => fun s => emit s (.stop e))
       else (resetIdle s oe).map (fun e => fun s => emit s (.unavailable e))) =
      { s2 with out := s2.out ++ (if resetStatus s oe ty al ar = .rejected ∨ (resetActive s oe).isEmpty then []
         else if ty = .immediate then (resetActive s oe).map Out.stop
         else (resetIdle s oe).map Out.unavailable) } := by
    intro s2
    split
    · simp [exec]
    · split
      · rw [exec_emits Out.stop]
      · rw [exec_emits Out.unavailable]
  have h3 : ∀ s3 : State, exec s3 (if resetStatus s oe ty al ar = .accepted
        then [fun s => emit s (.reset oe .immediate)] else []) =
      { s3 with out := s3.out ++ (if resetStatus s oe ty al ar = .accepted then [Out.reset oe .immediate] else []) } := by
    intro s3
    split
    · rfl
    · simp [exec]
  rw [exec_cons, exec_nil, h2, h3]
  simp only [emit, h1o, resetOut, List.append_assoc]

theorem resetOut_no_event (s : State) (oe : Option Nat) (ty : ResetType) (al : Bool) (ar : Option Bool) :
    ∀ o ∈ resetOut s oe ty al ar, o.event? = none := by
  intro o ho
  unfold resetOut at ho
  rcases List.mem_append.mp ho with ho | ho
  · rcases List.mem_append.mp ho with ho | ho
    · rw [List.mem_singleton.mp ho]; rfl
    · split at ho
      · cases ho
      · split at ho
        · obtain ⟨_, _, rfl⟩ := List.mem_map.mp ho; rfl
        · obtain ⟨_, _, rfl⟩ := List.mem_map.mp ho; rfl
  · split at ho
    · rw [List.mem_singleton.mp ho]; rfl
    · cases ho

theorem exec_reset (s : State) (oe : Option Nat) (ty : ResetType) (al : Bool) (ar : Option Bool) :
    ∃ g : List Out, (∀ o ∈ g, o.event? = none) ∧ ∃ b l, exec s (steps s (.resetReq oe ty al ar)) =
      { s with out := s.out ++ g, resetScheduled := b, resetEvses := l } := by
  cases hk : unknownEvse s.conns oe with
  | true =>
    refine ⟨[Out.threw], by simp [Out.event?], s.resetScheduled, s.resetEvses, ?_⟩
    simp only [steps]
    rw [if_pos hk]
    rfl
  | false =>
    refine ⟨resetOut s oe ty al ar, resetOut_no_event s oe ty al ar, ?_⟩
    rw [exec_reset_known s oe ty al ar hk]
    split
    · exact ⟨_, _, rfl⟩
    · exact ⟨_, _, rfl⟩

theorem LInv.step {c : Nat} {used : List Str} {s : State} (h : LInv [] s) (hi : Inv c used s) (o : Op)
    (hf : ∀ x ∈ opId o, x ∉ used) (hd : o ≠ .disk false) : LInv [] (exec s (steps s o)) := by
  cases o with
  | start e k x tr tok rid ch =>
    have hxu : x ∉ used := hf x (by simp [opId])
    simp only [steps]
    split
    · exact h.emit_other _ rfl
    · have hx : (newTx s k x tok rid ch).id = x := rfl
      have hthr := openThrows_false hi e (newTx s k x tok rid ch) hxu
      rw [hthr]
      have hup : Inv c (x :: used) s := hi.used_mono (fun y hy => List.mem_cons_of_mem _ hy)
      have hnorow : ∀ r ∈ s.rows, r.txId ≠ x := fun r hr hrx => hxu (hrx ▸ (hi.row r hr).2)
      have i1 : Inv c (x :: used) (setTx s e (some (newTx s k x tok rid ch))) := by
        refine hup.setSome e _ ?_ ?_ ?_ ?_
        · exact ⟨by simp [newTx, hi.fresh x hxu], by simp [newTx]⟩
        · simp [newTx]
        · intro r hr hrx; exact absurd hrx (hnorow r hr)
        · intro e' t' ht' hx'; exact absurd ((hi.mem e' t' ht').2) (by rw [hx']; exact hxu)
      have l1 : LInv [x] (setTx s e (some (newTx s k x tok rid ch))) := h.setTx_new e (newTx s k x tok rid ch)
      have t1 : (setTx s e (some (newTx s k x tok rid ch))).tx e = some (newTx s k x tok rid ch) := by simp [setTx]
      have n1 : types (setTx s e (some (newTx s k x tok rid ch))).out x = [] := types_of_fresh hi hxu
      have fin : ∀ s', Inv c (x :: used) s' → LInv [x] s' → s'.tx e = some (newTx s k x tok rid ch) →
          types s'.out x = [] →
          LInv [] (exec s' (if false then [fun s => emit s .threw] else [bump e, send e .started tr true tok])) := by
        intro s' a1 a2 a3 a4
        exact a2.started a1 e _ a3 rfl a4 tr true tok
      unfold openSteps
      rw [exec_append, exec_append, exec_cons, exec_nil]
      by_cases hres : s.resume = true
      · rw [if_neg (by simp [hres])]
        have hdb : (newTx s k x tok rid ch).dbEnabled = true := hres
        split
        · refine fin _ (i1.insertRow e _ t1 hdb) (LInv.insertRow_new (t := newTx s k x tok rid ch) l1 e) ?_ ?_
          · simp only [exec_cons, exec_nil]; unfold insertRow; split <;> exact t1
          · simp only [exec_cons, exec_nil]; unfold insertRow; split <;> exact n1
        · have i2 := i1.deleteOwn e
          have l2 := l1.deleteOwn e
          have t2 : (Tx.deleteOwn e (setTx s e (some (newTx s k x tok rid ch)))).tx e =
              some (newTx s k x tok rid ch) := by
            rw [(deleteOwn_facts e _).2.1]; exact t1
          have n2 : types (Tx.deleteOwn e (setTx s e (some (newTx s k x tok rid ch)))).out x = [] := by
            rw [(deleteOwn_facts e _).2.2.1]; exact n1
          refine fin _ (i2.insertRow e _ t2 hdb) (LInv.insertRow_new (t := newTx s k x tok rid ch) l2 e) ?_ ?_
          · simp only [exec_cons, exec_nil]; unfold insertRow; split <;> exact t2
          · simp only [exec_cons, exec_nil]; unfold insertRow; split <;> exact n2
      · rw [if_pos (by simp [hres])]
        exact fin _ i1 l1 t1 n1
  | authorized e tok =>
    simp only [steps]
    split
    · exact h.emit_other _ rfl
    · split
      · exact h
      · split
        · exact h
        · exact (h.markTokenSent e).update (hi.markTokenSent e) e _ _ _ (fun _ _ => by simp)
  | charging e st tr =>
    simp only [steps]
    split
    · exact h.emit_other _ rfl
    · split
      · exact h
      · rename_i t ht
        split
        · exact h
        · exact (h.setTx_same e t { t with charging := some st } ht rfl).update
            (hi.setSame e t _ ht rfl rfl rfl) e _ _ _ (fun _ _ => by simp)
  | meter e =>
    simp only [steps]
    split
    · exact h
    · exact h.update hi e _ _ _ (fun _ _ => by simp)
  | triggerMessage oe =>
    cases oe with
    | none =>
      simp only [steps]
      clear hf hd
      generalize evseIds s.conns = l
      induction l generalizing s with
      | nil => exact h
      | cons e l ih =>
        rw [List.flatMap_cons, exec_append]
        exact ih (h.update hi e .trigger false none (fun _ _ => by simp)) (hi.bump_send e .updated .trigger false none)
    | some e =>
      simp only [steps]
      split
      · exact h.emit_other _ rfl
      · exact h.update hi e _ _ _ (fun _ _ => by simp)
  | finish e tr tok ch =>
    simp only [steps]
    split
    · exact h.emit_other _ rfl
    · split
      · exact h
      · rename_i t ht
        have i1 := hi.setSame e t { t with charging := some ch, stopped := true } ht rfl rfl rfl
        have l1 := h.setTx_same e t { t with charging := some ch, stopped := true } ht rfl
        have t1 : (setTx s e (some { t with charging := some ch, stopped := true })).tx e =
            some { t with charging := some ch, stopped := true } := by simp [setTx]
        have i2 := i1.bump_send e .ended tr false (if tr = .stopAuthorized then tok else none)
        have l2 := l1.ended i1 e _ t1 tr false (if tr = .stopAuthorized then tok else none)
        have i3 := i2.deleteRow t.id
        have l3 := l2.deleteRow t.id
        have g3 := deleteRow_gone t.id _ i2.disk
        have i4 := i3.setNone e
        -- the station has forgotten the transaction
        have tx2 : (send e .ended tr false (if tr = .stopAuthorized then tok else none)
            (bump e (setTx s e (some { t with charging := some ch, stopped := true })))).tx e =
            some { t with charging := some ch, stopped := true, seqNo := t.seqNo + 1 } := by
          obtain ⟨_, _, _, _, _, a5, _, a7⟩ := bump_send_events e .ended tr false
            (if tr = .stopAuthorized then tok else none) _ i1.disk _ t1
          rw [a5, a7]; simp
        have l4 : LInv [] (setTx (Tx.deleteRow t.id (send e .ended tr false
            (if tr = .stopAuthorized then tok else none)
            (bump e (setTx s e (some { t with charging := some ch, stopped := true }))))) e none) := by
          refine ⟨l3.life, ?_⟩
          intro x hx _
          have hxt : x ≠ t.id := by
            intro hxe
            rcases hx with ⟨e', t', ht', hi'⟩ | ⟨r, hr, hi'⟩
            · rw [setTx_tx] at ht'
              split at ht'
              · cases ht'
              · rename_i hne
                rw [(deleteRow_facts _ _).2.1] at ht'
                exact hne (i2.uniq e' e t' _ ht' tx2 (by rw [hi', hxe]))
            · exact g3 r hr (by rw [hi', hxe])
          refine l3.held x ?_ (by simpa using hxt)
          rcases hx with ⟨e', t', ht', hi'⟩ | hx
          · rw [setTx_tx] at ht'
            split at ht'
            · cases ht'
            · exact Or.inl ⟨e', t', ht', hi'⟩
          · exact Or.inr hx
        obtain ⟨a1, a2, _, a4⟩ := afterFinish_facts e (setTx (Tx.deleteRow t.id (send e .ended tr false
            (if tr = .stopAuthorized then tok else none)
            (bump e (setTx s e (some { t with charging := some ch, stopped := true }))))) e none)
        exact l4.congr (fun x hx _ => Held.mono a1 (fun r hr => by rw [a2] at hr; exact hr) x hx)
          (fun x => by simp only [types]; rw [exec_cons, exec_cons, exec_cons, exec_cons, exec_cons, exec_cons, exec_nil, a4])
  | resetReq oe ty al ar =>
    obtain ⟨g, hg, b, l, he⟩ := exec_reset s oe ty al ar
    rw [he]
    refine h.congr (fun x hx _ => Held.mono (s := s) rfl (fun _ hr => hr) x hx) ?_
    intro x
    simp [types, events_append, events_none hg]
  | remoteStart e tok rid =>
    exact h.congr (fun x hx _ => Held.mono (s := s) rfl (fun _ hr => hr) x hx) (fun _ => rfl)
  | setResume b => exact h.congr (fun x hx _ => Held.mono (s := s) rfl (fun _ hr => hr) x hx) (fun _ => rfl)
  | disk ok => exact h.congr (fun x hx _ => Held.mono (s := s) rfl (fun _ hr => hr) x hx) (fun _ => rfl)
  | boot conns => exact h.bootAll conns

/-- Both invariants along a history without power cuts. -/
theorem LInv.run : ∀ (h : List Cmd) (used : List Str) (s : State), Inv 0 used s → LInv [] s → NoCut h →
    (h.filterMap startedId).Nodup → (∀ x ∈ h.filterMap startedId, x ∉ used) → DiskFine h →
    LInv [] (Tx.run s h) := by
  intro h
  induction h with
  | nil => intro used s _ hl _ _ _ _; exact hl
  | cons c h ih =>
    intro used s hi hl hc hn hu hd
    have hstep := hi.step c (fun x hx => hu x (by simp [hx])) (hd c (by simp))
    rw [if_neg (by simp [hc c (by simp)])] at hstep
    have hl' : LInv [] (Tx.step s c) := by
      cases c with
      | cut o k => exact absurd (hc (.cut o k) (by simp)) (by simp [isCut])
      | op o =>
        refine hl.step hi o ?_ (hd (.op o) (by simp))
        intro x hx
        have : startedId (.op o) = some x := by
          have := startedId_opId (.op o)
          simp only [opOf] at this
          rw [← this] at hx
          simpa using hx
        exact hu x (by simp [this])
    refine ih _ _ hstep hl' (fun c' hc' => hc c' (List.mem_cons_of_mem _ hc')) ?_ ?_
      (fun c' hc' => hd c' (List.mem_cons_of_mem _ hc'))
    · cases hsc : startedId c with
      | none => simpa [hsc] using hn
      | some x =>
        simp only [List.filterMap_cons, hsc, List.nodup_cons] at hn
        exact hn.2
    · intro y hy
      cases hsc : startedId c with
      | none =>
        have := hu y (by simp only [List.filterMap_cons, hsc]; exact hy)
        simpa using this
      | some x =>
        have h1 := hu y (by simp only [List.filterMap_cons, hsc]; exact List.mem_cons_of_mem _ hy)
        simp only [List.filterMap_cons, hsc, List.nodup_cons] at hn
        intro hmem
        rcases List.mem_append.mp hmem with hm | hm
        · have : y = x := by simpa using hm
          exact hn.1 (this ▸ hy)
        · exact h1 hm

theorem LInv.clean (conns : List Nat) (resume : Bool) : LInv [] (clean conns resume) where
  life x := Or.inl (by simp [Tx.clean, types, events])
  held x hx := by
    rcases hx with ⟨_, _, ht, _⟩ | ⟨r, hr, _⟩
    · cases ht
    · cases hr

end Verif.Tx
