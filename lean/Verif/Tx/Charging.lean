import Verif.Tx.Lifecycle

/- Invariants behind the charging state last reported and behind remote start ids. -/
set_option linter.constructorNameAsVariable false

namespace Verif.Tx

open Verif.Auth (Str Token ciEq)

/-- The last event of the transaction of every EVSE, except `skip`, carries its charging state. -/
def CInv (skip : Option Nat) (s : State) : Prop :=
  ∀ e t, s.tx e = some t → skip ≠ some e →
    ∃ ev, (events s.out t.id).getLast? = some ev ∧ ev.charging = t.charging

theorem CInv.congr {k : Option Nat} {s s' : State} (h : CInv k s) (h1 : s'.tx = s.tx)
    (h2 : ∀ x, events s'.out x = events s.out x) : CInv k s' := by
  intro e t ht hk
  rw [h1] at ht
  rw [h2]
  exact h e t ht hk

theorem CInv.setTx {s : State} (h : CInv none s) (e : Nat) (t : Option Tx) : CInv (some e) (setTx s e t) := by
  intro e' t' ht' hk
  rw [setTx_tx, if_neg (fun he => hk (by rw [he]))] at ht'
  exact h e' t' ht' (by simp)

theorem CInv.setNone {s : State} (h : CInv none s) (e : Nat) : CInv none (Tx.setTx s e none) := by
  intro e' t' ht' _
  rw [setTx_tx] at ht'
  split at ht'
  · cases ht'
  · exact h e' t' ht' (by simp)

theorem CInv.bump_send {c : Nat} {used : List Str} {k : Option Nat} {s : State} (h : CInv k s) (hi : Inv c used s)
    (e : Nat) (hk : k = none ∨ k = some e) (ty : EventType) (tr : Trigger) (w : Bool) (tok : Option Token) :
    CInv none (send e ty tr w tok (bump e s)) := by
  cases ht : s.tx e with
  | none =>
    rw [bump_none e s ht, send_none _ _ _ _ _ _ ht]
    intro e' t' ht' _
    refine h e' t' ht' ?_
    rcases hk with hk | hk
    · rw [hk]; simp
    · rw [hk]
      intro he
      cases he
      rw [ht] at ht'
      cases ht'
  | some t =>
    obtain ⟨ev, _, h2, h3, ho, htx, _, hb⟩ := bump_send_events e ty tr w tok s hi.disk t ht
    intro e' t' ht' _
    rw [htx, hb] at ht'
    rw [ho, events_append, events_single, h2]
    by_cases he : e' = e
    · simp only [he, if_true] at ht'
      rw [← Option.some.inj ht']
      exact ⟨ev, by simp, h3⟩
    · simp only [he, if_false] at ht'
      rw [if_neg (fun hx => he (hi.uniq e' e t' t ht' ht hx.symm))]
      rw [List.append_nil]
      refine h e' t' ht' ?_
      rcases hk with hk | hk
      · rw [hk]; simp
      · rw [hk]; intro h'; exact he (Option.some.inj h').symm

theorem CInv.step {c : Nat} {used : List Str} {s : State} (h : CInv none s) (hi : Inv c used s) (o : Op)
    (hf : ∀ x ∈ opId o, x ∉ used) (hb : isBoot o = false) : CInv none (exec s (steps s o)) := by
  have hthrew : CInv none (emit s .threw) := h.congr rfl (fun x => events_emit_other s _ rfl x)
  cases o with
  | start e k x tr tok rid ch =>
    have hxu : x ∉ used := hf x (by simp [opId])
    simp only [steps]
    split
    · exact hthrew
    · have hthr := openThrows_false hi e (newTx s k x tok rid ch) hxu
      rw [hthr]
      have hup : Inv c (x :: used) s := hi.used_mono (fun y hy => List.mem_cons_of_mem _ hy)
      have hnorow : ∀ r ∈ s.rows, r.txId ≠ x := fun r hr hrx => hxu (hrx ▸ (hi.row r hr).2)
      have i1 : Inv c (x :: used) (Tx.setTx s e (some (newTx s k x tok rid ch))) := by
        refine hup.setSome e _ ?_ ?_ ?_ ?_
        · exact ⟨by simp [newTx, hi.fresh x hxu], by simp [newTx]⟩
        · simp [newTx]
        · intro r hr hrx; exact absurd hrx (hnorow r hr)
        · intro e' t' ht' hx'; exact absurd ((hi.mem e' t' ht').2) (by rw [hx']; exact hxu)
      have c1 : CInv (some e) (Tx.setTx s e (some (newTx s k x tok rid ch))) := h.setTx e _
      have t1 : (Tx.setTx s e (some (newTx s k x tok rid ch))).tx e = some (newTx s k x tok rid ch) := by simp [Tx.setTx]
      have fin : ∀ s', Inv c (x :: used) s' → CInv (some e) s' →
          CInv none (exec s' (if false then [fun s => emit s .threw] else [bump e, send e .started tr true tok])) := by
        intro s' a1 a2
        exact a2.bump_send a1 e (Or.inr rfl) .started tr true tok
      unfold openSteps
      rw [exec_append, exec_append, exec_cons, exec_nil]
      by_cases hres : s.resume = true
      · rw [if_neg (by simp [hres])]
        have hdb : (newTx s k x tok rid ch).dbEnabled = true := hres
        split
        · refine fin _ (i1.insertRow e _ t1 hdb) ?_
          simp only [exec_cons, exec_nil]
          unfold insertRow
          split
          · exact c1.congr rfl (fun _ => rfl)
          · exact c1
        · have i2 := i1.deleteOwn e
          have f2 := deleteOwn_facts e (Tx.setTx s e (some (newTx s k x tok rid ch)))
          have c2 : CInv (some e) (deleteOwn e (Tx.setTx s e (some (newTx s k x tok rid ch)))) :=
            c1.congr f2.2.1 (fun y => by rw [f2.2.2.1])
          have t2 : (deleteOwn e (Tx.setTx s e (some (newTx s k x tok rid ch)))).tx e =
              some (newTx s k x tok rid ch) := by
            rw [f2.2.1]; exact t1
          refine fin _ (i2.insertRow e _ t2 hdb) ?_
          simp only [exec_cons, exec_nil]
          unfold insertRow
          split
          · exact c2.congr rfl (fun _ => rfl)
          · exact c2
      · rw [if_pos (by simp [hres])]
        exact fin _ i1 c1
  | authorized e tok =>
    simp only [steps]
    split
    · exact hthrew
    · split
      · exact h
      · rename_i t ht
        split
        · exact h
        · have c1 : CInv (some e) (markTokenSent e s) := by
            unfold markTokenSent
            rw [ht]
            dsimp only
            split
            · exact (h.setTx e _).congr (by unfold updateRows; split <;> rfl) (fun x => by unfold updateRows; split <;> rfl)
            · exact h.setTx e _
          exact c1.bump_send (hi.markTokenSent e) e (Or.inr rfl) _ _ _ _
  | charging e st tr =>
    simp only [steps]
    split
    · exact hthrew
    · split
      · exact h
      · rename_i t ht
        split
        · exact h
        · exact (h.setTx e _).bump_send (hi.setSame e t { t with charging := some st } ht rfl rfl rfl) e (Or.inr rfl) _ _ _ _
  | meter e =>
    simp only [steps]
    split
    · exact h
    · exact h.bump_send hi e (Or.inl rfl) _ _ _ _
  | triggerMessage oe =>
    cases oe with
    | none =>
      simp only [steps]
      clear hf hb hthrew
      generalize evseIds s.conns = l
      induction l generalizing s with
      | nil => exact h
      | cons e l ih =>
        rw [List.flatMap_cons, exec_append]
        exact ih (h.bump_send hi e (Or.inl rfl) .updated .trigger false none) (hi.bump_send e .updated .trigger false none)
    | some e =>
      simp only [steps]
      split
      · exact hthrew
      · exact h.bump_send hi e (Or.inl rfl) _ _ _ _
  | finish e tr tok ch =>
    simp only [steps]
    split
    · exact hthrew
    · split
      · exact h
      · rename_i t ht
        have i1 := hi.setSame e t { t with charging := some ch, stopped := true } ht rfl rfl rfl
        have c2 := (h.setTx e (some { t with charging := some ch, stopped := true })).bump_send i1 e (Or.inr rfl)
          .ended tr false (if tr = .stopAuthorized then tok else none)
        have f3 := deleteRow_facts t.id (send e .ended tr false (if tr = .stopAuthorized then tok else none)
          (bump e (Tx.setTx s e (some { t with charging := some ch, stopped := true }))))
        have c4 := (c2.congr f3.2.1 (fun y => by rw [f3.2.2.1])).setNone e
        obtain ⟨a1, _, _, a4⟩ := afterFinish_facts e (Tx.setTx (deleteRow t.id (send e .ended tr false
          (if tr = .stopAuthorized then tok else none)
          (bump e (Tx.setTx s e (some { t with charging := some ch, stopped := true }))))) e none)
        exact c4.congr a1 a4
  | resetReq oe ty al ar =>
    obtain ⟨g, hg, b, l, he⟩ := exec_reset s oe ty al ar
    rw [he]
    exact h.congr rfl (fun x => by simp [events_append, events_none hg])
  | remoteStart e tok rid => exact h.congr rfl (fun _ => rfl)
  | setResume b => exact h.congr rfl (fun _ => rfl)
  | disk ok => exact h.congr rfl (fun _ => rfl)
  | boot conns => exact absurd hb (by simp [isBoot])

theorem CInv.run : ∀ (h : List Cmd) (used : List Str) (s : State), Inv 0 used s → CInv none s → NoRestart h →
    (h.filterMap startedId).Nodup → (∀ x ∈ h.filterMap startedId, x ∉ used) → DiskFine h →
    CInv none (Tx.run s h) := by
  intro h
  induction h with
  | nil => intro used s _ hl _ _ _ _; exact hl
  | cons c h ih =>
    intro used s hi hl hc hn hu hd
    have hcc := hc.1 c (by simp)
    have hstep := hi.step c (fun x hx => hu x (by simp [hx])) (hd c (by simp))
    rw [if_neg (by simp [hcc])] at hstep
    have hl' : CInv none (Tx.step s c) := by
      cases c with
      | cut o k => exact absurd hcc (by simp [isCut])
      | op o =>
        refine hl.step hi o ?_ (hc.2 (.op o) (by simp))
        intro x hx
        have : startedId (.op o) = some x := by
          have := startedId_opId (.op o)
          simp only [opOf] at this
          rw [← this] at hx
          simpa using hx
        exact hu x (by simp [this])
    refine ih _ _ hstep hl' ⟨fun c' hc' => hc.1 c' (List.mem_cons_of_mem _ hc'),
      fun c' hc' => hc.2 c' (List.mem_cons_of_mem _ hc')⟩ ?_ ?_
      (fun c' hc' => hd c' (List.mem_cons_of_mem _ hc'))
    · cases hsc : startedId c with
      | none => simpa [hsc] using hn
      | some x =>
        simp only [List.filterMap_cons, hsc, List.nodup_cons] at hn
        exact hn.2
    · intro y hy
      cases hsc : startedId c with
      | none =>
        have := hu y (by simp only [List.filterMap_cons, hsc]; exact hy)
        simpa using this
      | some x =>
        have h1 := hu y (by simp only [List.filterMap_cons, hsc]; exact List.mem_cons_of_mem _ hy)
        simp only [List.filterMap_cons, hsc, List.nodup_cons] at hn
        intro hmem
        rcases List.mem_append.mp hmem with hm | hm
        · have : y = x := by simpa using hm
          exact hn.1 (this ▸ hy)
        · exact h1 hm

/-! ## Remote start ids -/

/-- A remote start: EVSE, token, id. -/
abbrev Remote := Nat × Token × Int

/-- The remote start of an operation. -/
def opRemote : Op → Option Remote
  | .remoteStart e tok rid => some (e, tok, rid)
  | _ => none

/-- No own remote start id given to `on_transaction_started`. -/
def opNoOwn : Op → Prop
  | .start _ _ _ _ _ rid _ => rid = none
  | _ => True

/-- An event that carries a remote start id does so because of the remote start `p`. -/
def Applies (p : Remote) (ev : Event) : Prop :=
  ev.trigger = .remoteStart ∧ ev.remoteStartId = some p.2.2 ∧
  (∃ k, ev.token = some k ∧ ciEq p.2.1.id k.id = true) ∧ (p.1 = 0 ∨ ev.evse = some p.1)

structure RInv (given : List Remote) (s : State) : Prop where
  pending : ∀ p ∈ s.remote, p ∈ given
  keys : s.remote.Pairwise (fun p q => p.1 < q.1)
  own : ∀ e t, s.tx e = some t → t.remoteStartId = none
  once : ∀ rid, (carrying s.out rid).length ≤ 1
  spent : ∀ rid, carrying s.out rid ≠ [] → ∀ p ∈ s.remote, p.2.2 ≠ rid
  cause : ∀ rid, ∀ ev ∈ carrying s.out rid, ∃ p ∈ given, Applies p ev

theorem carrying_append (o o' : List Out) (rid : Int) :
    carrying (o ++ o') rid = carrying o rid ++ carrying o' rid := by
  simp [carrying, List.filterMap_append, List.filter_append]

theorem carrying_none {g : List Out} (hg : ∀ o ∈ g, o.event? = none) (rid : Int) : carrying g rid = [] := by
  unfold carrying
  have : g.filterMap Out.event? = [] := by rw [List.filterMap_eq_nil_iff]; exact hg
  rw [this]; rfl

theorem carrying_single (e : Event) (rid : Int) :
    carrying [Out.event e] rid = if e.remoteStartId = some rid then [e] else [] := by
  simp [carrying, Out.event?, List.filter_cons]

/-- Steps that neither send events nor touch the remote starts. -/
theorem RInv.congr {g : List Remote} {s s' : State} (h : RInv g s) (h1 : s'.remote = s.remote)
    (h2 : ∀ e t, s'.tx e = some t → t.remoteStartId = none) (h3 : ∀ rid, carrying s'.out rid = carrying s.out rid) :
    RInv g s' where
  pending := by rw [h1]; exact h.pending
  keys := by rw [h1]; exact h.keys
  own := h2
  once rid := by rw [h3]; exact h.once rid
  spent rid hr := by rw [h3] at hr; rw [h1]; exact h.spent rid hr
  cause rid ev hev := by rw [h3] at hev; exact h.cause rid ev hev

theorem RInv.emit_other {g : List Remote} {s : State} (h : RInv g s) (o : Out) (ho : o.event? = none) :
    RInv g (emit s o) :=
  h.congr rfl h.own (fun rid => by
    simp only [emit, carrying_append]
    rw [carrying_none (g := [o]) (by simpa using ho), List.append_nil])

theorem RInv.setTx {g : List Remote} {s : State} (h : RInv g s) (e : Nat) (t : Option Tx)
    (ht : ∀ t', t = some t' → t'.remoteStartId = none) : RInv g (setTx s e t) := by
  refine h.congr rfl ?_ (fun _ => rfl)
  intro e' t' ht'
  rw [setTx_tx] at ht'
  split at ht'
  · exact ht t' ht'
  · exact h.own e' t' ht'

theorem RInv.deleteRow {g : List Remote} {s : State} (h : RInv g s) (x : Str) : RInv g (deleteRow x s) := by
  unfold Tx.deleteRow
  split
  · exact h.congr rfl h.own (fun _ => rfl)
  · exact h

theorem RInv.deleteOwn {g : List Remote} {s : State} (h : RInv g s) (e : Nat) : RInv g (deleteOwn e s) := by
  unfold Tx.deleteOwn
  split
  · exact h
  · exact h.deleteRow _

theorem RInv.updateRows {g : List Remote} {s : State} (h : RInv g s) (x : Str) (f : Row → Row) :
    RInv g (updateRows s x f) := by
  unfold Tx.updateRows
  split
  · exact h.congr rfl h.own (fun _ => rfl)
  · exact h

theorem RInv.insertRow {g : List Remote} {s : State} (h : RInv g s) (e : Nat) (t : Tx) :
    RInv g (insertRow e t s) := by
  unfold Tx.insertRow
  split
  · exact h.congr rfl h.own (fun _ => rfl)
  · exact h

theorem RInv.bump {g : List Remote} {s : State} (h : RInv g s) (e : Nat) : RInv g (bump e s) := by
  unfold Tx.bump
  cases ht : s.tx e with
  | none => exact h
  | some t =>
    dsimp only
    have h' := h.setTx e (some { t with seqNo := t.seqNo + 1 }) (by intro t' ht'; cases ht'; exact h.own e t ht)
    split
    · exact h'.updateRows _ _
    · exact h'

theorem RInv.markTokenSent {g : List Remote} {s : State} (h : RInv g s) (e : Nat) : RInv g (markTokenSent e s) := by
  unfold Tx.markTokenSent
  cases ht : s.tx e with
  | none => exact h
  | some t =>
    dsimp only
    have h' := h.setTx e (some { t with idTokenSent := true }) (by intro t' ht'; cases ht'; exact h.own e t ht)
    split
    · exact h'.updateRows _ _
    · exact h'

theorem pairwise_key {l : List Remote} (h : l.Pairwise (fun p q => p.1 < q.1)) {p q : Remote} (hp : p ∈ l)
    (hq : q ∈ l) (he : p.1 = q.1) : p = q := by
  induction l with
  | nil => cases hp
  | cons a l ih =>
    rw [List.pairwise_cons] at h
    rcases List.mem_cons.mp hp with hp | hp <;> rcases List.mem_cons.mp hq with hq | hq
    · rw [hp, hq]
    · have := h.1 q hq; rw [← hp, he] at this; omega
    · have := h.1 p hp; rw [← hq, he] at this; omega
    · exact ih h.2 hp hq

theorem RInv.send {g : List Remote} {s : State} (h : RInv g s) (hd : ∀ p ∈ g, ∀ q ∈ g, p.2.2 = q.2.2 → p = q)
    (e : Nat) (ty : EventType) (tr : Trigger) (w : Bool) (tok : Option Token) : RInv g (send e ty tr w tok s) := by
  unfold Tx.send
  cases ht : s.tx e with
  | none => exact h
  | some t =>
    dsimp only
    have hown := h.own e t ht
    generalize he0 : (if w = true then some e else none : Option Nat) = oe
    cases hf : s.remote.find? (remoteMatches tok oe) with
    | none =>
      dsimp only
      refine h.congr rfl h.own ?_
      intro rid
      simp only [emit, carrying_append]
      rw [carrying_single, if_neg (by rw [hown]; simp), List.append_nil]
    | some p =>
      dsimp only
      have hp : p ∈ s.remote := List.mem_of_find?_eq_some hf
      have hm : remoteMatches tok oe p = true := List.find?_some hf
      have hc : ∀ rid, carrying (emit { s with remote := s.remote.filter (fun q => q.1 != p.1) }
          (Out.event { type := ty, txId := t.id, seqNo := t.seqNo - 1, trigger := .remoteStart, charging := t.charging, remoteStartId := some p.2.2, evse := oe, token := tok, stopped := t.stopped })).out rid =
          carrying s.out rid ++ (if p.2.2 = rid then [{ type := ty, txId := t.id, seqNo := t.seqNo - 1, trigger := .remoteStart, charging := t.charging, remoteStartId := some p.2.2, evse := oe, token := tok, stopped := t.stopped }] else []) := by
        intro rid
        simp only [emit, carrying_append, carrying_single, Option.some.injEq]
      constructor
      · intro q hq
        exact h.pending q (List.mem_filter.mp hq).1
      · exact h.keys.filter _
      · exact h.own
      · intro rid
        rw [hc]
        by_cases hr : p.2.2 = rid
        · have : carrying s.out rid = [] := by
            cases hcs : carrying s.out rid with
            | nil => rfl
            | cons a l => exact absurd hr (h.spent rid (by rw [hcs]; simp) p hp)
          rw [this, if_pos hr]; simp
        · rw [if_neg hr, List.append_nil]; exact h.once rid
      · intro rid hr q hq
        have hq' := List.mem_filter.mp hq
        have hqne : q.1 ≠ p.1 := by simpa using hq'.2
        rw [hc] at hr
        by_cases hpr : p.2.2 = rid
        · intro hqr
          have : q = p := hd q (h.pending q hq'.1) p (h.pending p hp) (by rw [hqr, hpr])
          exact hqne (by rw [this])
        · rw [if_neg hpr, List.append_nil] at hr
          exact h.spent rid hr q hq'.1
      · intro rid ev hev
        rw [hc] at hev
        rcases List.mem_append.mp hev with hev | hev
        · exact h.cause rid ev hev
        · split at hev
          · have hev' := List.mem_singleton.mp hev
            refine ⟨p, h.pending p hp, ?_⟩
            rw [hev']
            refine ⟨rfl, rfl, ?_, ?_⟩
            · cases tok with
              | none => simp [remoteMatches] at hm
              | some k =>
                simp only [remoteMatches, Bool.and_eq_true] at hm
                exact ⟨k, rfl, hm.1⟩
            · cases tok with
              | none => simp [remoteMatches] at hm
              | some k =>
                simp only [remoteMatches, Bool.and_eq_true, Bool.or_eq_true, beq_iff_eq] at hm
                exact hm.2
          · cases hev

theorem RInv.afterFinish {g : List Remote} {s : State} (h : RInv g s) (e : Nat) : RInv g (afterFinish e s) := by
  unfold Tx.afterFinish
  split
  · exact h
  · split
    · split
      · exact RInv.emit_other (h.congr (s' := { s with
          resetEvses := s.resetEvses.filter (fun e' => e' != e),
          resetScheduled := !(s.resetEvses.filter (fun e' => e' != e)).isEmpty }) rfl h.own (fun _ => rfl)) _ rfl
      · exact h
    · split
      · exact h.emit_other _ rfl
      · exact RInv.emit_other (h.congr (s' := { s with resetScheduled := false }) rfl h.own (fun _ => rfl)) _ rfl

theorem RInv.bootAll {g : List Remote} {s : State} (h : RInv g s) (conns : List Nat) : RInv g (bootAll conns s) := by
  unfold Tx.bootAll
  have h0 : RInv g { Tx.powerOff s with conns := conns } :=
    { pending := (fun p hp => by cases hp), keys := List.Pairwise.nil, own := (fun e t ht => by cases ht), once := h.once, spent := (fun rid _ p hp => by cases hp), cause := h.cause }
  revert h0
  generalize ({ Tx.powerOff s with conns := conns } : State) = s0
  generalize evseIds conns = l
  induction l generalizing s0 with
  | nil => intro h0; exact h0
  | cons e l ih =>
    intro h0
    refine ih _ ?_
    unfold bootEvse
    split
    · exact h0
    · split
      · exact h0.setTx e _ (by intro t' ht'; cases ht'; rfl)
      · exact h0.deleteRow _

/-- Every single step of an operation keeps the invariant. -/
theorem RInv.steps {g : List Remote} {s : State} (h : RInv g s) (o : Op)
    (hd : ∀ p ∈ g, ∀ q ∈ g, p.2.2 = q.2.2 → p = q) (hn : opNoOwn o)
    (hr : ∀ p, opRemote o = some p → p ∈ g ∧ carrying s.out p.2.2 = []) :
    ∀ k, RInv g (exec s ((steps s o).take k)) := by
  -- chains of steps each of which keeps the invariant
  have chain : ∀ (l : List (State → State)), (∀ f ∈ l, ∀ s', RInv g s' → RInv g (f s')) →
      ∀ k s', RInv g s' → RInv g (exec s' (l.take k)) := by
    intro l
    induction l with
    | nil => intro _ k s' hs'; rw [List.take_nil]; exact hs'
    | cons f l ih =>
      intro hl k s' hs'
      cases k with
      | zero => exact hs'
      | succ k =>
        exact ih (fun f' hf' => hl f' (List.mem_cons_of_mem _ hf')) k _ (hl f (by simp) s' hs')
  have thr : ∀ f ∈ [fun s => emit s Out.threw], ∀ s', RInv g s' → RInv g (f s') := by
    intro f hf s' hs'
    rw [List.mem_singleton.mp hf]; exact hs'.emit_other _ rfl
  have two : ∀ (e : Nat) (ty : EventType) (tr : Trigger) (w : Bool) (tok : Option Token),
      ∀ f ∈ [Tx.bump e, Tx.send e ty tr w tok], ∀ s', RInv g s' → RInv g (f s') := by
    intro e ty tr w tok f hf s' hs'
    rcases List.mem_cons.mp hf with hf | hf
    · rw [hf]; exact hs'.bump e
    · rw [List.mem_singleton.mp hf]; exact hs'.send hd e ty tr w tok
  cases o with
  | start e k x tr tok rid ch =>
    intro j
    refine chain _ ?_ j s h
    simp only [Tx.steps]
    split
    · exact thr
    · intro f hf s' hs'
      rcases List.mem_append.mp hf with hf | hf
      · rcases List.mem_append.mp hf with hf | hf
        · rw [List.mem_singleton.mp hf]
          exact hs'.setTx e _ (by intro t' ht'; cases ht'; exact hn)
        · unfold openSteps at hf
          split at hf
          · cases hf
          · split at hf
            · rw [List.mem_singleton.mp hf]; exact hs'.insertRow e _
            · rcases List.mem_cons.mp hf with hf | hf
              · rw [hf]; exact hs'.deleteOwn e
              · rw [List.mem_singleton.mp hf]; exact hs'.insertRow e _
      · split at hf
        · exact thr f hf s' hs'
        · exact two _ _ _ _ _ f hf s' hs'
  | authorized e tok =>
    intro j
    refine chain _ ?_ j s h
    simp only [Tx.steps]
    split
    · exact thr
    · split
      · intro f hf; cases hf
      · split
        · intro f hf; cases hf
        · intro f hf s' hs'
          rcases List.mem_cons.mp hf with hf | hf
          · rw [hf]; exact hs'.markTokenSent e
          · exact two _ _ _ _ _ f hf s' hs'
  | charging e st tr =>
    intro j
    refine chain _ ?_ j s h
    simp only [Tx.steps]
    split
    · exact thr
    · split
      · intro f hf; cases hf
      · rename_i t ht
        split
        · intro f hf; cases hf
        · intro f hf s' hs'
          rcases List.mem_cons.mp hf with hf | hf
          · rw [hf]
            exact hs'.setTx e _ (by intro t' ht'; cases ht'; exact h.own e t ht)
          · exact two _ _ _ _ _ f hf s' hs'
  | meter e =>
    intro j
    refine chain _ ?_ j s h
    simp only [Tx.steps]
    split
    · intro f hf; cases hf
    · exact two _ _ _ _ _
  | triggerMessage oe =>
    intro j
    refine chain _ ?_ j s h
    cases oe with
    | none =>
      simp only [Tx.steps]
      intro f hf s' hs'
      obtain ⟨e, _, hfe⟩ := List.mem_flatMap.mp hf
      exact two _ _ _ _ _ f hfe s' hs'
    | some e =>
      simp only [Tx.steps]
      split
      · exact thr
      · exact two _ _ _ _ _
  | finish e tr tok ch =>
    intro j
    refine chain _ ?_ j s h
    simp only [Tx.steps]
    split
    · exact thr
    · split
      · intro f hf; cases hf
      · rename_i t ht
        intro f hf s' hs'
        simp only [List.mem_cons, List.not_mem_nil, or_false] at hf
        rcases hf with hf | hf | hf | hf | hf | hf
        · rw [hf]; exact hs'.setTx e _ (by intro t' ht'; cases ht'; exact h.own e t ht)
        · rw [hf]; exact hs'.bump e
        · rw [hf]; exact hs'.send hd e _ _ _ _
        · rw [hf]; exact hs'.deleteRow _
        · rw [hf]; exact hs'.setTx e none (by intro t' ht'; cases ht')
        · rw [hf]; exact hs'.afterFinish e
  | resetReq oe ty al ar =>
    intro j
    refine chain _ ?_ j s h
    simp only [Tx.steps]
    split
    · exact thr
    · intro f hf s' hs'
      rcases List.mem_append.mp hf with hf | hf
      · rcases List.mem_append.mp hf with hf | hf
        · rcases List.mem_append.mp hf with hf | hf
          · split at hf
            · rw [List.mem_singleton.mp hf]; exact hs'.congr rfl hs'.own (fun _ => rfl)
            · cases hf
          · rw [List.mem_singleton.mp hf]; exact hs'.emit_other _ rfl
        · split at hf
          · cases hf
          · split at hf
            · obtain ⟨_, _, rfl⟩ := List.mem_map.mp hf; exact hs'.emit_other _ rfl
            · obtain ⟨_, _, rfl⟩ := List.mem_map.mp hf; exact hs'.emit_other _ rfl
      · split at hf
        · rw [List.mem_singleton.mp hf]; exact hs'.emit_other _ rfl
        · cases hf
  | remoteStart e tok rid =>
    intro j
    obtain ⟨hmem, hfresh⟩ := hr (e, tok, rid) rfl
    simp only [Tx.steps]
    cases j with
    | zero => exact h
    | succ j =>
      rw [List.take_succ_cons, List.take_nil, exec_cons, exec_nil]
      constructor
      · intro p hp
        simp only [putRemote, List.mem_append, List.mem_filter, List.mem_singleton] at hp
        rcases hp with (⟨hp, _⟩ | hp) | ⟨hp, _⟩
        · exact h.pending p hp
        · rw [hp]; exact hmem
        · exact h.pending p hp
      · unfold putRemote
        rw [List.pairwise_append, List.pairwise_append]
        refine ⟨⟨h.keys.filter _, List.pairwise_singleton _ _, ?_⟩, h.keys.filter _, ?_⟩
        · intro p hp q hq
          rw [List.mem_singleton.mp hq]
          simpa using (List.mem_filter.mp hp).2
        · intro p hp q hq
          have hq' : e < q.1 := by simpa using (List.mem_filter.mp hq).2
          rcases List.mem_append.mp hp with hp | hp
          · have : p.1 < e := by simpa using (List.mem_filter.mp hp).2
            omega
          · rw [List.mem_singleton.mp hp]; exact hq'
      · exact h.own
      · exact h.once
      · intro r hr' p hp
        simp only [putRemote, List.mem_append, List.mem_filter, List.mem_singleton] at hp
        rcases hp with (⟨hp, _⟩ | hp) | ⟨hp, _⟩
        · exact h.spent r hr' p hp
        · rw [hp]
          intro hre
          have hre' : rid = r := hre
          rw [← hre'] at hr'
          exact hr' hfresh
        · exact h.spent r hr' p hp
      · exact h.cause
  | setResume b =>
    intro j
    refine chain _ ?_ j s h
    intro f hf s' hs'
    rw [List.mem_singleton.mp hf]; exact hs'.congr rfl hs'.own (fun _ => rfl)
  | disk ok =>
    intro j
    refine chain _ ?_ j s h
    intro f hf s' hs'
    rw [List.mem_singleton.mp hf]; exact hs'.congr rfl hs'.own (fun _ => rfl)
  | boot conns =>
    intro j
    refine chain _ ?_ j s h
    intro f hf s' hs'
    rw [List.mem_singleton.mp hf]; exact hs'.bootAll conns

theorem RInv.given_mono {g g' : List Remote} {s : State} (h : RInv g s) (hg : ∀ p ∈ g, p ∈ g') : RInv g' s where
  pending p hp := hg p (h.pending p hp)
  keys := h.keys
  own := h.own
  once := h.once
  spent := h.spent
  cause rid ev hev := by
    obtain ⟨p, hp, ha⟩ := h.cause rid ev hev
    exact ⟨p, hg p hp, ha⟩

/-- The remote starts of a history. -/
def remotesOf (h : List Cmd) : List Remote := h.filterMap (fun c => opRemote (opOf c))

theorem noOwn_iff (c : Cmd) : NoOwnRemoteId c ↔ opNoOwn (opOf c) := by
  cases c with
  | op o => cases o <;> exact Iff.rfl
  | cut o k => cases o <;> exact Iff.rfl

theorem RInv.run : ∀ (h : List Cmd) (g : List Remote) (s : State), RInv g s →
    ((g ++ remotesOf h).map (fun p => p.2.2)).Nodup → (∀ c ∈ h, NoOwnRemoteId c) →
    RInv (g ++ remotesOf h) (Tx.run s h) := by
  intro h
  induction h with
  | nil => intro g s hs _ _; simpa [remotesOf, Tx.run] using hs
  | cons c h ih =>
    intro g s hs hn ho
    have hho : ∀ c' ∈ h, NoOwnRemoteId c' := fun c' hc' => ho c' (List.mem_cons_of_mem _ hc')
    have hno := (noOwn_iff c).mp (ho c (by simp))
    have heq : remotesOf (c :: h) = (opRemote (opOf c)).toList ++ remotesOf h := by
      unfold remotesOf
      cases hc : opRemote (opOf c) <;> simp [hc]
    have hnd : ((g ++ (opRemote (opOf c)).toList).map (fun p => p.2.2)).Nodup := by
      rw [heq, ← List.append_assoc, List.map_append, List.nodup_append] at hn
      exact hn.1
    have hinj : ∀ p ∈ g ++ (opRemote (opOf c)).toList, ∀ q ∈ g ++ (opRemote (opOf c)).toList,
        p.2.2 = q.2.2 → p = q := by
      intro p hp q hq he
      have key : ∀ (l : List Remote), (l.map (fun p => p.2.2)).Nodup → ∀ p ∈ l, ∀ q ∈ l, p.2.2 = q.2.2 → p = q := by
        intro l
        induction l with
        | nil => intro _ p hp; cases hp
        | cons a l ihl =>
          intro hnl p hp q hq he
          rw [List.map_cons, List.nodup_cons] at hnl
          rcases List.mem_cons.mp hp with hp | hp <;> rcases List.mem_cons.mp hq with hq | hq
          · rw [hp, hq]
          · exact absurd (List.mem_map.mpr ⟨q, hq, by rw [← he, hp]⟩) hnl.1
          · exact absurd (List.mem_map.mpr ⟨p, hp, by rw [he, hq]⟩) hnl.1
          · exact ihl hnl.2 p hp q hq he
      exact key _ hnd p hp q hq he
    have hs' : RInv (g ++ (opRemote (opOf c)).toList) s := hs.given_mono (fun p hp => List.mem_append_left _ hp)
    have hr : ∀ p, opRemote (opOf c) = some p →
        p ∈ g ++ (opRemote (opOf c)).toList ∧ carrying s.out p.2.2 = [] := by
      intro p hp
      refine ⟨List.mem_append_right _ (by simp [hp]), ?_⟩
      cases hcs : carrying s.out p.2.2 with
      | nil => rfl
      | cons ev l =>
        exfalso
        obtain ⟨q, hq, ha⟩ := hs.cause p.2.2 ev (by rw [hcs]; simp)
        have hev : ev.remoteStartId = some p.2.2 := by
          have : ev ∈ carrying s.out p.2.2 := by rw [hcs]; simp
          simpa [carrying] using (List.mem_filter.mp this).2
        have hqp : q.2.2 = p.2.2 := by
          have := ha.2.1
          rw [hev] at this
          exact (Option.some.inj this).symm
        rw [List.map_append, List.nodup_append] at hnd
        exact hnd.2.2 _ (List.mem_map.mpr ⟨q, hq, rfl⟩) _ (List.mem_map.mpr ⟨p, by simp [hp], rfl⟩) hqp
    have hstep : RInv (g ++ (opRemote (opOf c)).toList) (Tx.step s c) := by
      cases c with
      | op o =>
        have := hs'.steps o hinj hno hr (Tx.steps s o).length
        rw [List.take_length] at this
        exact this
      | cut o k => exact (hs'.steps o hinj hno hr k).bootAll _
    have := ih (g ++ (opRemote (opOf c)).toList) (Tx.step s c) hstep
      (by rw [List.append_assoc, ← heq]; exact hn) hho
    rw [List.append_assoc, ← heq] at this
    exact this

theorem RInv.clean (conns : List Nat) (resume : Bool) : RInv [] (clean conns resume) where
  pending p hp := by cases hp
  keys := List.Pairwise.nil
  own e t ht := by cases ht
  once rid := by simp [Tx.clean, carrying]
  spent rid hr p hp := by cases hp
  cause rid ev hev := by simp [Tx.clean, carrying] at hev

end Verif.Tx
