import Verif.AvailDm.Spec
import Verif.Avail.Lemmas3
import Verif.Required.Lemmas
import Verif.DeviceModel.Theorems
/-
Lemmas about AvailabilityState.
-/
set_option linter.constructorNameAsVariable false

namespace Verif.AvailDm

open Verif.DM Verif.Req2

theorem report_s (only : Bool) (e c : Nat) (x : St) : (report only e c x).s = Avail.report only e c x.s := by
  unfold report Avail.report
  dsimp only
  split <;> rfl

theorem foldReport_s (only : Bool) (l : List (Nat × Nat)) : ∀ x : St,
    (l.foldl (fun x p => report only p.1 p.2 x) x).s = l.foldl (fun s p => Avail.report only p.1 p.2 s) x.s := by
  induction l with
  | nil => intro x; rfl
  | cons p l ih => intro x; rw [List.foldl_cons, List.foldl_cons, ih, report_s]

theorem event_s (e c : Nat) (ev : Avail.Event) (x : St) : (event e c ev x).s = Avail.event e c ev x.s := by
  unfold event Avail.event
  dsimp only
  split
  · rfl
  · rw [report_s]

theorem stepAvail_s (x : St) (o : Avail.Op) : (stepAvail x o).s = Avail.step x.s o := by
  cases o <;> try rfl
  · simp only [stepAvail, Avail.step]
    split
    · exact event_s _ _ _ _
    · rfl
  · exact foldReport_s false _ _
  · exact foldReport_s _ _ _
  · simp only [stepAvail, Avail.step]
    split
    · exact report_s _ _ _ _
    · rfl

theorem run_s (h : List Op) : ∀ x : St, (run x h).s = Avail.run x.s (availOps h) := by
  induction h with
  | nil => intro x; rfl
  | cons o h ih =>
    intro x
    have : run x (o :: h) = run (step x o) h := rfl
    rw [this, ih]
    cases o with
    | avail a =>
      have : availOps (Op.avail a :: h) = a :: availOps h := rfl
      rw [this]
      show Avail.run (stepAvail x a).s _ = _
      rw [stepAvail_s]; rfl
    | setVariables g ds => rfl

/-! ### Writes -/

theorem text_eq (st : Avail.Status) : text st = (statusName st).toList := by cases st <;> rfl

theorem listed (st : Avail.Status) :
    (splitString "Available,Occupied,Reserved,Unavailable,Faulted".toList).contains (text st) = true := by
  cases st <;> decide +kernel

theorem write_eq (dm : DM) (c : Comp) (st : Avail.Status) :
    write dm c st = (setValue dm c availabilityState .actual (text st) true).2 := by
  unfold write setReadOnlyValue
  have : allowSetReadOnly c availabilityState .actual = true := by
    unfold allowSetReadOnly
    have h : (availabilityState == (⟨"AvailabilityState".toList, none⟩ : Vbl)) = true := beq_self_eq_true availabilityState
    rw [if_neg (by decide), h]
    simp only [Bool.or_true, Bool.true_or]
  rw [if_pos this]

theorem write_accepted {dm : DM} (hwf : WellFormed dm) {c : Comp} (hd : Declares dm c) (st : Avail.Status) :
    (setValue dm c availabilityState .actual (text st) true).1 = .accepted := by
  obtain ⟨e, he, e1, e2, e3, e4, x, hx, x1, x2⟩ := hd
  refine (setValue_accepted _ _ _ _ _ _).mpr ⟨e, x, .readOnly, ?_, ?_, ?_, x2, fun _ => rfl⟩
  · have := hwf.find he
    rw [e1, e2] at this; exact this
  · simp only [validateValue, e3, e4]
    rw [listed]
  · have := hwf.attr he hx
    rw [x1] at this; exact this

theorem says_write {dm : DM} (hwf : WellFormed dm) {c : Comp} (hd : Declares dm c) (st : Avail.Status) (val : Str) :
    Says (write dm c st) c val ↔ val = text st := by
  have hacc := write_accepted hwf hd st
  obtain ⟨o1, _, _⟩ := (C72_write dm c availabilityState .actual (text st) true).2.1 hacc
  have hex : ∃ y, IsAttr dm c availabilityState .actual y := by
    obtain ⟨e, he, e1, e2, e3, e4, x, hx, x1, x2⟩ := hd
    exact ⟨x, e, he, e1, e2, hx, x1⟩
  rw [write_eq]
  constructor
  · rintro ⟨y, hy, hv⟩
    obtain ⟨z, _, rfl⟩ := (o1 y).mp hy
    injection hv with hv; exact hv.symm
  · rintro rfl
    obtain ⟨y, hy⟩ := hex
    exact ⟨{ y with value := some (text st) }, (o1 _).mpr ⟨y, hy, rfl⟩, rfl⟩

theorem says_set_other (dm : DM) (c : Comp) (v : Vbl) (a : AttrType) (val : Str) (ro : Bool) (c' : Comp) (hne : c' ≠ c)
    (u : Str) : Says (setValue dm c v a val ro).2 c' u ↔ Says dm c' u := by
  obtain ⟨w1, w2, _⟩ := C72_write dm c v a val ro
  by_cases hacc : (setValue dm c v a val ro).1 = .accepted
  · obtain ⟨_, o2, _⟩ := w2 hacc
    constructor
    · rintro ⟨y, hy, hv⟩; exact ⟨y, (o2 _ _ _ _ (fun hh => hne hh.1)).mp hy, hv⟩
    · rintro ⟨y, hy, hv⟩; exact ⟨y, (o2 _ _ _ _ (fun hh => hne hh.1)).mpr hy, hv⟩
  · rw [w1 hacc]

theorem says_write_other (dm : DM) (c : Comp) (st : Avail.Status) (c' : Comp) (hne : c' ≠ c) (u : Str) :
    Says (write dm c st) c' u ↔ Says dm c' u := by
  rw [write_eq]; exact says_set_other dm c _ _ _ _ c' hne u

theorem declares_set {dm : DM} (c : Comp) (v : Vbl) (a : AttrType) (val : Str) (ro : Bool) {c' : Comp}
    (hd : Declares dm c') : Declares (setValue dm c v a val ro).2 c' := by
  rw [setValue_state]
  split
  · obtain ⟨e, he, e1, e2, e3, e4, x, hx, x1, x2⟩ := hd
    unfold store
    refine ⟨_, List.mem_map.mpr ⟨e, he, rfl⟩, ?_⟩
    split
    · refine ⟨e1, e2, e3, e4, _, List.mem_map.mpr ⟨x, hx, rfl⟩, ?_, ?_⟩
      · rw [setAttr_type]; exact x1
      · unfold setAttr; split <;> exact x2
    · exact ⟨e1, e2, e3, e4, x, hx, x1, x2⟩
  · exact hd

theorem Fit.set {dm : DM} {conns : List Nat} (h : Fit dm conns) (c : Comp) (v : Vbl) (a : AttrType) (val : Str) (ro : Bool) :
    Fit (setValue dm c v a val ro).2 conns :=
  ⟨(C72_write dm c v a val ro).2.2 h.wf, declares_set c v a val ro h.station,
    fun e he => declares_set c v a val ro (h.evse e he), fun e k he => declares_set c v a val ro (h.connector e k he)⟩

theorem Fit.write {dm : DM} {conns : List Nat} (h : Fit dm conns) (c : Comp) (st : Avail.Status) :
    Fit (write dm c st) conns := by rw [write_eq]; exact h.set _ _ _ _ _

theorem Fit.update {dm : DM} {conns : List Nat} (h : Fit dm conns) (e c : Nat) (st : Avail.Status) :
    Fit (updateDm dm e c st) conns := by
  unfold updateDm
  dsimp only
  split
  · exact ((h.write _ _).write _ _).write _ _
  · exact (h.write _ _).write _ _

/-- The CSMS cannot write AvailabilityState. -/
theorem says_csms {dm : DM} (hwf : WellFormed dm) {c' : Comp} (hd : Declares dm c') (c : Comp) (v : Vbl) (a : AttrType) (val : Str)
    (u : Str) : Says (setValue dm c v a val false).2 c' u ↔ Says dm c' u := by
  obtain ⟨w1, w2, _⟩ := C72_write dm c v a val false
  by_cases hacc : (setValue dm c v a val false).1 = .accepted
  · obtain ⟨_, o2, _⟩ := w2 hacc
    have hne : ¬ (c' = c ∧ vbl "AvailabilityState" = v ∧ AttrType.actual = a) := by
      rintro ⟨rfl, rfl, rfl⟩
      obtain ⟨e, x, m, h1, h2, h3, h4, h5⟩ := (setValue_accepted _ _ _ _ _ _).mp hacc
      obtain ⟨e', he', e1, e2, e3, e4, x', hx', x1, x2⟩ := hd
      have k := hwf.find he'
      rw [e1, e2, h1] at k; injection k with k; subst k
      have k := hwf.attr he' hx'
      rw [x1, h3] at k; injection k with k; subst k
      rw [h4] at x2; injection x2 with x2
      exact absurd (h5 x2) (by simp)
    constructor
    · rintro ⟨y, hy, hv⟩; exact ⟨y, (o2 _ _ _ _ hne).mp hy, hv⟩
    · rintro ⟨y, hy, hv⟩; exact ⟨y, (o2 _ _ _ _ hne).mpr hy, hv⟩
  · rw [w1 hacc]

theorem setVariables_keep (conns : List Nat) (g : DM → SetData → Bool) (ds : List SetData) : ∀ (dm : DM),
    Fit dm conns → Fit (handleSetVariables g dm ds).1 conns ∧
      ∀ c, Declares dm c → ∀ u, Says (handleSetVariables g dm ds).1 c u ↔ Says dm c u := by
  have key : ∀ (ds : List SetData) (dm : DM), Fit dm conns →
      Fit (ds.foldl (fun s d => (setOne g false s d).2) dm) conns ∧
      ∀ c, Declares dm c → ∀ u, Says (ds.foldl (fun s d => (setOne g false s d).2) dm) c u ↔ Says dm c u := by
    intro ds
    induction ds with
    | nil => intro dm h; exact ⟨h, fun c _ u => Iff.rfl⟩
    | cons d ds ih =>
      intro dm h
      rw [List.foldl_cons]
      have one : Fit (setOne g false dm d).2 conns ∧ ∀ c, Declares dm c → Declares (setOne g false dm d).2 c ∧
          ∀ u, Says (setOne g false dm d).2 c u ↔ Says dm c u := by
        unfold setOne
        split
        · exact ⟨h.set _ _ _ _ _, fun c hc => ⟨declares_set _ _ _ _ _ hc, fun u => says_csms h.wf hc _ _ _ _ u⟩⟩
        · exact ⟨h, fun c hc => ⟨hc, fun u => Iff.rfl⟩⟩
      obtain ⟨i1, i2⟩ := ih _ one.1
      exact ⟨i1, fun c hc u => (i2 c (one.2 c hc).1 u).trans ((one.2 c hc).2 u)⟩
  intro dm h
  have : (handleSetVariables g dm ds).1 = ds.foldl (fun s d => (setOne g false s d).2) dm := setVariables_state g false ds dm []
  rw [this]
  exact key ds dm h

/-! ### The components differ -/

theorem evse_ne_connector (e e' c : Nat) : theEvse e ≠ theConnector e' c := by
  intro h; injection h with h; exact absurd h (by decide)

theorem evse_inj {e e' : Nat} (h : theEvse e = theEvse e') : e = e' := by
  have k := congrArg Comp.evse h
  simp only [theEvse, Option.some.injEq, Prod.mk.injEq, and_true] at k
  exact Int.ofNat.inj k

theorem connector_inj {e e' c c' : Nat} (h : theConnector e c = theConnector e' c') : e = e' ∧ c = c' := by
  have k := congrArg Comp.evse h
  have k1 : (e : Int) = (e' : Int) := congrArg (fun o => (o.getD (0, none)).1) k
  have k2 : (some (c : Int)) = some (c' : Int) := congrArg (fun o => (o.getD (0, none)).2) k
  exact ⟨Int.ofNat.inj k1, Int.ofNat.inj (Option.some.inj k2)⟩

theorem station_ne_evse (e : Nat) : theStation ≠ theEvse e := by
  intro h; injection h with h; exact absurd h (by decide)

theorem station_ne_connector (e c : Nat) : theStation ≠ theConnector e c := by
  intro h; injection h with h; exact absurd h (by decide)

theorem update_eq (dm : DM) {e : Nat} (he : 1 ≤ e) (c : Nat) (st : Avail.Status) :
    updateDm dm e c st = write (write dm (theEvse e) st) (theConnector e c) st := by
  unfold updateDm
  dsimp only
  rw [if_neg (by omega)]; rfl

theorem update_connector {dm : DM} {conns : List Nat} (h : Fit dm conns) {e c : Nat} (hx : Avail.Exists conns (.conn e c))
    (st : Avail.Status) (e' c' : Nat) (u : Str) :
    Says (updateDm dm e c st) (theConnector e' c') u ↔
      if e' = e ∧ c' = c then u = text st else Says dm (theConnector e' c') u := by
  rw [update_eq dm hx.1]
  split
  · rename_i hh
    obtain ⟨rfl, rfl⟩ := hh
    exact says_write (h.write _ _).wf ((h.write _ _).connector _ _ hx) st u
  · rename_i hh
    rw [says_write_other _ _ _ _ (fun hq => hh (connector_inj hq)), says_write_other _ _ _ _ (Ne.symm (evse_ne_connector _ _ _))]

theorem update_evse {dm : DM} {conns : List Nat} (h : Fit dm conns) {e c : Nat} (hx : Avail.Exists conns (.conn e c))
    (st : Avail.Status) (e' : Nat) (u : Str) :
    Says (updateDm dm e c st) (theEvse e') u ↔ if e' = e then u = text st else Says dm (theEvse e') u := by
  rw [update_eq dm hx.1, says_write_other _ _ _ _ (evse_ne_connector _ _ _)]
  split
  · rename_i hh
    subst hh
    exact says_write h.wf (h.evse _ ⟨hx.1, hx.2.1⟩) st u
  · rename_i hh
    rw [says_write_other _ _ _ _ (fun hq => hh (evse_inj hq))]

theorem update_station (dm : DM) {e : Nat} (he : 1 ≤ e) (c : Nat) (st : Avail.Status) (u : Str) :
    Says (updateDm dm e c st) theStation u ↔ Says dm theStation u := by
  rw [update_eq dm he, says_write_other _ _ _ _ (station_ne_connector _ _), says_write_other _ _ _ _ (station_ne_evse _)]

/-! ### Reports -/

/-- What a report does to the device model. -/
theorem report_dm (only : Bool) (e c : Nat) (x : St) :
    (report only e c x).dm = x.dm ∧ only = true ∧ x.s.lastReported e c = Avail.toStatus (x.s.flags e c) ∨
    (report only e c x).dm = updateDm x.dm e c (Avail.toStatus (x.s.flags e c)) := by
  unfold report
  dsimp only
  split
  · exact .inr rfl
  · rename_i h
    simp only [Bool.not_eq_true, Bool.or_eq_false_iff, Bool.not_eq_false', bne_eq_false_iff_eq] at h
    exact .inl ⟨rfl, h⟩

theorem report_always (e c : Nat) (x : St) :
    (report false e c x).dm = updateDm x.dm e c (Avail.toStatus (x.s.flags e c)) := by
  unfold report; simp

/-- An invariant of steps that reports keep. -/
theorem keep_step (P : St → Prop)
    (hrep : ∀ only e c x, P x → Avail.Exists x.s.conns (.conn e c) → P (report only e c x))
    (hdm : ∀ g ds x, P x → P ⟨x.s, (handleSetVariables g x.dm ds).1⟩)
    (hon : ∀ x, P x → P ⟨{ x.s with online := true }, x.dm⟩)
    (hfl : ∀ x fl, P x → P ⟨{ x.s with flags := fl }, x.dm⟩)
    (hs : ∀ x o, P x → Avail.isReporting o = false → P ⟨Avail.step x.s o, x.dm⟩)
    (hthrow : ∀ x, P x → P ⟨Avail.emit x.s .threw, x.dm⟩)
    (x : St) (o : Op) (h : P x) (hb : ∀ a, o = .avail a → Avail.isBoot a = false)
    (hoff : o = .avail .offline → P ⟨{ x.s with online := false }, x.dm⟩) : P (step x o) := by
  have hall : ∀ (only : Bool) (l : List (Nat × Nat)) (x : St), P x → (∀ p ∈ l, Avail.Exists x.s.conns (.conn p.1 p.2)) →
      P (l.foldl (fun x p => report only p.1 p.2 x) x) := by
    intro only l
    induction l with
    | nil => intro x hx _; exact hx
    | cons p l ih =>
      intro x hx hl
      rw [List.foldl_cons]
      refine ih _ (hrep only p.1 p.2 x hx (hl p (by simp))) (fun q hq => ?_)
      rw [report_s, (Avail.report_fields only p.1 p.2 x.s).1]
      exact hl q (List.mem_cons_of_mem _ hq)
  have hmem : ∀ (conns : List Nat) (p : Nat × Nat), p ∈ Avail.allConns conns → Avail.Exists conns (.conn p.1 p.2) :=
    fun conns p hp => (Avail.mem_allConns _ _ _).mp hp
  cases o with
  | setVariables g ds => exact hdm g ds x h
  | avail a =>
    have hb := hb a rfl
    cases a with
    | event e c ev =>
      simp only [step, stepAvail]
      split
      · rename_i hx
        have hx := (Avail.mem_allConns _ _ _).mp ((Avail.exists_iff _ _ _).mp hx)
        unfold event
        dsimp only
        split
        · exact hfl x _ h
        · exact hrep true e c _ (hfl x _ h) hx
      · exact hthrow x h
    | offline => exact hoff rfl
    | accepted => exact hall false _ _ (hon x h) (fun p hp => hmem x.s.conns p hp)
    | reconnect b => exact hall _ _ _ (hon x h) (fun p hp => hmem x.s.conns p hp)
    | triggerStatus e c =>
      simp only [step, stepAvail]
      split
      · rename_i hx
        exact hrep false e c x h ((Avail.mem_allConns _ _ _).mp ((Avail.exists_iff _ _ _).mp hx))
      · exact hthrow x h
    | boot _ _ => cases hb
    | change r => exact hs x _ h rfl
    | txStart _ _ => exact hs x _ h rfl
    | txEnd _ => exact hs x _ h rfl
    | firmwarePrepare => exact hs x _ h rfl
    | firmwareRestore => exact hs x _ h rfl
    | block _ => exact hs x _ h rfl
    | start => exact hs x _ h rfl

end Verif.AvailDm
