import Verif.AvailDm.Lemmas
/-
Theorems about AvailabilityState: C227, C228.
-/
set_option linter.constructorNameAsVariable false

namespace Verif.AvailDm

open Verif.DM Verif.Req2

/-! ### An example -/

/-- A variable AvailabilityState as in the configuration files. -/
def exEntry (c : Comp) (val : String) : Entry :=
  ⟨c, vbl "AvailabilityState", ⟨.optionList, none, none, some "Available,Occupied,Reserved,Unavailable,Faulted".toList, true⟩,
    [⟨.actual, some val.toList, some .readOnly⟩]⟩

/-- One EVSE with two connectors. -/
def exDm : DM := [exEntry theStation "Available", exEntry (theEvse 1) "Unavailable",
  exEntry (theConnector 1 1) "Unavailable", exEntry (theConnector 1 2) "Unavailable"]

theorem exEntry_declares (c : Comp) (val : String) (dm : DM) (h : exEntry c val ∈ dm) : Declares dm c :=
  ⟨_, h, rfl, rfl, rfl, rfl, _, List.mem_singleton.mpr rfl, rfl, rfl⟩

theorem exDm_wf : WellFormed exDm := by
  constructor
  · decide +kernel
  · decide +kernel

theorem exDm_fit : Fit exDm [2] := by
  refine ⟨exDm_wf, exEntry_declares _ "Available" _ (by simp [exDm]), ?_, ?_⟩
  · rintro e ⟨h1, h2⟩
    have : e = 1 := by simp only [List.length_singleton] at h2; omega
    subst this
    exact exEntry_declares _ "Unavailable" _ (by simp only [exDm, List.mem_cons, true_or, or_true])
  · rintro e c ⟨h1, h2, h3, h4⟩
    have : e = 1 := by simp only [List.length_singleton] at h2; omega
    subst this
    have : c ≤ 2 := h4
    rcases (show c = 1 ∨ c = 2 by omega) with rfl | rfl
    · exact exEntry_declares _ "Unavailable" _ (by simp only [exDm, List.mem_cons, true_or, or_true])
    · exact exEntry_declares _ "Unavailable" _ (by simp only [exDm, List.mem_cons, true_or, or_true])

/-- A new station with this device model. -/
def ex : St := ⟨Avail.clean [2], exDm⟩

/-! ### C227: the device model and the status of a connector -/

/-- For one connector of a station that is online: the device model shows the status last reported. -/
structure Inv (e c : Nat) (x : St) : Prop where
  fit : Fit x.dm x.s.conns
  there : Avail.Exists x.s.conns (.conn e c)
  online : x.s.online = true
  last : (Avail.notes x.s.out e c).getLast? = some (x.s.lastReported e c)
  shows : Says x.dm (theConnector e c) (text (x.s.lastReported e c))

theorem fit_report {x : St} (h : Fit x.dm x.s.conns) (only : Bool) (e c : Nat) :
    Fit (report only e c x).dm (report only e c x).s.conns := by
  rw [report_s, (Avail.report_fields only e c x.s).1]
  rcases report_dm only e c x with ⟨h1, _⟩ | h1
  · rw [h1]; exact h
  · rw [h1]; exact h.update _ _ _

theorem Inv.report {e c : Nat} {x : St} (h : Inv e c x) (only : Bool) (e' c' : Nat)
    (hx : Avail.Exists x.s.conns (.conn e' c')) : Inv e c (report only e' c' x) := by
  refine ⟨fit_report h.fit only e' c', ?_, ?_, ?_, ?_⟩
  · rw [report_s, (Avail.report_fields only e' c' x.s).1]; exact h.there
  · rw [report_s, (Avail.report_fields only e' c' x.s).2.2.2.2.2.2.1]; exact h.online
  · rw [report_s]; exact Avail.last_report h.last only e' c'
  · rcases Avail.report_cases only e' c' x.s with ⟨h1, h2⟩ | ⟨_, hne, h1⟩
    · rcases h2 with h2 | ⟨h2, h3⟩
      · rw [h.online] at h2; cases h2
      · have : AvailDm.report only e' c' x = x := by
          unfold AvailDm.report; dsimp only; rw [if_neg]; simp [h2, h3]
        rw [this]; exact h.shows
    · have hd : (AvailDm.report only e' c' x).dm = updateDm x.dm e' c' (Avail.toStatus (x.s.flags e' c')) := by
        rcases report_dm only e' c' x with ⟨_, k1, k2⟩ | k
        · exact absurd k2 (hne k1)
        · exact k
      rw [hd, report_s, h1, update_connector h.fit hx]
      simp only [Avail.upd2]
      split
      · rfl
      · exact h.shows

theorem Inv.established {e c : Nat} {x : St} (hfit : Fit x.dm x.s.conns) (hx : Avail.Exists x.s.conns (.conn e c))
    (hon : x.s.online = true) : Inv e c (AvailDm.report false e c x) := by
  have hc : (Avail.report false e c x.s).conns = x.s.conns := (Avail.report_fields false e c x.s).1
  refine ⟨fit_report hfit false e c, ?_, ?_, ?_, ?_⟩
  · rw [report_s, hc]; exact hx
  · rw [report_s, (Avail.report_fields false e c x.s).2.2.2.2.2.2.1]; exact hon
  · rw [report_s]
    rcases Avail.report_cases false e c x.s with ⟨_, h2⟩ | ⟨_, _, h1⟩
    · rcases h2 with h2 | h2
      · rw [hon] at h2; cases h2
      · cases h2.1
    · rw [h1]; simp [Avail.emit, Avail.notes_append, Avail.notes_status, Avail.upd2]
  · rw [report_s, Avail.cur_report false e c hon, (Avail.report_fields false e c x.s).2.2.2.2.1, report_always,
      update_connector hfit hx]
    simp

theorem Inv.all {e c : Nat} (l : List (Nat × Nat)) : ∀ x : St, Fit x.dm x.s.conns → Avail.Exists x.s.conns (.conn e c) →
    x.s.online = true → (∀ p ∈ l, Avail.Exists x.s.conns (.conn p.1 p.2)) → (e, c) ∈ l →
    Inv e c (l.foldl (fun x p => AvailDm.report false p.1 p.2 x) x) := by
  have keep : ∀ (l : List (Nat × Nat)) (x : St), Inv e c x → (∀ p ∈ l, Avail.Exists x.s.conns (.conn p.1 p.2)) →
      Inv e c (l.foldl (fun x p => AvailDm.report false p.1 p.2 x) x) := by
    intro l
    induction l with
    | nil => intro x hx _; exact hx
    | cons p l ih =>
      intro x hx hl
      rw [List.foldl_cons]
      refine ih _ (hx.report false p.1 p.2 (hl p (by simp))) (fun q hq => ?_)
      rw [report_s, (Avail.report_fields false p.1 p.2 x.s).1]
      exact hl q (List.mem_cons_of_mem _ hq)
  induction l with
  | nil => intro _ _ _ _ _ hm; cases hm
  | cons p l ih =>
    intro x hfit hx hon hl hm
    rw [List.foldl_cons]
    have hc : (AvailDm.report false p.1 p.2 x).s.conns = x.s.conns := by
      rw [report_s, (Avail.report_fields false p.1 p.2 x.s).1]
    have hl' : ∀ q ∈ l, Avail.Exists (AvailDm.report false p.1 p.2 x).s.conns (.conn q.1 q.2) := by
      intro q hq; rw [hc]; exact hl q (List.mem_cons_of_mem _ hq)
    by_cases hp : p = (e, c)
    · subst hp
      exact keep l _ (Inv.established hfit hx hon) hl'
    · rcases List.mem_cons.mp hm with hm | hm
      · exact absurd hm.symm hp
      · refine ih _ (fit_report hfit false p.1 p.2) (by rw [hc]; exact hx) ?_ hl' hm
        rw [report_s, (Avail.report_fields false p.1 p.2 x.s).2.2.2.2.2.2.1]; exact hon

theorem Inv.silent {e c : Nat} {x : St} (h : Inv e c x) {s' : Avail.State} (hs : Avail.Silent x.s s') :
    Inv e c ⟨s', x.dm⟩ :=
  ⟨by show Fit x.dm s'.conns; rw [hs.conns]; exact h.fit, by show Avail.Exists s'.conns _; rw [hs.conns]; exact h.there,
    by show s'.online = true; rw [hs.online]; exact h.online, Avail.last_silent hs h.last,
    by show Says x.dm _ (text (s'.lastReported e c)); rw [hs.lastReported]; exact h.shows⟩

theorem Inv.step {e c : Nat} {x : St} (h : Inv e c x) (o : Op) (hb : ∀ a, o = .avail a → Avail.isBoot a = false)
    (hoff : o ≠ .avail .offline) : Inv e c (step x o) := by
  refine keep_step (Inv e c) (fun only e' c' x hx hx' => hx.report only e' c' hx') ?_ ?_ ?_ ?_ ?_ x o h hb
    (fun hh => absurd hh hoff)
  · intro g ds x hx
    obtain ⟨k1, k2⟩ := setVariables_keep x.s.conns g ds x.dm hx.fit
    exact ⟨k1, hx.there, hx.online, hx.last, (k2 _ (hx.fit.connector e c hx.there) _).mpr hx.shows⟩
  · intro x hx; exact ⟨hx.fit, hx.there, rfl, hx.last, hx.shows⟩
  · intro x fl hx; exact ⟨hx.fit, hx.there, hx.online, hx.last, hx.shows⟩
  · intro x o hx ho; exact hx.silent (Avail.Silent.step x.s o ho)
  · intro x hx; exact hx.silent (Avail.Silent.emit x.s _ rfl)

/-- C227, while online: from the moment everything was reported (the station was accepted, or reconnected
after a long time), for every later history without restart and without loss of the connection, whatever
the CSMS tries to set: the device model shows for each connector the status of its last StatusNotification;
this is its current status unless a plug event came while it was reserved. -/
theorem C227_partial (x : St) (hfit : Fit x.dm x.s.conns) (o : Avail.Op) (ho : o = .accepted ∨ o = .reconnect true)
    (h : List Op) (hh : ∀ a, .avail a ∈ h → Avail.isBoot a = false ∧ a ≠ .offline)
    (e c : Nat) (he : Avail.Exists x.s.conns (.conn e c)) :
    ∃ st, (Avail.notes (run x (.avail o :: h)).s.out e c).getLast? = some st ∧
      Shows (run x (.avail o :: h)).dm (theConnector e c) st ∧
      (¬ Avail.PlugWhileReserved e c (Avail.step x.s o) (availOps h) →
        st = Avail.toStatus ((run x (.avail o :: h)).s.flags e c)) := by
  have hstart : Inv e c (step x (.avail o)) := by
    have hm : (e, c) ∈ Avail.allConns x.s.conns := (Avail.mem_allConns _ _ _).mpr he
    rcases ho with rfl | rfl <;>
    exact Inv.all (Avail.allConns x.s.conns) ⟨{ x.s with online := true }, x.dm⟩ hfit he rfl
      (fun p hp => (Avail.mem_allConns _ _ _).mp hp) hm
  have key : ∀ (h : List Op) (y : St), Inv e c y → (∀ a, .avail a ∈ h → Avail.isBoot a = false ∧ a ≠ .offline) →
      Inv e c (run y h) := by
    intro h
    induction h with
    | nil => intro y hy _; exact hy
    | cons p h ih =>
      intro y hy hh
      refine ih (step y p) (hy.step p ?_ ?_) (fun a ha => hh a (List.mem_cons_of_mem _ ha))
      · rintro a rfl; exact (hh a (by simp)).1
      · rintro rfl; exact (hh .offline (by simp)).2 rfl
  have hinv : Inv e c (run x (.avail o :: h)) := key h _ hstart hh
  refine ⟨_, hinv.last, ?_, ?_⟩
  · show Says _ _ _
    rw [← text_eq]; exact hinv.shows
  · intro hplug
    have hn0 : Avail.NInv e c (Avail.step x.s o) := by
      have hm : (e, c) ∈ Avail.allConns x.s.conns := (Avail.mem_allConns _ _ _).mpr he
      rcases ho with rfl | rfl <;>
      exact Avail.NInv.fold false (Avail.allConns x.s.conns) { x.s with online := true } rfl hm (Or.inl rfl)
    have hc0 : (Avail.step x.s o).conns = x.s.conns :=
      Avail.step_conns' x.s o (by rcases ho with rfl | rfl <;> rfl)
    have nkey : ∀ (h : List Avail.Op) (y : Avail.State), Avail.NInv e c y → y.conns = x.s.conns →
        (∀ a ∈ h, Avail.isBoot a = false) → ¬ Avail.PlugWhileReserved e c y h → Avail.NInv e c (Avail.run y h) := by
      intro h
      induction h with
      | nil => intro y hy _ _ _; exact hy
      | cons a h ih =>
        intro y hy hyc hb hpl
        have hs := hy.step a (hb a (by simp)) (by rw [hyc]; exact (Avail.mem_allConns _ _ _).mpr he) (fun hq => hpl (Or.inl hq))
        exact ih (Avail.step y a) hs (by rw [Avail.step_conns' y a (hb a (by simp)), hyc])
          (fun z hz => hb z (List.mem_cons_of_mem _ hz)) (fun hq => hpl (Or.inr hq))
    have hb : ∀ a ∈ availOps h, Avail.isBoot a = false := by
      intro a ha
      obtain ⟨p, hp, hpa⟩ := List.mem_filterMap.mp ha
      cases p with
      | avail b => injection hpa with hpa; subst hpa; exact (hh _ hp).1
      | setVariables g ds => cases hpa
    have hn := nkey (availOps h) _ hn0 hc0 hb hplug
    have hs : (run x (.avail o :: h)).s = Avail.run (Avail.step x.s o) (availOps h) := run_s (.avail o :: h) x
    have hon := hinv.online
    rw [hs] at hon ⊢
    exact hn.cur hon

/-- The hypotheses are met, by histories in which statuses change and the CSMS tries to set the value. -/
example : Fit ex.dm ex.s.conns ∧ Avail.Exists ex.s.conns (.conn 1 2) ∧
    Shows (run ex [.avail .accepted, .avail (.event 1 2 .plugIn),
      .setVariables (fun _ _ => true) [⟨theConnector 1 2, vbl "AvailabilityState", none, "Faulted".toList⟩]]).dm
      (theConnector 1 2) .occupied := by
  refine ⟨exDm_fit, ⟨by decide, by decide, by decide, by decide⟩, ?_⟩
  have hwf : WellFormed (run ex [.avail .accepted, .avail (.event 1 2 .plugIn),
      .setVariables (fun _ _ => true) [⟨theConnector 1 2, vbl "AvailabilityState", none, "Faulted".toList⟩]]).dm := by
    constructor <;> decide +kernel
  exact (getText_iff hwf _ _).mp (by decide +kernel)

/-- A vehicle is plugged in and out again while the connection is lost. -/
def offlinePlug : List Op := [.avail .accepted, .avail .offline, .avail (.event 1 1 .plugIn), .avail (.event 1 1 .plugOut),
  .avail (.reconnect false)]

/-- C227 fails after a short loss of the connection: the status that was last reported came back, so nothing
is reported and the device model is not written either.  It keeps the status of the meantime: online, with
the connector Available and reported so, the device model says Occupied. -/
theorem C227_violated : Fit ex.dm ex.s.conns ∧ (run ex offlinePlug).s.online = true ∧
    Avail.toStatus ((run ex offlinePlug).s.flags 1 1) = .available ∧
    (Avail.notes (run ex offlinePlug).s.out 1 1).getLast? = some .available ∧
    Shows (run ex offlinePlug).dm (theConnector 1 1) .occupied := by
  refine ⟨exDm_fit, by decide +kernel, by decide +kernel, by decide +kernel, ?_⟩
  have hwf : WellFormed (run ex offlinePlug).dm := by constructor <;> decide +kernel
  exact (getText_iff hwf _ _).mp (by decide +kernel)

/-! ### C228: EVSEs and the station -/

/-- The device model shows the same for the EVSE and one of its connectors. -/
structure EInv (e : Nat) (x : St) : Prop where
  fit : Fit x.dm x.s.conns
  same : ∃ c, Avail.Exists x.s.conns (.conn e c) ∧ ∀ u, Says x.dm (theEvse e) u ↔ Says x.dm (theConnector e c) u

theorem EInv.written {e : Nat} {x : St} (h : EInv e x) (only : Bool) (e' c' : Nat) (hx : Avail.Exists x.s.conns (.conn e' c')) :
    EInv e (AvailDm.report only e' c' x) := by
  refine ⟨fit_report h.fit only e' c', ?_⟩
  rw [report_s, (Avail.report_fields only e' c' x.s).1]
  rcases report_dm only e' c' x with ⟨h1, _⟩ | h1
  · rw [h1]; exact h.same
  · rw [h1]
    by_cases hee : e = e'
    · subst hee
      refine ⟨c', hx, fun u => ?_⟩
      rw [update_evse h.fit hx, update_connector h.fit hx, if_pos rfl, if_pos ⟨rfl, rfl⟩]
    · obtain ⟨c, hc, hs⟩ := h.same
      refine ⟨c, hc, fun u => ?_⟩
      rw [update_evse h.fit hx, update_connector h.fit hx, if_neg hee, if_neg (fun hh => hee hh.1)]
      exact hs u

theorem EInv.first {e c : Nat} {x : St} (hfit : Fit x.dm x.s.conns) (hx : Avail.Exists x.s.conns (.conn e c)) :
    EInv e (AvailDm.report false e c x) := by
  refine ⟨fit_report hfit false e c, c, ?_, fun u => ?_⟩
  · rw [report_s, (Avail.report_fields false e c x.s).1]; exact hx
  · rw [report_always, update_evse hfit hx, update_connector hfit hx, if_pos rfl, if_pos ⟨rfl, rfl⟩]

theorem EInv.all {e : Nat} (l : List (Nat × Nat)) : ∀ x : St, Fit x.dm x.s.conns →
    (∀ p ∈ l, Avail.Exists x.s.conns (.conn p.1 p.2)) → (EInv e x ∨ ∃ c, (e, c) ∈ l) →
    EInv e (l.foldl (fun x p => AvailDm.report false p.1 p.2 x) x) := by
  induction l with
  | nil =>
    rintro x _ _ (h | ⟨c, hm⟩)
    · exact h
    · cases hm
  | cons p l ih =>
    intro x hfit hl h
    rw [List.foldl_cons]
    have hc : (AvailDm.report false p.1 p.2 x).s.conns = x.s.conns := by
      rw [report_s, (Avail.report_fields false p.1 p.2 x.s).1]
    refine ih _ (fit_report hfit _ _ _) (fun q hq => by rw [hc]; exact hl q (List.mem_cons_of_mem _ hq)) ?_
    rcases h with h | ⟨c, hm⟩
    · exact .inl (h.written false p.1 p.2 (hl p (by simp)))
    · rcases List.mem_cons.mp hm with hm | hm
      · subst hm; exact .inl (EInv.first hfit (hl (e, c) (by simp)))
      · exact .inr ⟨c, hm⟩

theorem EInv.step {e : Nat} {x : St} (h : EInv e x) (o : Op) (hb : ∀ a, o = .avail a → Avail.isBoot a = false) :
    EInv e (step x o) := by
  have hs : ∀ (x : St) (s' : Avail.State), EInv e x → s'.conns = x.s.conns → EInv e ⟨s', x.dm⟩ := by
    intro x s' hx hc
    exact ⟨by show Fit x.dm s'.conns; rw [hc]; exact hx.fit, by show ∃ c, Avail.Exists s'.conns _ ∧ _; rw [hc]; exact hx.same⟩
  refine keep_step (EInv e) (fun only e' c' x hx hx' => hx.written only e' c' hx') ?_ ?_ ?_ ?_ ?_ x o h hb ?_
  · intro g ds x hx
    obtain ⟨k1, k2⟩ := setVariables_keep x.s.conns g ds x.dm hx.fit
    obtain ⟨c, hc, hs⟩ := hx.same
    refine ⟨k1, c, hc, fun u => ?_⟩
    rw [k2 _ (hx.fit.evse e ⟨hc.1, hc.2.1⟩), k2 _ (hx.fit.connector e c hc)]
    exact hs u
  · intro x hx; exact hs x _ hx rfl
  · intro x fl hx; exact hs x _ hx rfl
  · intro x o hx ho; exact hs x _ hx (Avail.Silent.step x.s o ho).conns
  · intro x hx; exact hs x _ hx rfl
  · intro _; exact hs x _ h rfl

/-- C228, EVSEs: once everything was reported, in every later history without restart, online or not, the
device model shows for an EVSE what it shows for one of its connectors; so with a single connector it shows
the same for both. -/
theorem C228_partial (x : St) (hfit : Fit x.dm x.s.conns) (o : Avail.Op) (ho : o = .accepted ∨ o = .reconnect true)
    (h : List Op) (hh : ∀ a, .avail a ∈ h → Avail.isBoot a = false)
    (e : Nat) (he : ∃ c, Avail.Exists x.s.conns (.conn e c)) :
    ∃ c, Avail.Exists x.s.conns (.conn e c) ∧
      ∀ val, Says (run x (.avail o :: h)).dm (theEvse e) val ↔ Says (run x (.avail o :: h)).dm (theConnector e c) val := by
  have hstart : EInv e (step x (.avail o)) := by
    obtain ⟨c, hc⟩ := he
    have hm : (e, c) ∈ Avail.allConns x.s.conns := (Avail.mem_allConns _ _ _).mpr hc
    rcases ho with rfl | rfl <;>
    exact EInv.all (Avail.allConns x.s.conns) ⟨{ x.s with online := true }, x.dm⟩ hfit
      (fun p hp => (Avail.mem_allConns _ _ _).mp hp) (.inr ⟨c, hm⟩)
  have key : ∀ (h : List Op) (y : St), EInv e y → (∀ a, .avail a ∈ h → Avail.isBoot a = false) → EInv e (run y h) := by
    intro h
    induction h with
    | nil => intro y hy _; exact hy
    | cons p h ih =>
      intro y hy hh
      refine ih (step y p) (hy.step p ?_) (fun a ha => hh a (List.mem_cons_of_mem _ ha))
      rintro a rfl; exact hh a (by simp)
  have hinv := key h _ hstart hh
  obtain ⟨c, hc, hs⟩ := hinv.same
  refine ⟨c, ?_, hs⟩
  have hconns : (run (step x (.avail o)) h).s.conns = x.s.conns := by
    have e1 : (run (step x (.avail o)) h).s = Avail.run x.s (availOps (.avail o :: h)) := run_s (.avail o :: h) x
    rw [e1]
    refine Avail.run_conns _ _ (fun a ha => ?_)
    obtain ⟨p, hp, hpa⟩ := List.mem_filterMap.mp ha
    cases p with
    | avail b =>
      injection hpa with hpa; subst hpa
      rcases List.mem_cons.mp hp with hp | hp
      · injection hp with hp; subst hp; rcases ho with rfl | rfl <;> rfl
      · exact hh _ hp
    | setVariables g ds => cases hpa
  rw [hconns] at hc
  exact hc

/-- A vehicle at the first connector; then the CSMS asks for the status of the second. -/
def otherConnector : List Op := [.avail .accepted, .avail (.event 1 1 .plugIn), .avail (.triggerStatus 1 2)]

/-- C228 fails for an EVSE with two connectors: the status written last wins.  A vehicle is connected and the
EVSE is in use, but the device model says that it is Available. -/
theorem C228_violated : Fit ex.dm ex.s.conns ∧
    Avail.toStatus ((run ex otherConnector).s.flags 1 1) = .occupied ∧
    Shows (run ex otherConnector).dm (theConnector 1 1) .occupied ∧
    Shows (run ex otherConnector).dm (theEvse 1) .available := by
  have hwf : WellFormed (run ex otherConnector).dm := by constructor <;> decide +kernel
  exact ⟨exDm_fit, by decide +kernel, (getText_iff hwf _ _).mp (by decide +kernel),
    (getText_iff hwf _ _).mp (by decide +kernel)⟩

/-- The station: whatever happens until it restarts, its AvailabilityState keeps the value it had, so that of
the configuration. -/
theorem C228_station (x : St) (hfit : Fit x.dm x.s.conns) (h : List Op) (hh : ∀ a, .avail a ∈ h → Avail.isBoot a = false)
    (val : Str) : Says (run x h).dm theStation val ↔ Says x.dm theStation val := by
  have key : ∀ (h : List Op) (y : St), (∀ a, .avail a ∈ h → Avail.isBoot a = false) →
      (Fit y.dm y.s.conns ∧ (Says y.dm theStation val ↔ Says x.dm theStation val)) →
      (Fit (run y h).dm (run y h).s.conns ∧ (Says (run y h).dm theStation val ↔ Says x.dm theStation val)) := by
    intro h
    induction h with
    | nil => intro y _ hy; exact hy
    | cons p h ih =>
      intro y hh hy
      refine ih (step y p) (fun a ha => hh a (List.mem_cons_of_mem _ ha)) ?_
      have hs : ∀ (y : St) (s' : Avail.State), (Fit y.dm y.s.conns ∧ (Says y.dm theStation val ↔ Says x.dm theStation val)) →
          s'.conns = y.s.conns → (Fit y.dm s'.conns ∧ (Says y.dm theStation val ↔ Says x.dm theStation val)) := by
        intro y s' hy hc; rw [hc]; exact hy
      refine keep_step (fun y => Fit y.dm y.s.conns ∧ (Says y.dm theStation val ↔ Says x.dm theStation val))
        ?_ ?_ ?_ ?_ ?_ ?_ y p hy ?_ ?_
      · rintro only e c z ⟨z1, z2⟩ hz
        refine ⟨fit_report z1 only e c, ?_⟩
        rcases report_dm only e c z with ⟨h1, _⟩ | h1
        · rw [h1]; exact z2
        · rw [h1, update_station _ hz.1]; exact z2
      · rintro g ds z ⟨z1, z2⟩
        obtain ⟨k1, k2⟩ := setVariables_keep z.s.conns g ds z.dm z1
        exact ⟨k1, (k2 _ z1.station val).trans z2⟩
      · intro z hz; exact hs z _ hz rfl
      · intro z fl hz; exact hs z _ hz rfl
      · intro z o hz ho; exact hs z _ hz (Avail.Silent.step z.s o ho).conns
      · intro z hz; exact hs z _ hz rfl
      · rintro a rfl; exact hh a (by simp)
      · intro _; exact hs y _ hy rfl
  exact (key h x hh ⟨hfit, Iff.rfl⟩).2

/-- The CSMS takes the whole station out of service and the application reports its connectors. -/
def outOfService : List Op := [.avail .accepted, .avail (.change ⟨none, false⟩), .avail (.event 1 1 .unavailable),
  .avail (.event 1 2 .unavailable)]

/-- C228 fails for the station: it is Inoperative and all its connectors are Unavailable, the device model
says Available. -/
theorem C228_station_violated : Fit ex.dm ex.s.conns ∧ (run ex outOfService).s.cs = false ∧
    (∀ c, Avail.Exists [2] (.conn 1 c) → Avail.toStatus ((run ex outOfService).s.flags 1 c) = .unavailable ∧
      Shows (run ex outOfService).dm (theConnector 1 c) .unavailable) ∧
    Shows (run ex outOfService).dm theStation .available := by
  have hwf : WellFormed (run ex outOfService).dm := by constructor <;> decide +kernel
  refine ⟨exDm_fit, by decide +kernel, ?_, (getText_iff hwf _ _).mp (by decide +kernel)⟩
  rintro c ⟨_, _, h3, h4⟩
  have : c ≤ 2 := h4
  rcases (show c = 1 ∨ c = 2 by omega) with rfl | rfl
  · exact ⟨by decide +kernel, (getText_iff hwf _ _).mp (by decide +kernel)⟩
  · exact ⟨by decide +kernel, (getText_iff hwf _ _).mp (by decide +kernel)⟩

end Verif.AvailDm
