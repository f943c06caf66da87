import Verif.Blocks.Model

/-!
Functions of the application and optional parts: C238 – C240.
-/

namespace Verif.Blocks

/-! ### Helpers -/

def okAct (c : Callbacks) (p : Parts) : Act → Prop
  | .call n => c.get n = .given
  | .use k => p.has k = true

def Fine (c : Callbacks) (p : Parts) (as : List Act) : Prop := ∀ a ∈ as, okAct c p a

theorem fine_nil {c : Callbacks} {p : Parts} : Fine c p [] := by intro a h; cases h

theorem fine_append {c : Callbacks} {p : Parts} {as bs : List Act} : Fine c p (as ++ bs) ↔ Fine c p as ∧ Fine c p bs := by
  simp only [Fine, List.mem_append]
  constructor
  · intro h; exact ⟨fun a ha => h a (.inl ha), fun a ha => h a (.inr ha)⟩
  · rintro ⟨h1, h2⟩ a (ha | ha)
    · exact h1 a ha
    · exact h2 a ha

theorem fine_cons {c : Callbacks} {p : Parts} {a : Act} {as : List Act} : Fine c p (a :: as) ↔ okAct c p a ∧ Fine c p as := by
  simp [Fine]

theorem fine_onlyIf {c : Callbacks} {p : Parts} {b : Bool} {as : List Act} (h : b = true → Fine c p as) : Fine c p (onlyIf b as) := by
  cases b
  · exact fine_nil
  · exact h rfl

theorem fine_ifHas {c : Callbacks} {p : Parts} {n : Name} (h : c.get n ≠ .empty) : Fine c p (c.ifHas n) := by
  unfold Callbacks.ifHas Callbacks.has
  cases hg : c.get n
  · simp [fine_nil]
  · exact absurd hg h
  · simp only [ne_eq, reduceCtorEq, not_false_eq_true, decide_true, if_true]
    exact fine_cons.2 ⟨hg, fine_nil⟩

theorem fine_ifGiven {c : Callbacks} {p : Parts} {n : Name} : Fine c p (c.ifGiven n) := by
  unfold Callbacks.ifGiven
  split
  · next h => exact fine_cons.2 ⟨h, fine_nil⟩
  · exact fine_nil

theorem exec_fine {c : Callbacks} {p : Parts} : ∀ {as : List Act}, Fine c p as → (exec c p as).failure = none
  | [], _ => rfl
  | .call n :: as, h => by
    have h1 : c.get n = .given := h (.call n) (List.mem_cons_self ..)
    have h2 := exec_fine (as := as) (fun a ha => h a (List.mem_cons_of_mem _ ha))
    simp only [exec, h1, h2]
  | .use k :: as, h => by
    have h1 : p.has k = true := h (.use k) (List.mem_cons_self ..)
    have h2 := exec_fine (as := as) (fun a ha => h a (List.mem_cons_of_mem _ ha))
    simp only [exec, h1, h2, if_true]

/-- What is called is called somewhere. -/
theorem exec_called {c : Callbacks} {p : Parts} {n : Name} : ∀ {as : List Act}, n ∈ (exec c p as).called → Act.call n ∈ as
  | [], h => by simp [exec] at h
  | .call m :: as, h => by
    simp only [exec] at h
    split at h
    · rcases List.mem_cons.1 h with h | h
      · rw [h]; exact List.mem_cons_self ..
      · exact List.mem_cons_of_mem _ (exec_called h)
    · simp at h
    · simp at h
  | .use k :: as, h => by
    simp only [exec] at h
    split at h
    · exact List.mem_cons_of_mem _ (exec_called h)
    · simp at h

theorem mem_onlyIf {b : Bool} {as : List Act} {a : Act} : a ∈ onlyIf b as ↔ b = true ∧ a ∈ as := by
  cases b <;> simp [onlyIf]

theorem mem_ifHas {c : Callbacks} {n : Name} {a : Act} : a ∈ c.ifHas n ↔ c.get n ≠ .absent ∧ a = .call n := by
  unfold Callbacks.ifHas Callbacks.has
  cases hg : c.get n <;> simp

theorem mem_ifGiven {c : Callbacks} {n : Name} {a : Act} : a ∈ c.ifGiven n ↔ c.get n = .given ∧ a = .call n := by
  unfold Callbacks.ifGiven
  cases hg : c.get n <;> simp

/-! ### What the application must provide -/

/-- Functions a station cannot do without, whatever it offers. -/
inductive Needed (f : Features) : Name → Prop
  | isResetAllowed : Needed f .isResetAllowed
  | reset : Needed f .reset
  | stopTransaction : Needed f .stopTransaction
  | pauseCharging : Needed f .pauseCharging
  | connectorStatusChanged : Needed f .connectorStatusChanged
  | getLog : Needed f .getLog
  | unlockConnector : Needed f .unlockConnector
  | remoteStart : Needed f .remoteStart
  | isReservationForToken : Needed f .isReservationForToken
  | updateFirmware : Needed f .updateFirmware
  | securityEvent : Needed f .securityEvent
  | setChargingProfiles : Needed f .setChargingProfiles
  | clearDisplay : f.display = true → Needed f .clearDisplayMessage
  | getDisplay : f.display = true → Needed f .getDisplayMessage
  | setDisplay : f.display = true → Needed f .setDisplayMessage
  | setDisplayTariff : f.tariff = true → Needed f .setDisplayMessage
  | runningCost : f.cost = true → Needed f .runningCost
  | reserveNow : f.reservation = true → Needed f .reserveNow
  | cancelReservation : f.reservation = true → Needed f .cancelReservation
  | allowedEnergyTransfer : f.v2x = true → f.iso15118 = true → Needed f .allowedEnergyTransfer

/-- Functions that may be missing, but must not be empty if they are there. -/
inductive Optional : Name → Prop
  | variableChanged : Optional .variableChanged
  | validateNetworkProfile : Optional .validateNetworkProfile
  | configureNetworkProfile : Optional .configureNetworkProfile
  | timeSync : Optional .timeSync
  | bootNotification : Optional .bootNotification
  | ocppMessages : Optional .ocppMessages
  | csStatusChanged : Optional .csStatusChanged
  | evseStatusChanged : Optional .evseStatusChanged
  | getCustomerInformation : Optional .getCustomerInformation
  | clearCustomerInformation : Optional .clearCustomerInformation
  | allConnectorsUnavailable : Optional .allConnectorsUnavailable
  | dataTransfer : Optional .dataTransfer
  | transactionEvent : Optional .transactionEvent
  | transactionEventResponse : Optional .transactionEventResponse

theorem required_plain : ∀ n ∈ required, n.plain = true := by decide

theorem allValid_iff {c : Callbacks} {f : Features} :
    allValid c f = true ↔ (∀ n, Needed f n → c.get n = .given) ∧ (∀ n, Optional n → c.get n ≠ .empty) := by
  constructor
  · intro h
    simp only [allValid, Bool.and_eq_true, List.all_eq_true, decide_eq_true_eq, Bool.or_eq_true, Bool.not_eq_true', Bool.and_eq_false_iff, Bool.or_eq_false_iff,
      Callbacks.lacks, decide_eq_false_iff_not, ne_eq, Decidable.not_not] at h
    obtain ⟨⟨⟨⟨⟨⟨hr, hc⟩, hd⟩, hco⟩, ht⟩, hre⟩, hv⟩ := h
    have hreq : ∀ n ∈ required, c.get n = .given := by
      intro n hn
      have h1 := hr n hn
      have h2 := c.typed n (required_plain n hn)
      cases hg : c.get n
      · exact absurd hg h2
      · exact absurd hg h1
      · rfl
    have hopt : ∀ n ∈ checkedIfPresent, c.get n ≠ .empty := by
      intro n hn he
      have h1 := hc n hn
      simp [Callbacks.has, he] at h1
    refine ⟨?_, ?_⟩
    · intro n hn
      cases hn
      case clearDisplay hf => simp [hf] at hd; exact hd.1.1
      case getDisplay hf => simp [hf] at hd; exact hd.1.2
      case setDisplay hf => simp [hf] at hd; exact hd.2
      case setDisplayTariff hf => simp [hf] at ht; exact ht
      case runningCost hf => simp [hf] at hco; exact hco
      case reserveNow hf => simp [hf] at hre; exact hre.1
      case cancelReservation hf => simp [hf] at hre; exact hre.2
      case allowedEnergyTransfer h1 h2 => simp [h1, h2] at hv; exact hv
      all_goals exact hreq _ (by decide)
    · intro n hn
      cases hn <;> exact hopt _ (by decide)
  · rintro ⟨hn, ho⟩
    simp only [allValid, Bool.and_eq_true, List.all_eq_true, decide_eq_true_eq, Bool.or_eq_true, Bool.not_eq_true', Bool.and_eq_false_iff, Bool.or_eq_false_iff,
      Callbacks.lacks, decide_eq_false_iff_not, ne_eq, Decidable.not_not]
    have given_ne : ∀ {n}, c.get n = .given → c.get n ≠ .empty := by intro n h h'; rw [h] at h'; cases h'
    refine ⟨⟨⟨⟨⟨⟨?_, ?_⟩, ?_⟩, ?_⟩, ?_⟩, ?_⟩, ?_⟩
    · intro n h
      simp only [required, List.mem_cons, List.not_mem_nil, or_false] at h
      rcases h with rfl | rfl | rfl | rfl | rfl | rfl | rfl | rfl | rfl | rfl | rfl | rfl <;> exact given_ne (hn _ (by constructor))
    · intro n h
      simp only [checkedIfPresent, List.mem_cons, List.not_mem_nil, or_false] at h
      rcases h with rfl | rfl | rfl | rfl | rfl | rfl | rfl | rfl | rfl | rfl | rfl | rfl | rfl | rfl <;> exact .inr (ho _ (by constructor))
    · cases hf : f.display
      · exact .inl rfl
      · exact .inr ⟨⟨hn _ (.clearDisplay hf), hn _ (.getDisplay hf)⟩, hn _ (.setDisplay hf)⟩
    · cases hf : f.cost
      · exact .inl rfl
      · exact .inr (hn _ (.runningCost hf))
    · cases hf : f.tariff
      · exact .inl rfl
      · exact .inr (hn _ (.setDisplayTariff hf))
    · cases hf : f.reservation
      · exact .inl rfl
      · exact .inr ⟨hn _ (.reserveNow hf), hn _ (.cancelReservation hf)⟩
    · cases h1 : f.v2x
      · exact .inl (.inl rfl)
      · cases h2 : f.iso15118
        · exact .inl (.inr rfl)
        · exact .inr (hn _ (.allowedEnergyTransfer h1 h2))

/-- C239: a station is constructed exactly if every function it needs with what it offers is there, and none of the optional ones is empty; otherwise the construction is
refused. -/
theorem C239_accepted (c : Callbacks) (f : Features) :
    (construct c f).isSome = true ↔ (∀ n, Needed f n → c.get n = .given) ∧ (∀ n, Optional n → c.get n ≠ .empty) := by
  rw [← allValid_iff]
  unfold construct
  split <;> simp_all

theorem construct_some {c : Callbacks} {f : Features} {p : Parts} (h : construct c f = some p) :
    (∀ n, Needed f n → c.get n = .given) ∧ (∀ n, Optional n → c.get n ≠ .empty) ∧ p = makeParts c f := by
  unfold construct at h
  split at h
  · next hv =>
    obtain ⟨h1, h2⟩ := allValid_iff.1 hv
    cases h
    exact ⟨h1, h2, rfl⟩
  · cases h

/-- What is offered is what there is. -/
theorem parts_of {c : Callbacks} {f : Features} {p : Parts} (h : construct c f = some p) :
    p = { reservation := f.reservation, display := f.display, smart := f.smart, bidirectional := f.v2x } := by
  obtain ⟨hn, _, hp⟩ := construct_some h
  rw [hp]
  unfold makeParts Callbacks.has
  congr 1
  · cases hf : f.reservation
    · rfl
    · simp [hn _ (.reserveNow hf), hn _ (.cancelReservation hf)]
  · cases hf : f.display
    · rfl
    · simp [hn _ (.getDisplay hf), hn _ (.setDisplay hf), hn _ (.clearDisplay hf)]

/-! ### C238 -/

theorem fine_acts {c : Callbacks} {f : Features} {p : Parts} (hc : construct c f = some p) (hs : f.smart = true)
    (h1 : c.get .connectionStateChanged ≠ .empty) (h2 : c.get .runningCost ≠ .empty) (h3 : f.v2x = true → c.get .allowedEnergyTransfer ≠ .empty) (w : Now) (e : Event) :
    Fine c p (acts c p w e) := by
  obtain ⟨hn, ho, _⟩ := construct_some hc
  have hp := parts_of hc
  have ps : p.has .smart = true := by rw [hp]; exact hs
  cases e with
  | csStatus => exact fine_ifHas (ho _ (by constructor))
  | evseStatus => exact fine_ifHas (ho _ (by constructor))
  | connectorStatus => exact fine_cons.2 ⟨hn _ (by constructor), fine_nil⟩
  | txEvent => exact fine_ifHas (ho _ (by constructor))
  | txEnded b =>
    exact fine_append.2 ⟨fine_append.2 ⟨fine_ifHas (ho _ (by constructor)), fine_cons.2 ⟨ps, fine_nil⟩⟩,
      fine_onlyIf fun _ => fine_cons.2 ⟨hn _ (by constructor), fine_nil⟩⟩
  | txAnswer a b d g k l =>
    refine fine_append.2 ⟨fine_append.2 ⟨fine_ifHas (ho _ (by constructor)), ?_⟩, fine_onlyIf fun _ => ?_⟩
    · exact fine_append.2 ⟨fine_onlyIf fun _ => fine_ifGiven, fine_onlyIf fun _ => fine_ifHas h2⟩
    · split
      · exact fine_cons.2 ⟨hn _ (by constructor), fine_nil⟩
      · exact fine_onlyIf fun _ => fine_cons.2 ⟨hn _ (by constructor), fine_nil⟩
  | limitReached => exact fine_cons.2 ⟨hn _ (by constructor), fine_nil⟩
  | heartbeatAnswer b => exact fine_onlyIf fun _ => fine_ifHas (ho _ (by constructor))
  | bootAnswer a b => exact fine_append.2 ⟨fine_onlyIf fun _ => fine_ifHas (ho _ (by constructor)), fine_ifHas (ho _ (by constructor))⟩
  | setNetworkProfile b => exact fine_onlyIf fun _ => fine_ifHas (ho _ (by constructor))
  | resetRequest a b d g l =>
    refine fine_cons.2 ⟨hn _ (by constructor), fine_append.2 ⟨fine_onlyIf fun _ => ?_, fine_onlyIf fun _ => fine_cons.2 ⟨hn _ (by constructor), fine_nil⟩⟩⟩
    intro x hx
    obtain ⟨_, _, rfl⟩ := List.mem_map.1 hx
    exact hn _ (by constructor)
  | setVariable b => exact fine_onlyIf fun _ => fine_ifHas (ho _ (by constructor))
  | getLog => exact fine_cons.2 ⟨hn _ (by constructor), fine_nil⟩
  | unlock a b => exact fine_onlyIf fun _ => fine_cons.2 ⟨hn _ (by constructor), fine_nil⟩
  | updateFirmware b => exact fine_onlyIf fun _ => fine_cons.2 ⟨hn _ (by constructor), fine_nil⟩
  | securityNotice b => exact fine_onlyIf fun _ => fine_ifGiven
  | customerInformation a b d =>
    exact fine_onlyIf fun _ => fine_append.2 ⟨fine_onlyIf fun _ => fine_ifHas (ho _ (by constructor)), fine_onlyIf fun _ => fine_ifHas (ho _ (by constructor))⟩
  | dataTransferRequest => exact fine_ifHas (ho _ (by constructor))
  | allUnavailable => exact fine_ifHas (ho _ (by constructor))
  | remoteStart a b d g =>
    refine fine_onlyIf fun _ => fine_append.2 ⟨fine_append.2 ⟨fine_onlyIf fun h => ?_, fine_onlyIf fun _ => fine_cons.2 ⟨ps, fine_nil⟩⟩,
      fine_onlyIf fun _ => fine_cons.2 ⟨hn _ (by constructor), fine_nil⟩⟩
    exact fine_cons.2 ⟨h, fine_cons.2 ⟨hn _ (by constructor), fine_nil⟩⟩
  | remoteStop b => exact fine_onlyIf fun _ => fine_cons.2 ⟨hn _ (by constructor), fine_nil⟩
  | reserve b => exact fine_onlyIf fun h => fine_cons.2 ⟨h, fine_onlyIf fun _ => fine_ifGiven⟩
  | cancelReserve => exact fine_onlyIf fun h => fine_cons.2 ⟨h, fine_onlyIf fun _ => fine_ifGiven⟩
  | getDisplay =>
    refine fine_onlyIf fun h => fine_cons.2 ⟨h, fine_cons.2 ⟨hn _ (.getDisplay ?_), fine_nil⟩⟩
    rw [hp] at h; exact h
  | setDisplay b =>
    refine fine_onlyIf fun h => fine_cons.2 ⟨h, fine_onlyIf fun _ => fine_cons.2 ⟨hn _ (.setDisplay ?_), fine_nil⟩⟩
    rw [hp] at h; exact h
  | clearDisplay =>
    refine fine_onlyIf fun h => fine_cons.2 ⟨h, fine_cons.2 ⟨hn _ (.clearDisplay ?_), fine_nil⟩⟩
    rw [hp] at h; exact h
  | setProfile b => exact fine_onlyIf fun h => fine_cons.2 ⟨h, fine_onlyIf fun _ => fine_cons.2 ⟨hn _ (by constructor), fine_nil⟩⟩
  | clearProfile b => exact fine_onlyIf fun h => fine_cons.2 ⟨h, fine_onlyIf fun _ => fine_cons.2 ⟨hn _ (by constructor), fine_nil⟩⟩
  | getProfiles => exact fine_onlyIf fun h => fine_cons.2 ⟨h, fine_nil⟩
  | scheduleRequest => exact fine_onlyIf fun h => fine_cons.2 ⟨h, fine_nil⟩
  | needs => exact fine_cons.2 ⟨ps, fine_nil⟩
  | needsAnswer a b => exact fine_onlyIf fun h => fine_cons.2 ⟨h, fine_onlyIf fun _ => fine_cons.2 ⟨hn _ (by constructor), fine_nil⟩⟩
  | costUpdated => exact fine_onlyIf fun _ => fine_ifHas h2
  | allowedTransfer b =>
    refine fine_onlyIf fun h => fine_cons.2 ⟨h, fine_onlyIf fun _ => fine_ifHas (h3 ?_)⟩
    rw [hp] at h; exact h
  | connected => exact fine_ifHas h1
  | disconnected => exact fine_ifHas h1
  | networkAttempt => exact fine_ifHas (ho _ (by constructor))
  | logged b => exact fine_onlyIf fun _ => fine_ifGiven
  | schedules => exact fine_onlyIf fun h => fine_cons.2 ⟨h, fine_nil⟩
  | appReserves => exact fine_onlyIf fun h => fine_cons.2 ⟨h, fine_nil⟩

/-- C238, proved part: nothing that happens to a constructed station calls a function that is not there or uses a part that does not exist – provided that smart charging is
available, and that the functions for the state of the connection, for the running cost and for the allowed energy transfer are not given as empty functions.

Missing: these provisos, which the construction does not check; see `C238_exact` and the `_violated` theorems. -/
theorem C238_partial (c : Callbacks) (f : Features) (p : Parts) (hc : construct c f = some p) (hs : f.smart = true)
    (h1 : c.get .connectionStateChanged ≠ .empty) (h2 : c.get .runningCost ≠ .empty) (h3 : f.v2x = true → c.get .allowedEnergyTransfer ≠ .empty) (w : Now) (e : Event) :
    (happens c p w e).failure = none :=
  exec_fine (fine_acts hc hs h1 h2 h3 w e)

/-- Variables under which everything is switched on. -/
def allOn : Now := ⟨true, true, true, true, true, true, true, true⟩

/-- C238, exactly: for a constructed station there is something whose handling fails if and only if one of the provisos of `C238_partial` is not met. -/
theorem C238_exact (c : Callbacks) (f : Features) (p : Parts) (hc : construct c f = some p) :
    (∃ w e, (happens c p w e).failure ≠ none) ↔
      f.smart = false ∨ c.get .connectionStateChanged = .empty ∨ c.get .runningCost = .empty ∨ (f.v2x = true ∧ c.get .allowedEnergyTransfer = .empty) := by
  constructor
  · rintro ⟨w, e, h⟩
    cases hs : f.smart
    · exact .inl rfl
    · by_cases h1 : c.get .connectionStateChanged = .empty
      · exact .inr (.inl h1)
      · by_cases h2 : c.get .runningCost = .empty
        · exact .inr (.inr (.inl h2))
        · by_cases h3 : f.v2x = true ∧ c.get .allowedEnergyTransfer = .empty
          · exact .inr (.inr (.inr h3))
          · exact absurd (C238_partial c f p hc hs h1 h2 (fun hv he => h3 ⟨hv, he⟩) w e) h
  · have hp := parts_of hc
    rintro (h | h | h | ⟨hv, h⟩)
    · refine ⟨allOn, .needs, ?_⟩
      simp [happens, acts, exec, hp, Parts.has, h]
    · refine ⟨allOn, .connected, ?_⟩
      simp [happens, acts, exec, Callbacks.ifHas, Callbacks.has, h]
    · refine ⟨allOn, .costUpdated, ?_⟩
      simp [happens, acts, exec, Callbacks.ifHas, Callbacks.has, h, onlyIf, allOn, Now.cost]
    · refine ⟨allOn, .allowedTransfer true, ?_⟩
      simp [happens, acts, exec, Callbacks.ifHas, Callbacks.has, h, hp, hv, onlyIf, allOn, Parts.has]

/-- Every function given. -/
def allGiven : Callbacks := ⟨fun _ => .given, fun _ _ => by simp⟩

/-- All given except one. -/
def allBut (n : Name) (v : Cb) (h : n.plain = true → v ≠ .absent) : Callbacks :=
  ⟨fun m => if m = n then v else .given, by
    intro m hm
    by_cases he : m = n
    · subst he; simpa using h hm
    · simp [he]⟩

/-- Only the functions needed without anything optional. -/
def minimal : Callbacks := ⟨fun n => if n.plain then .given else .absent, fun n h => by simp [h]⟩

def nothing : Features := ⟨false, false, false, false, false, false, false⟩
def everything : Features := ⟨true, true, true, true, true, true, true⟩

/-- The hypotheses of C238 are met: an application with everything, and one with the bare minimum, get a station on which a remote start is passed on. -/
example : construct allGiven everything = some ⟨true, true, true, true⟩ ∧ construct minimal { nothing with smart := true } = some ⟨false, false, true, false⟩ ∧
    happens minimal ⟨false, false, true, false⟩ allOn (.remoteStart true true false true) = ⟨[.remoteStart], none⟩ ∧
    happens allGiven ⟨true, true, true, true⟩ allOn (.remoteStart true true false true) = ⟨[.isReservationForToken, .remoteStart], none⟩ := by
  refine ⟨?_, ?_, ?_, ?_⟩ <;> rfl

/-- C238 fails: on every station without smart charging – which can be constructed with all functions given – each end of a transaction uses the part for smart charging, which
does not exist: undefined behaviour.  A reset that waits for the end of the transaction is not carried out. -/
theorem C238_smart_violated :
    (∃ c f, (construct c f).isSome = true ∧ f.smart = false) ∧
    ∀ c f p, construct c f = some p → f.smart = false → ∀ w resetDue,
      (happens c p w (.txEnded resetDue)).failure = some (.missingPart .smart) ∧ Name.reset ∉ (happens c p w (.txEnded resetDue)).called := by
  refine ⟨⟨allGiven, nothing, by decide, rfl⟩, ?_⟩
  intro c f p hc hs w resetDue
  have ho := (construct_some hc).2.1 .transactionEvent (by constructor)
  have hp := parts_of hc
  have hps : p.has .smart = false := by rw [hp]; exact hs
  cases hg : c.get .transactionEvent
  · simp [happens, acts, exec, Callbacks.ifHas, Callbacks.has, hg, hps]
  · exact absurd hg ho
  · simp [happens, acts, exec, Callbacks.ifHas, Callbacks.has, hg, hps]

/-- C238 fails: without smart charging, the needs of a vehicle reported by the application, and a RequestStartTransaction with a TxProfile while SmartChargingCtrlr is enabled,
use the part that does not exist. -/
theorem C238_needs_violated (c : Callbacks) (f : Features) (p : Parts) (hc : construct c f = some p) (hs : f.smart = false) (w : Now) :
    (happens c p w .needs).failure = some (.missingPart .smart) ∧
    (w.smartEnabled = true → ∀ available reserved, (happens c p w (.remoteStart true available reserved true)).failure = some (.missingPart .smart)) := by
  obtain ⟨hn, _, _⟩ := construct_some hc
  have hp := parts_of hc
  have hps : p.has .smart = false := by rw [hp]; exact hs
  have hg : c.get .isReservationForToken = .given := hn _ (by constructor)
  refine ⟨by simp [happens, acts, exec, hps], ?_⟩
  intro hw a r
  cases hr : p.reservation
  · simp [happens, acts, exec, hps, hw, onlyIf, hr]
  · have hpr : p.has .reservation = true := hr
    simp [happens, acts, exec, hps, hw, onlyIf, hr, hpr, hg]

/-- C238 fails: the function for the state of the connection is not checked; a station is constructed with an empty one, and throws as soon as it connects. -/
theorem C238_connection_violated :
    ∃ c p, construct c everything = some p ∧ c.get .connectionStateChanged = .empty ∧
      ∀ w, (happens c p w .connected).failure = some (.emptyFunction .connectionStateChanged) ∧
        (happens c p w .disconnected).failure = some (.emptyFunction .connectionStateChanged) :=
  ⟨allBut .connectionStateChanged .empty (by intro h; cases h), ⟨true, true, true, true⟩, by rfl, by rfl, fun _ => ⟨by rfl, by rfl⟩⟩

/-! ### C239 -/

/-- C239: a request for an optional part is answered with NotImplemented exactly if the feature was not available when the station was constructed; no other request is. -/
theorem C239_not_implemented (c : Callbacks) (f : Features) (p : Parts) (hc : construct c f = some p) :
    (∀ b, notImplemented p (.reserve b) = !f.reservation) ∧ notImplemented p .cancelReserve = !f.reservation ∧
    notImplemented p .getDisplay = !f.display ∧ (∀ b, notImplemented p (.setDisplay b) = !f.display) ∧ notImplemented p .clearDisplay = !f.display ∧
    (∀ b, notImplemented p (.setProfile b) = !f.smart) ∧ (∀ b, notImplemented p (.clearProfile b) = !f.smart) ∧ notImplemented p .getProfiles = !f.smart ∧
    notImplemented p .scheduleRequest = !f.smart ∧ (∀ b, notImplemented p (.allowedTransfer b) = !f.v2x) ∧
    ∀ e, notImplemented p e = true →
      (∃ b, e = .reserve b) ∨ e = .cancelReserve ∨ e = .getDisplay ∨ (∃ b, e = .setDisplay b) ∨ e = .clearDisplay ∨ (∃ b, e = .setProfile b) ∨ (∃ b, e = .clearProfile b) ∨
      e = .getProfiles ∨ e = .scheduleRequest ∨ ∃ b, e = .allowedTransfer b := by
  rw [parts_of hc]
  refine ⟨fun _ => rfl, rfl, rfl, fun _ => rfl, rfl, fun _ => rfl, fun _ => rfl, rfl, rfl, fun _ => rfl, ?_⟩
  intro e he
  cases e <;> simp_all [notImplemented, Event.part]

/-- C239: what is not implemented calls nothing and fails nowhere. -/
theorem C239_not_implemented_quiet (c : Callbacks) (p : Parts) (w : Now) (e : Event) (h : notImplemented p e = true) : happens c p w e = ⟨[], none⟩ := by
  cases e <;> simp [notImplemented, Event.part, Parts.has] at h <;> simp [happens, acts, exec, onlyIf, h]

/-- C239: the functions of a feature are called only if the feature was available when the station was constructed. -/
theorem C239_called (c : Callbacks) (f : Features) (p : Parts) (hc : construct c f = some p) (w : Now) (e : Event) (n : Name) (h : n ∈ (happens c p w e).called) :
    (n = .reserveNow ∨ n = .cancelReservation ∨ n = .isReservationForToken → f.reservation = true) ∧
    (n = .getDisplayMessage ∨ n = .setDisplayMessage ∨ n = .clearDisplayMessage → f.display = true) ∧
    (n = .setChargingProfiles → f.smart = true) ∧
    (n = .allowedEnergyTransfer → f.v2x = true) ∧
    (n = .runningCost → w.costAvailable = true ∧ w.costEnabled = true) ∧
    (n = .tariffMessage → w.tariffAvailable = true ∧ w.tariffEnabled = true) := by
  have hm := exec_called h
  have hp := parts_of hc
  have e1 : p.reservation = f.reservation := by rw [hp]
  have e2 : p.display = f.display := by rw [hp]
  have e3 : p.smart = f.smart := by rw [hp]
  have e4 : p.bidirectional = f.v2x := by rw [hp]
  cases e <;>
    simp only [acts, resetActs, costAndTariff, mem_onlyIf, mem_ifHas, mem_ifGiven, List.mem_append, List.mem_cons, List.not_mem_nil, or_false, Act.call.injEq, reduceCtorEq,
      false_or, and_false, Now.cost, Now.tariff, Bool.and_eq_true, List.mem_map] at hm <;>
    first
    | (obtain ⟨_, rfl⟩ := hm; simp_all)
    | (subst hm; simp_all)
    | skip
  all_goals (cases n <;> grind [mem_onlyIf])

/-- C239: what is available reaches the application: each request of an available and enabled feature that passes the checks calls its function, and nothing else. -/
theorem C239_served (c : Callbacks) (f : Features) (p : Parts) (hc : construct c f = some p) (w : Now) :
    (f.reservation = true → w.reservationAvailable = true → w.reservationEnabled = true →
      happens c p w (.reserve true) = ⟨[.reserveNow], none⟩ ∧ happens c p w .cancelReserve = ⟨[.cancelReservation], none⟩) ∧
    (f.display = true → happens c p w .getDisplay = ⟨[.getDisplayMessage], none⟩ ∧ happens c p w (.setDisplay true) = ⟨[.setDisplayMessage], none⟩ ∧
      happens c p w .clearDisplay = ⟨[.clearDisplayMessage], none⟩) ∧
    (f.smart = true → happens c p w (.setProfile true) = ⟨[.setChargingProfiles], none⟩ ∧ happens c p w (.clearProfile true) = ⟨[.setChargingProfiles], none⟩) ∧
    (f.cost = true → w.costAvailable = true → w.costEnabled = true → happens c p w .costUpdated = ⟨[.runningCost], none⟩) ∧
    (f.v2x = true → f.iso15118 = true → w.v21 = true → happens c p w (.allowedTransfer true) = ⟨[.allowedEnergyTransfer], none⟩) := by
  obtain ⟨hn, _, _⟩ := construct_some hc
  have hp := parts_of hc
  refine ⟨?_, ?_, ?_, ?_, ?_⟩
  · intro h h1 h2
    have a := hn _ (.reserveNow h)
    have b := hn _ (.cancelReservation h)
    simp [happens, acts, exec, onlyIf, hp, h, h1, h2, Parts.has, Callbacks.ifGiven, a, b]
  · intro h
    have a := hn _ (.getDisplay h)
    have b := hn _ (.setDisplay h)
    have d := hn _ (.clearDisplay h)
    simp [happens, acts, exec, onlyIf, hp, h, Parts.has, a, b, d]
  · intro h
    have a := hn .setChargingProfiles (by constructor)
    simp [happens, acts, exec, onlyIf, hp, h, Parts.has, a]
  · intro h h1 h2
    have a := hn _ (.runningCost h)
    simp [happens, acts, exec, onlyIf, h1, h2, Now.cost, Callbacks.ifHas, Callbacks.has, a]
  · intro h h' h1
    have a := hn _ (.allowedEnergyTransfer h h')
    simp [happens, acts, exec, onlyIf, hp, h, h1, Parts.has, Callbacks.ifHas, Callbacks.has, a]

/-- The hypotheses of C239 are met: with display messages and without reservations, a reservation is answered with NotImplemented and a display message reaches the application. -/
example : ∃ p, construct allGiven { nothing with display := true, smart := true } = some p ∧ notImplemented p (.reserve true) = true ∧ notImplemented p .getDisplay = false ∧
    happens allGiven p allOn .getDisplay = ⟨[.getDisplayMessage], none⟩ :=
  ⟨⟨false, true, true, false⟩, by rfl, by rfl, by rfl, by rfl⟩

/-- Construction is refused without the function for reservations if they are available, and only then. -/
example : construct (allBut .reserveNow .absent (by intro h; cases h)) everything = none ∧
    (construct (allBut .reserveNow .absent (by intro h; cases h)) nothing).isSome = true ∧
    construct (allBut .reset .empty (by simp)) nothing = none ∧ construct (allBut .timeSync .empty (by simp)) nothing = none := by
  refine ⟨?_, ?_, ?_, ?_⟩ <;> rfl

theorem setDisplay_called {c : Callbacks} {p : Parts} {w : Now} {e : Event} (h : Name.setDisplayMessage ∈ (happens c p w e).called) : p.display = true := by
  have hm := exec_called h
  cases e <;>
    simp only [acts, resetActs, costAndTariff, mem_onlyIf, mem_ifHas, mem_ifGiven, List.mem_append, List.mem_cons, List.not_mem_nil, or_false, Act.call.injEq, reduceCtorEq,
      false_or, and_false, Bool.and_eq_true, List.mem_map] at hm <;> grind [mem_onlyIf]

/-- C239 fails for tariffs: an application that offers tariffs, and no display messages, is refused for want of the function for display messages, although such a station would
never call it; and one without the function to which tariffs are passed is accepted, though then no tariff reaches the application, whatever happens. -/
theorem C239_tariff_violated :
    (∃ c : Callbacks, construct c { nothing with tariff := true } = none ∧ (∀ n, n ≠ .setDisplayMessage → c.get n = .given) ∧
      ∀ w e, Name.setDisplayMessage ∉ (happens c (makeParts c { nothing with tariff := true }) w e).called) ∧
    (∃ c p, construct c { nothing with tariff := true } = some p ∧ c.get .tariffMessage = .absent ∧
      (∀ n, n ≠ .tariffMessage → c.get n = .given) ∧
      ∀ w : Now, w.cost = false → ∀ stop limit, (happens c p w (.txAnswer true false false false stop limit)).called = [.transactionEventResponse]) := by
  refine ⟨⟨allBut .setDisplayMessage .absent (by intro h; cases h), by rfl, ?_, ?_⟩, ⟨allBut .tariffMessage .absent (by intro h; cases h), ⟨false, false, false, false⟩, by rfl, by rfl, ?_, ?_⟩⟩
  · intro n hn; simp [allBut, hn]
  · intro w e h
    have := setDisplay_called h
    cases this
  · intro n hn; simp [allBut, hn]
  · intro w hw stop limit
    cases ht : w.tariff <;> simp [happens, acts, exec, costAndTariff, onlyIf, Callbacks.ifHas, Callbacks.has, Callbacks.ifGiven, allBut, hw, ht]

/-! ### C240: OCPP 1.6 -/

def ok16 (r : Name16 → Bool) : Act16 → Prop
  | .call n => r n = true
  | _ => True

theorem exec16_ok {r : Name16 → Bool} : ∀ {as : List Act16}, (∀ a ∈ as, ok16 r a) → (exec16 r as).thrown = none
  | [], _ => rfl
  | .answer :: as, h => by
    simp only [exec16]
    exact exec16_ok (fun a ha => h a (List.mem_cons_of_mem _ ha))
  | .answerUninitialised :: as, h => by
    simp only [exec16]
    exact exec16_ok (fun a ha => h a (List.mem_cons_of_mem _ ha))
  | .call n :: as, h => by
    have hr : r n = true := h (.call n) (List.mem_cons_self ..)
    simp only [exec16, hr, if_true]
    exact exec16_ok (fun a ha => h a (List.mem_cons_of_mem _ ha))

theorem mem_ifReg {r : Name16 → Bool} {n : Name16} {a : Act16} : a ∈ ifReg r n ↔ r n = true ∧ a = .call n := by
  unfold ifReg; cases r n <;> simp

theorem mem_onlyIf16 {b : Bool} {as : List Act16} {a : Act16} : a ∈ onlyIf16 b as ↔ b = true ∧ a ∈ as := by
  cases b <;> simp [onlyIf16]

/-- The number of answers among the acts. -/
def isAnswer : Act16 → Bool
  | .call _ => false
  | _ => true

theorem exec16_answers {r : Name16 → Bool} : ∀ {as : List Act16}, (∀ a ∈ as, ok16 r a) → (exec16 r as).answers = List.replicate (as.countP isAnswer) false
  | [], _ => rfl
  | .answer :: as, h => by
    have ih := exec16_answers (as := as) (fun a ha => h a (List.mem_cons_of_mem _ ha))
    simp only [exec16, ih, List.countP_cons, isAnswer, if_true, List.replicate_succ]
  | .answerUninitialised :: as, h => by
    have ih := exec16_answers (as := as) (fun a ha => h a (List.mem_cons_of_mem _ ha))
    simp only [exec16, ih, List.countP_cons, isAnswer, if_true, List.replicate_succ]
  | .call n :: as, h => by
    have hr : r n = true := h (.call n) (List.mem_cons_self ..)
    have ih := exec16_answers (as := as) (fun a ha => h a (List.mem_cons_of_mem _ ha))
    simp [exec16, ih, List.countP_cons, isAnswer, hr]

/-- The functions that a station of OCPP 1.6 calls without looking whether they are registered. -/
inductive Unguarded : Name16 → Prop
  | stopTransaction : Unguarded .stopTransaction
  | provideToken : Unguarded .provideToken
  | pauseCharging : Unguarded .pauseCharging
  | signedUpdateFirmware : Unguarded .signedUpdateFirmware
  | get15118EvCertificateResponse : Unguarded .get15118EvCertificateResponse

theorem acts16_ok {r : Name16 → Bool} (h : ∀ n, Unguarded n → r n = true) (e : Event16) : ∀ a ∈ acts16 r e, ok16 r a := by
  have h1 := h _ .stopTransaction
  have h2 := h _ .provideToken
  have h3 := h _ .pauseCharging
  have h4 := h _ .signedUpdateFirmware
  have h5 := h _ .get15118EvCertificateResponse
  intro a ha
  cases a with
  | answer => trivial
  | answerUninitialised => trivial
  | call n =>
    show r n = true
    cases e <;> simp only [acts16, List.mem_append, List.mem_cons, List.not_mem_nil, or_false, mem_ifReg, mem_onlyIf16, List.mem_flatten, List.mem_map] at ha <;>
      grind [mem_ifReg, mem_onlyIf16]

theorem flatten_calls {l : List (List Act16)} (h : ∀ x ∈ l, x.countP isAnswer = 0) : l.flatten.countP isAnswer = 0 := by
  induction l with
  | nil => rfl
  | cons x xs ih =>
    rw [List.flatten_cons, List.countP_append, h x (List.mem_cons_self ..), ih (fun y hy => h y (List.mem_cons_of_mem _ hy))]

theorem ifReg_count {r : Name16 → Bool} {n : Name16} : (ifReg r n).countP isAnswer = 0 := by
  unfold ifReg; cases r n <;> rfl

theorem onlyIf_count {b : Bool} {as : List Act16} (h : as.countP isAnswer = 0) : (onlyIf16 b as).countP isAnswer = 0 := by
  cases b
  · rfl
  · exact h

theorem request_count {r : Name16 → Bool} {e : Event16} (h : e.request = true) : (acts16 r e).countP isAnswer = 1 := by
  have one : ∀ n, List.countP isAnswer [Act16.call n] = 0 := fun _ => rfl
  have ans : isAnswer .answer = true := rfl
  have ansU : isAnswer .answerUninitialised = true := rfl
  have call : ∀ n, isAnswer (.call n) = false := fun _ => rfl
  have stops : ∀ l : List Nat, List.countP isAnswer (l.map (fun _ => Act16.call .stopTransaction)) = 0 := by
    intro l; induction l with
    | nil => rfl
    | cons x xs ih => simpa [List.countP_cons, call] using ih
  cases e <;> first | (simp [Event16.request] at h; done) | simp only [acts16]
  case resetRequest allowed active =>
    split
    · rw [List.countP_append, onlyIf_count (by rw [List.countP_cons, stops, call]; rfl)]; rfl
    · rfl
  case getLog => split <;> rfl
  case signedUpdate certificate invalid =>
    split
    · rw [List.countP_append, onlyIf_count ifReg_count]; rfl
    · rw [List.countP_cons, ifReg_count]; rfl
  case changeAvailability operative connectors =>
    rw [List.countP_cons, flatten_calls]
    · rfl
    · intro x hx
      obtain ⟨_, _, rfl⟩ := List.mem_map.1 hx
      split <;> exact ifReg_count
  all_goals simp [List.countP_append, List.countP_cons, ifReg_count, onlyIf_count, one, ans, call]

/-- C240, proved part: on a station of OCPP 1.6 with the five functions that are called unchecked registered, nothing throws for want of a registered function, and every request
of the CSMS is answered exactly once, with a CALLRESULT.

Missing: these five have to be registered, see `C240_exact` and `C240_twice_violated`. -/
theorem C240_partial (r : Name16 → Bool) (h : ∀ n, Unguarded n → r n = true) (e : Event16) :
    (happens16 r e).thrown = none ∧ (e.request = true → (happens16 r e).answers = [false]) := by
  have hok := acts16_ok h e
  have ht := exec16_ok hok
  have hu : happens16 r e = exec16 r (acts16 r e) := by simp [happens16, ht]
  rw [hu]
  refine ⟨ht, fun hq => ?_⟩
  rw [exec16_answers hok, request_count hq]; rfl

theorem exec16_thrown {r : Name16 → Bool} {n : Name16} : ∀ {as : List Act16}, (exec16 r as).thrown = some n → Act16.call n ∈ as ∧ r n = false
  | [], h => by simp [exec16] at h
  | .answer :: as, h => by
    have := exec16_thrown (as := as) (by simpa [exec16] using h)
    exact ⟨List.mem_cons_of_mem _ this.1, this.2⟩
  | .answerUninitialised :: as, h => by
    have := exec16_thrown (as := as) (by simpa [exec16] using h)
    exact ⟨List.mem_cons_of_mem _ this.1, this.2⟩
  | .call m :: as, h => by
    cases hr : r m
    · simp [exec16, hr] at h
      subst h
      exact ⟨List.mem_cons_self .., hr⟩
    · have := exec16_thrown (as := as) (by simpa [exec16, hr] using h)
      exact ⟨List.mem_cons_of_mem _ this.1, this.2⟩

theorem happens16_thrown (r : Name16 → Bool) (e : Event16) : (happens16 r e).thrown = (exec16 r (acts16 r e)).thrown := by
  unfold happens16; dsimp only; split <;> rfl

/-- C240: only for want of one of these five is an exception thrown. -/
theorem C240_which (r : Name16 → Bool) (e : Event16) (n : Name16) (h : (happens16 r e).thrown = some n) : Unguarded n ∧ r n = false := by
  rw [happens16_thrown] at h
  obtain ⟨ha, hr⟩ := exec16_thrown h
  refine ⟨?_, hr⟩
  cases e <;> simp only [acts16, List.mem_append, List.mem_cons, List.not_mem_nil, or_false, mem_ifReg, mem_onlyIf16, List.mem_flatten, List.mem_map] at ha <;>
    cases n <;> first | constructor | grind [mem_ifReg, mem_onlyIf16]

/-- C240, exactly: something can happen that throws for want of a function if and only if one of the five is not registered. -/
theorem C240_exact (r : Name16 → Bool) : (∃ e, (happens16 r e).thrown ≠ none) ↔ ∃ n, Unguarded n ∧ r n = false := by
  constructor
  · rintro ⟨e, he⟩
    cases ht : (happens16 r e).thrown with
    | none => exact absurd ht he
    | some n => exact ⟨n, C240_which r e n ht⟩
  · rintro ⟨n, hn, hr⟩
    simp only [happens16_thrown]
    cases hn
    · exact ⟨.stopAll [1], by simp [acts16, exec16, hr]⟩
    · exact ⟨.remoteStart false true false, by simp [acts16, exec16, onlyIf16, hr]⟩
    · exact ⟨.startAnswer true true false, by simp [acts16, exec16, onlyIf16, hr]⟩
    · exact ⟨.signedUpdate true false, by simp [acts16, exec16, hr]⟩
    · exact ⟨.evCertificate true, by simp [acts16, exec16, onlyIf16, hr]⟩

/-- C240 fails: without the function that takes tokens, every RemoteStartTransaction that is accepted is answered twice, first Accepted and then with an error; likewise
RemoteStopTransaction without the function that stops transactions.  Without the function that pauses charging, the application is not told that the CSMS refused the token of a
running transaction. -/
theorem C240_twice_violated (r : Name16 → Bool) :
    (r .provideToken = false → ∀ asked, (happens16 r (.remoteStart asked true false)).answers = [false, true]) ∧
    (r .stopTransaction = false → (happens16 r (.remoteStop true)).answers = [false, true]) ∧
    (r .pauseCharging = false → ∀ stop, (happens16 r (.startAnswer true true stop)).called = []) := by
  refine ⟨?_, ?_, ?_⟩
  · intro h asked
    cases asked <;> cases hi : r .isTokenReserved <;>
      simp [happens16, acts16, exec16, onlyIf16, ifReg, h, hi, Event16.request]
  · intro h
    simp [happens16, acts16, exec16, onlyIf16, h, Event16.request]
  · intro h stop
    simp [happens16, acts16, exec16, onlyIf16, h, Event16.request]

/-- C240 fails: without the function that uploads logs, every GetLog is answered with a status that was never set; nothing else is. -/
theorem C240_log_violated (r : Name16 → Bool) (e : Event16) : (happens16 r e).uninitialised = true ↔ e = .getLog ∧ r .uploadLogs = false := by
  have hu : ∀ {as : List Act16}, (exec16 r as).uninitialised = true → Act16.answerUninitialised ∈ as := by
    intro as
    induction as with
    | nil => intro h; simp [exec16] at h
    | cons a as ih =>
      intro h
      cases a with
      | answer => exact List.mem_cons_of_mem _ (ih (by simpa [exec16] using h))
      | answerUninitialised => exact List.mem_cons_self ..
      | call n =>
        cases hr : r n
        · simp [exec16, hr] at h
        · exact List.mem_cons_of_mem _ (ih (by simpa [exec16, hr] using h))
  have he : (happens16 r e).uninitialised = (exec16 r (acts16 r e)).uninitialised := by
    unfold happens16; dsimp only; split <;> rfl
  rw [he]
  constructor
  · intro h
    have hm := hu h
    cases e <;> simp only [acts16, List.mem_append, List.mem_cons, List.not_mem_nil, or_false, mem_ifReg, mem_onlyIf16, List.mem_flatten, List.mem_map] at hm <;>
      grind [mem_ifReg, mem_onlyIf16]
  · rintro ⟨rfl, h⟩
    simp [acts16, exec16, h]

/-- C240: with every function registered, what the CSMS was told is done reaches the application. -/
theorem C240_passed_on :
    (∀ asked, Name16.provideToken ∈ (happens16 (fun _ => true) (.remoteStart asked true false)).called) ∧
    (happens16 (fun _ => true) (.remoteStop true)).called = [.stopTransaction] ∧
    (∀ active : List Nat, (happens16 (fun _ => true) (.resetRequest true active)).called =
      .isResetAllowed :: .reset :: active.map (fun _ => .stopTransaction)) ∧
    (happens16 (fun _ => true) (.signedUpdate true false)).called = [.signedUpdateFirmware] ∧ (happens16 (fun _ => true) .getLog).called = [.uploadLogs] ∧
    (happens16 (fun _ => true) .getDiagnostics).called = [.uploadDiagnostics] ∧ (happens16 (fun _ => true) .updateFw).called = [.updateFirmware] ∧
    (happens16 (fun _ => true) (.setProfile true)).called = [.signalSetChargingProfiles] ∧
    (happens16 (fun _ => true) (.startAnswer true true true)).called = [.pauseCharging, .stopTransaction, .transactionUpdated] ∧
    (happens16 (fun _ => true) (.unlock true true true true)).called = [.unlockConnector, .stopTransaction] := by
  have hl : ∀ l : List Nat, (exec16 (fun _ => true) (l.map (fun _ => Act16.call .stopTransaction))).called = l.map (fun _ => .stopTransaction) ∧
      (exec16 (fun _ => true) (l.map (fun _ => Act16.call .stopTransaction))).thrown = none := by
    intro l
    induction l with
    | nil => exact ⟨rfl, rfl⟩
    | cons x xs ih => simp [exec16, ih.1, ih.2]
  refine ⟨?_, rfl, ?_, rfl, rfl, rfl, rfl, rfl, rfl, rfl⟩
  · intro asked; cases asked <;> decide
  · intro active
    simp [happens16, acts16, exec16, onlyIf16, (hl active).1, (hl active).2]

/-- The hypotheses of C240 are met, also without any other function. -/
example : (∀ n, Unguarded n → (fun n : Name16 => decide (n ∈ [Name16.stopTransaction, .provideToken, .pauseCharging, .signedUpdateFirmware,
      .get15118EvCertificateResponse])) n = true) ∧
    (happens16 (fun n => decide (n ∈ [Name16.stopTransaction, .provideToken])) (.remoteStart true true false)) = ⟨[.provideToken], [false], none, false⟩ := by
  refine ⟨?_, by decide⟩
  intro n hn; cases hn <;> decide

end Verif.Blocks
