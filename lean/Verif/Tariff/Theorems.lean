import Verif.Tariff.Model
import Verif.Display.Theorems
/-! C200–C202: costs and tariffs of OCPP 2.x. -/
set_option linter.unusedSimpArgs false

namespace Verif.Tariff
open Verif.DM (Str splitString)
open Verif.Display (Content trim Names listed listed_iff IsName)

/-! ## The specification -/

/-- Tariffs are available and enabled. -/
def TariffOn (c : Config) : Prop := c.availableTariff = some true ∧ c.enabledTariff = some true

/-- Costs are available and enabled. -/
def CostOn (c : Config) : Prop := c.availableCost = some true ∧ c.enabledCost = some true

/-- `v` is the value of the energy imported that a meter value has (the first one that is not of a single phase). -/
def HasEnergy (l : List Sample) (v : Int) : Prop :=
  ∃ a s b, l = a ++ s :: b ∧ s.measurandGiven = true ∧ s.register = true ∧ s.phase = false ∧ s.value = v ∧
    ∀ x ∈ a, x.measurandGiven = true → x.register = true → x.phase = true

/-- The largest energy of the meter values of an event; none if they have none. -/
def Energy (e : Event) (m : Option Int) : Prop :=
  match m with
  | none => ∀ l, e.meterValues = some l → ∀ s ∈ l, ∀ v, ¬ HasEnergy s v
  | some v => ∃ l, e.meterValues = some l ∧ (∃ s ∈ l, HasEnergy s v) ∧ ∀ s ∈ l, ∀ w, HasEnergy s w → w ≤ v

/-- The decimals of a cost: as configured, 3 if nothing sensible is configured. -/
def Decimals (c : Config) (d : Int) : Prop :=
  (∃ n, c.decimals = some n ∧ 0 ≤ n ∧ d = n) ∨ ((∀ n, c.decimals = some n → n < 0) ∧ d = 3)

/-- The custom data, if any, can be read. -/
def Readable (r : Response) : Prop := ∀ d, r.custom = some d → d.qrCode ≠ some none

/-- The QR code the application is to show. -/
def QrCode (c : Config) (r : Response) (q : Option Str) : Prop :=
  ∀ t, q = some t ↔ c.qrCapable = some true ∧ ∃ d, r.custom = some d ∧ d.qrCode = some (some t)

/-- A further message that can be shown: its language is in the station's list. -/
def Shown (c : Config) (m : Content) : Prop := ∃ l lang, c.languages = some l ∧ m.language = some lang ∧ Names l lang

def isRunning : Out → Bool
  | .running .. => true
  | _ => false

/-! ## Lemmas -/

theorem getD_true (o : Option Bool) : o.getD false = true ↔ o = some true := by
  cases o with
  | none => simp
  | some b => cases b <;> simp

theorem tariff_iff (c : Config) : c.tariff = true ↔ TariffOn c := by
  unfold Config.tariff TariffOn
  rw [Bool.and_eq_true, getD_true, getD_true]

theorem cost_iff (c : Config) : c.cost = true ↔ CostOn c := by
  unfold Config.cost CostOn
  rw [Bool.and_eq_true, getD_true, getD_true]

theorem firstRegister_iff (l : List Sample) (v : Int) : firstRegister l = some v ↔ HasEnergy l v := by
  induction l with
  | nil =>
    constructor
    · intro h; exact absurd h (by simp [firstRegister])
    · rintro ⟨a, s, b, h, _⟩; exact absurd h (by simp)
  | cons s r ih =>
    rw [firstRegister]
    by_cases hs : ((s.measurandGiven && s.register) && !s.phase) = true
    · rw [if_pos hs]
      have hs' : (s.measurandGiven = true ∧ s.register = true) ∧ s.phase = false := by simpa using hs
      constructor
      · intro h
        injection h with h
        exact ⟨[], s, r, rfl, hs'.1.1, hs'.1.2, hs'.2, h, fun x hx => absurd hx (by simp)⟩
      · rintro ⟨a, t, b, h, h1, h2, h3, h4, h5⟩
        cases a with
        | nil => injection h with h _; rw [h, h4]
        | cons x a =>
          injection h with h _
          have := h5 s (by rw [h]; exact List.mem_cons_self ..) hs'.1.1 hs'.1.2
          rw [hs'.2] at this
          exact absurd this (by simp)
    · rw [if_neg hs, ih]
      have hs' : s.measurandGiven = true → s.register = true → s.phase = true := by
        intro h1 h2
        cases hp : s.phase with
        | true => rfl
        | false => exact absurd (by simp [h1, h2, hp]) hs
      constructor
      · rintro ⟨a, t, b, h, h1, h2, h3, h4, h5⟩
        refine ⟨s :: a, t, b, by rw [h]; rfl, h1, h2, h3, h4, fun x hx => ?_⟩
        rcases List.mem_cons.1 hx with hx | hx
        · rw [hx]; exact hs'
        · exact h5 x hx
      · rintro ⟨a, t, b, h, h1, h2, h3, h4, h5⟩
        cases a with
        | nil =>
          injection h with h _
          have := hs' (by rw [h]; exact h1) (by rw [h]; exact h2)
          rw [h, h3] at this
          exact absurd this (by simp)
        | cons x a =>
          injection h with _ h
          exact ⟨a, t, b, h, h1, h2, h3, h4, fun y hy => h5 y (List.mem_cons_of_mem _ hy)⟩

/-- What the loop finds. -/
def Best (m0 : Option Int) (l : List (List Sample)) (m : Option Int) : Prop :=
  match m with
  | none => m0 = none ∧ ∀ s ∈ l, ∀ v, ¬ HasEnergy s v
  | some v => (m0 = some v ∨ ∃ s ∈ l, HasEnergy s v) ∧ (∀ w, m0 = some w → w ≤ v) ∧ ∀ s ∈ l, ∀ w, HasEnergy s w → w ≤ v

theorem foldl_best (l : List (List Sample)) (m0 : Option Int) :
    Best m0 l (l.foldl (fun m samples => larger m (firstRegister samples)) m0) := by
  induction l generalizing m0 with
  | nil =>
    cases m0 with
    | none => exact ⟨rfl, fun s hs => absurd hs (by simp)⟩
    | some v => exact ⟨Or.inl rfl, fun w hw => by injection hw with hw; omega, fun s hs => absurd hs (by simp)⟩
  | cons s r ih =>
    have h := ih (larger m0 (firstRegister s))
    rw [List.foldl_cons]
    generalize r.foldl (fun m samples => larger m (firstRegister samples)) (larger m0 (firstRegister s)) = m at h
    cases hf : firstRegister s with
    | none =>
      have hno : ∀ v, ¬ HasEnergy s v := fun v hv => by rw [← firstRegister_iff, hf] at hv; exact absurd hv (by simp)
      rw [hf] at h
      cases m with
      | none =>
        refine ⟨h.1, fun x hx => ?_⟩
        rcases List.mem_cons.1 hx with hx | hx
        · rw [hx]; exact hno
        · exact h.2 x hx
      | some v =>
        obtain ⟨h1, h2, h3⟩ := h
        refine ⟨?_, h2, fun x hx w hw => ?_⟩
        · rcases h1 with h1 | ⟨x, hx, h1⟩
          · exact Or.inl h1
          · exact Or.inr ⟨x, List.mem_cons_of_mem _ hx, h1⟩
        · rcases List.mem_cons.1 hx with hx | hx
          · rw [hx] at hw; exact absurd hw (hno w)
          · exact h3 x hx w hw
    | some y =>
      have hy : HasEnergy s y := (firstRegister_iff s y).1 hf
      have huniq : ∀ w, HasEnergy s w → w = y := fun w hw => by
        have := (firstRegister_iff s w).2 hw; rw [hf] at this; injection this with this; exact this.symm
      rw [hf] at h
      cases m with
      | none =>
        have := h.1
        cases m0 with
        | none => exact absurd this (by simp [larger])
        | some z => unfold larger at this; dsimp only at this; split at this <;> exact absurd this (by simp)
      | some v =>
        obtain ⟨h1, h2, h3⟩ := h
        have hyv : y ≤ v ∧ ∀ w, m0 = some w → w ≤ v := by
          cases m0 with
          | none => exact ⟨h2 y rfl, fun w hw => absurd hw (by simp)⟩
          | some z =>
            by_cases hz : z < y
            · have := h2 y (by show (if z < y then some y else some z) = some y; rw [if_pos hz])
              exact ⟨this, fun w hw => by injection hw with hw; omega⟩
            · have := h2 z (by show (if z < y then some y else some z) = some z; rw [if_neg hz])
              exact ⟨by omega, fun w hw => by injection hw with hw; omega⟩
        refine ⟨?_, hyv.2, fun x hx w hw => ?_⟩
        · rcases h1 with h1 | ⟨x, hx, h1⟩
          · cases m0 with
            | none => injection h1 with h1; exact Or.inr ⟨s, List.mem_cons_self .., by rw [← h1]; exact hy⟩
            | some z =>
              have h1' : (if z < y then some y else some z) = some v := h1
              by_cases hz : z < y
              · rw [if_pos hz] at h1'; injection h1' with h1'; exact Or.inr ⟨s, List.mem_cons_self .., by rw [← h1']; exact hy⟩
              · rw [if_neg hz] at h1'; exact Or.inl h1'
          · exact Or.inr ⟨x, List.mem_cons_of_mem _ hx, h1⟩
        · rcases List.mem_cons.1 hx with hx | hx
          · rw [hx] at hw; rw [huniq w hw]; exact hyv.1
          · exact h3 x hx w hw

theorem meterValue_energy (e : Event) : Energy e (meterValue e) := by
  unfold meterValue
  cases he : e.meterValues with
  | none =>
    intro l hl
    rw [he] at hl
    exact absurd hl (by simp)
  | some l =>
    dsimp only
    have := foldl_best l none
    generalize l.foldl (fun m samples => larger m (firstRegister samples)) none = m at this
    cases m with
    | none => exact fun l' hl' => by rw [he] at hl'; injection hl' with hl'; rw [← hl']; exact this.2
    | some v =>
      refine ⟨l, he, ?_, this.2.2⟩
      rcases this.1 with h | h
      · exact absurd h (by simp)
      · exact h

theorem decimals_spec (c : Config) : Decimals c (decimals c) := by
  unfold decimals Decimals
  cases hd : c.decimals with
  | none => right; exact ⟨fun n h => absurd h (by simp), by simp⟩
  | some n =>
    by_cases hn : n < 0
    · right; exact ⟨fun m h => by injection h with h; omega, by simp [hn]⟩
    · left; exact ⟨n, rfl, by omega, by simp [hn]⟩

theorem qrOf_spec (c : Config) (r : Response) (h : Readable r) : ∃ q, qrOf c r = some q ∧ QrCode c r q := by
  unfold qrOf
  cases hr : r.custom with
  | none => exact ⟨none, rfl, fun t => ⟨fun h => absurd h (by simp), fun ⟨_, d, hd, _⟩ => by rw [hr] at hd; exact absurd hd (by simp)⟩⟩
  | some d =>
    dsimp only
    unfold qrCode
    cases hq : d.qrCode with
    | none =>
      refine ⟨none, rfl, fun t => ⟨fun h => absurd h (by simp), fun ⟨_, d', hd, hq'⟩ => ?_⟩⟩
      rw [hr] at hd; injection hd with hd; rw [← hd, hq] at hq'; exact absurd hq' (by simp)
    | some o =>
      cases o with
      | none => exact absurd hq (h d hr)
      | some x =>
        dsimp only
        by_cases hc : c.qrCapable.getD false = true
        · rw [if_pos hc]
          refine ⟨some x, rfl, fun t => ⟨fun ht => ⟨(getD_true _).1 hc, d, hr, by rw [hq, ← ht]⟩, fun ⟨_, d', hd, hq'⟩ => ?_⟩⟩
          rw [hr] at hd; injection hd with hd; rw [← hd, hq] at hq'; injection hq'
        · rw [if_neg hc]
          exact ⟨none, rfl, fun t => ⟨fun ht => absurd ht (by simp), fun ⟨h1, _⟩ => absurd ((getD_true _).2 h1) hc⟩⟩

theorem tariffPart_running (c : Config) (r : Response) (e : Event) : (tariffPart c r e).filter isRunning = [] := by
  unfold tariffPart; split <;> rfl

theorem costPart_told {c : Config} {r : Response} {e : Event} {total : Int} {cur : Str} (hc : CostOn c) (hcb : c.costCallback = true)
    (ht : r.totalCost = some total) (hcur : c.currency = some cur) (hr : Readable r) :
    ∃ q, QrCode c r q ∧ costPart c r e = some [.running (runningCost c r e total q) (decimals c) cur] := by
  obtain ⟨q, h1, h2⟩ := qrOf_spec c r hr
  refine ⟨q, h2, ?_⟩
  unfold costPart
  rw [ht]
  dsimp only
  rw [if_pos (by rw [(cost_iff c).2 hc, hcb]; rfl), h1, hcur]

/-! ## C200 -/

/-- C200 (partial: the currency is configured and the custom data can be read): if costs are enabled and the application takes them, then
for each answer of the CSMS with a total cost the application gets exactly one running cost: that cost, of the transaction of the event, with
the time of the event, finished exactly if the event ended the transaction, with the largest energy among the event's meter values and the
configured decimals and currency; the answer is then processed further. -/
theorem C200_told_partial (c : Config) (r : Response) (e : Event) (total : Int) (cur : Str) (hc : CostOn c) (hcb : c.costCallback = true)
    (ht : r.totalCost = some total) (hcur : c.currency = some cur) (hr : Readable r) :
    (∃ R d, (onResponse c r e).1.filter isRunning = [.running R d cur] ∧ R.cost = total ∧ R.transaction = e.transaction ∧
      R.timestamp = some e.timestamp ∧ (R.state = some .finished ↔ e.ended = true) ∧ (R.state = some .charging ↔ e.ended = false) ∧
      Energy e R.meterValue ∧ QrCode c r R.qrCode ∧ Decimals c d) ∧
    tokenLookedAt c r e = !e.ended := by
  obtain ⟨q, h1, h2⟩ := costPart_told (e := e) hc hcb ht hcur hr
  have h3 : onResponse c r e = (tariffPart c r e ++ [.running (runningCost c r e total q) (decimals c) cur], true) := by
    unfold onResponse; rw [h2]
  refine ⟨⟨runningCost c r e total q, decimals c, ?_, rfl, rfl, rfl, ?_, ?_, meterValue_energy e, h1, decimals_spec c⟩, ?_⟩
  · rw [h3]
    show (tariffPart c r e ++ _).filter isRunning = _
    rw [List.filter_append, tariffPart_running]
    rfl
  · show some (if e.ended then CostState.finished else .charging) = _ ↔ _
    cases e.ended <;> simp
  · show some (if e.ended then CostState.finished else .charging) = _ ↔ _
    cases e.ended <;> simp
  · unfold tokenLookedAt; rw [h3]; simp

/-- C200: a running cost comes only if costs are enabled, the application takes them and the CSMS sent one. -/
theorem C200_only (c : Config) (r : Response) (e : Event) (R : RunningCost) (d : Int) (cur : Str) (h : Out.running R d cur ∈ (onResponse c r e).1) :
    CostOn c ∧ c.costCallback = true ∧ r.totalCost = some R.cost ∧ c.currency = some cur := by
  have hm : Out.running R d cur ∉ tariffPart c r e := by unfold tariffPart; split <;> simp
  unfold onResponse at h
  cases hp : costPart c r e with
  | none => rw [hp] at h; exact absurd h hm
  | some os =>
    rw [hp] at h
    rcases List.mem_append.1 h with h | h
    · exact absurd h hm
    · unfold costPart at hp
      cases ht : r.totalCost with
      | none => rw [ht] at hp; injection hp with hp; rw [← hp] at h; exact absurd h (by simp)
      | some total =>
        rw [ht] at hp
        dsimp only at hp
        by_cases hc : (c.cost && c.costCallback) = true
        · rw [if_pos hc] at hp
          have hc' : c.cost = true ∧ c.costCallback = true := by simpa using hc
          cases hq : qrOf c r with
          | none => rw [hq] at hp; exact absurd hp (by simp)
          | some q =>
            cases hcur : c.currency with
            | none => rw [hq, hcur] at hp; exact absurd hp (by simp)
            | some cur' =>
              rw [hq, hcur] at hp
              injection hp with hp
              rw [← hp] at h
              have := List.mem_singleton.1 h
              injection this with h1 h2 h3
              exact ⟨(cost_iff c).1 hc'.1, hc'.2, by rw [h1]; rfl, by rw [h3]⟩
        · rw [if_neg hc] at hp; injection hp with hp; rw [← hp] at h; exact absurd h (by simp)

/-- C200 violated: if no currency is configured, an answer with a cost ends in an exception; the application gets no cost, and the
answer's id token info is not looked at: a transaction the CSMS refuses goes on. -/
theorem C200_currency_violated (c : Config) (r : Response) (e : Event) (total : Int) (hc : CostOn c) (hcb : c.costCallback = true)
    (ht : r.totalCost = some total) (hcur : c.currency = none) :
    (onResponse c r e).1.filter isRunning = [] ∧ tokenLookedAt c r e = false := by
  have h2 : costPart c r e = none := by
    unfold costPart
    rw [ht]
    dsimp only
    rw [if_pos (by rw [(cost_iff c).2 hc, hcb]; rfl), hcur]
    cases qrOf c r <;> rfl
  have h3 : onResponse c r e = (tariffPart c r e, false) := by unfold onResponse; rw [h2]
  refine ⟨?_, ?_⟩
  · rw [h3]; exact tariffPart_running c r e
  · unfold tokenLookedAt; rw [h3]; rfl

/-- C200 violated: values without a measurand are of the energy imported (OCPP 2.0.1, 2.58 SampledValueType), but the cost is told without
it. -/
theorem C200_measurand_violated : ∃ e : Event, e.meterValues = some [[{ measurandGiven := false, register := false, phase := false, value := 12000 }]] ∧
    meterValue e = none :=
  ⟨{ transaction := [], ended := false, timestamp := 0, meterValues := some [[{ measurandGiven := false, register := false, phase := false, value := 12000 }]] },
   rfl, rfl⟩

/-- A configuration for the examples. -/
def shop : Config :=
  { availableTariff := some true, enabledTariff := some true, availableCost := some true, enabledCost := some true, qrCapable := some true
    multiLanguage := some true, california := some true, languages := some "de, en".toList, decimals := some 2
    currency := some "EUR".toList, tariffCallback := true, costCallback := true }

/-- An event for the examples. -/
def event : Event :=
  { transaction := "T1".toList, ended := false, timestamp := 77
    meterValues := some [[⟨true, false, false, 5⟩, ⟨true, true, true, 900⟩, ⟨true, true, false, 100⟩], [⟨true, true, false, 250⟩]] }

example : CostOn shop ∧ TariffOn shop ∧ shop.currency = some "EUR".toList ∧ shop.costCallback = true ∧ Readable { totalCost := some 5 } :=
  ⟨⟨rfl, rfl⟩, ⟨rfl, rfl⟩, rfl, rfl, fun _ h => absurd h (by simp)⟩

example : (onResponse shop { totalCost := some 5 } event).1 =
    [.running { transaction := "T1".toList, timestamp := some 77, meterValue := some 250, cost := 5, state := some .charging } 2 "EUR".toList] := by
  decide +kernel

/-! ## C201 -/

theorem extraMessages_eq (sup : List Str) (l : List Content) :
    extraMessages sup l = l.filter (fun m => match m.language with
      | none => false
      | some x => sup.contains x) := by
  induction l with
  | nil => rfl
  | cons m r ih =>
    rw [extraMessages, List.filter_cons]
    cases hl : m.language with
    | none => dsimp only; rw [ih]; rfl
    | some x =>
      dsimp only
      by_cases he : sup.isEmpty = true
      · rw [if_pos he]
        have : sup = [] := by simpa using he
        subst this
        rw [if_neg (by simp)]
        symm
        rw [List.filter_eq_nil_iff]
        intro a _
        cases a.language <;> simp
      · rw [if_neg he]
        by_cases hx : sup.contains x = true
        · rw [if_pos hx, if_pos hx, ih]
        · rw [if_neg hx, if_neg hx, ih]

/-- C201 (partial: without costs): the personal message of the CSMS reaches the application, for the transaction of the event. -/
theorem C201_tariff_partial (c : Config) (r : Response) (e : Event) (m : Content) (ht : TariffOn c) (hc : ¬ CostOn c) (hcb : c.tariffCallback = true)
    (hm : r.personal = some m) : onResponse c r e = ([.tariff e.transaction [m]], true) := by
  have hcf : c.cost = false := by
    cases h : c.cost with
    | true => exact absurd ((cost_iff c).1 h) hc
    | false => rfl
  have hp : personal c r = [m] := by unfold personal; rw [hm]; dsimp only; rw [if_pos ((tariff_iff c).2 ht)]
  have h1 : tariffPart c r e = [.tariff e.transaction [m]] := by unfold tariffPart; rw [hp, hcf, hcb]; rfl
  have h2 : costPart c r e = some [] := by
    unfold costPart
    cases r.totalCost with
    | none => rfl
    | some t => dsimp only; rw [if_neg (by rw [hcf]; simp)]
  unfold onResponse
  rw [h2, h1]
  rfl

/-- C201 (partial: with costs, for answers that have a cost): the running cost carries the personal message and those of the further
messages, in order, whose language the station has. -/
theorem C201_cost_partial (c : Config) (r : Response) (e : Event) (d : Custom) (total : Int) (cur : Str) (m : Content) (l : List Content)
    (ht : TariffOn c) (hc : CostOn c) (hcb : c.costCallback = true) (htot : r.totalCost = some total) (hcur : c.currency = some cur)
    (hr : Readable r) (hm : r.personal = some m) (hcu : r.custom = some d) (hx : d.extra = some l) (hml : c.multiLanguage = some true)
    (hn : ∀ x ∈ l, ∀ lang, x.language = some lang → IsName lang) :
    ∃ R k shown, (onResponse c r e).1 = [.running R k cur] ∧ R.messages = some (m :: shown) ∧ shown.Sublist l ∧
      (∀ x, x ∈ shown ↔ x ∈ l ∧ Shown c x) := by
  obtain ⟨q, _, h2⟩ := costPart_told (e := e) hc hcb htot hcur hr
  have hp : personal c r = [m] := by unfold personal; rw [hm]; dsimp only; rw [if_pos ((tariff_iff c).2 ht)]
  have ht1 : tariffPart c r e = [] := by unfold tariffPart; rw [(cost_iff c).2 hc]; simp
  have hex : extras c d = extraMessages (languages c) l := by
    unfold extras; rw [hx]; dsimp only; rw [if_pos ((getD_true _).2 hml)]
  refine ⟨runningCost c r e total q, decimals c, extras c d, ?_, ?_, ?_, ?_⟩
  · unfold onResponse; rw [h2, ht1]; rfl
  · show messagesOf c (personal c r ++ (match r.custom with
      | none => []
      | some d => extras c d)) = _
    rw [hcu, hp]
    dsimp only
    unfold messagesOf
    rw [(tariff_iff c).2 ht]
    rfl
  · rw [hex, extraMessages_eq]; exact List.filter_sublist
  · intro x
    rw [hex, extraMessages_eq, List.mem_filter]
    constructor
    · rintro ⟨h3, h4⟩
      refine ⟨h3, ?_⟩
      cases hl : x.language with
      | none => rw [hl] at h4; exact absurd h4 (by simp)
      | some lang =>
        rw [hl] at h4
        unfold languages at h4
        cases hL : c.languages with
        | none => rw [hL] at h4; exact absurd h4 (by simp)
        | some s =>
          rw [hL] at h4
          exact ⟨s, lang, hL, hl, (listed_iff (hn x h3 lang hl)).1 h4⟩
    · rintro ⟨h3, s, lang, h4, h5, h6⟩
      refine ⟨h3, ?_⟩
      rw [h5]
      unfold languages
      rw [h4]
      exact (listed_iff (hn x h3 lang h5)).2 h6

/-- C201 violated: with costs enabled, a personal message in an answer without a total cost is lost, though the application shows tariff
messages. -/
theorem C201_lost_violated (c : Config) (r : Response) (e : Event) (hc : CostOn c) (ht : r.totalCost = none) : onResponse c r e = ([], true) := by
  have h1 : tariffPart c r e = [] := by unfold tariffPart; rw [(cost_iff c).2 hc]; simp
  have h2 : costPart c r e = some [] := by unfold costPart; rw [ht]
  unfold onResponse
  rw [h2, h1]
  rfl

/-- C201 violated: without costs the further messages are lost, whatever their languages are. -/
theorem C201_extra_violated (c : Config) (r r' : Response) (e : Event) (hc : ¬ CostOn c) (hp : r.personal = r'.personal) :
    onResponse c r e = onResponse c r' e := by
  have hcf : c.cost = false := by
    cases h : c.cost with
    | true => exact absurd ((cost_iff c).1 h) hc
    | false => rfl
  have h2 : ∀ r, costPart c r e = some [] := by
    intro r
    unfold costPart
    cases r.totalCost with
    | none => rfl
    | some t => dsimp only; rw [if_neg (by rw [hcf]; simp)]
  have h1 : tariffPart c r e = tariffPart c r' e := by unfold tariffPart personal; rw [hp]
  unfold onResponse
  rw [h2, h2, h1]

example : (onResponse shop
    { totalCost := some 5
      personal := some ⟨.utf8, "Hi".toList, none⟩
      custom := some { extra := some [⟨.utf8, "Hallo".toList, some "de".toList⟩, ⟨.utf8, "Salut".toList, some "fr".toList⟩] } } event).1 =
    [.running { transaction := "T1".toList, timestamp := some 77, meterValue := some 250, cost := 5, state := some .charging
                messages := some [⟨.utf8, "Hi".toList, none⟩, ⟨.utf8, "Hallo".toList, some "de".toList⟩] } 2 "EUR".toList] := by
  decide +kernel

example : IsName "de".toList ∧ IsName "fr".toList :=
  ⟨⟨⟨'d', "e".toList, by decide, by decide⟩, 'e', "d".toList, by decide, by decide⟩,
   ⟨⟨'f', "r".toList, by decide, by decide⟩, 'r', "f".toList, by decide, by decide⟩⟩

/-! ## C202 -/

/-- The state a cost message tells: that of the custom data if California pricing is on and there is custom data, else charging. -/
def Told (c : Config) (q : CostRequest) (s : CostState) (t : Triggers) : Prop :=
  (c.california = some true ∧ ∃ d, q.custom = some (some d) ∧ d.state = some s ∧ (d.triggers = some t ∨ d.triggers = none ∧ t = {})) ∨
  ((c.california ≠ some true ∨ q.custom = none) ∧ s = .charging ∧ t = {})

theorem readCustom_told {c : Config} {q : CostRequest} {s : CostState} {t : Triggers} (h : Told c q s t) : readCustom c q = some (some s, t) := by
  unfold readCustom
  rcases h with ⟨h1, d, h2, h3, h4⟩ | ⟨h1, h2, h3⟩
  · rw [h2]
    dsimp only
    rw [if_pos ((getD_true _).2 h1)]
    rcases h4 with h4 | ⟨h4, h5⟩
    · simp [h3, h4]
    · simp [h3, h4, h5]
  · rcases h1 with h1 | h1
    · cases q.custom with
      | none => rw [h2, h3]
      | some d => dsimp only; rw [if_neg (fun hx => h1 ((getD_true _).1 hx)), h2, h3]
    · rw [h1, h2, h3]

/-- C202 (partial: the currency is configured, and custom data that is used can be read and names a state): CostUpdated is answered once; if
costs are enabled, the application gets that cost for that transaction, and the triggers are set at the EVSE of that transaction, if it has
one, and nowhere else. -/
theorem C202_partial (c : Config) (evseOf : Str → Option Nat) (q : CostRequest) (s : CostState) (t : Triggers) (cur : Str) (hc : CostOn c)
    (hcb : c.costCallback = true) (hcur : c.currency = some cur) (h : Told c q s t) :
    ∃ d, Decimals c d ∧ ∃ acts, costUpdated c evseOf q =
      .told { transaction := q.transaction, cost := q.totalCost, state := some s } d cur :: .answered :: acts ∧
      (∀ a, a ∈ acts ↔ t ≠ {} ∧ ∃ e, evseOf q.transaction = some e ∧ a = .triggers e t) ∧ acts.length ≤ 1 := by
  refine ⟨decimals c, decimals_spec c, setTriggers evseOf q t, ?_, ?_, ?_⟩
  · unfold costUpdated
    rw [if_neg (by rw [(cost_iff c).2 hc, hcb]; simp), readCustom_told h]
    dsimp only
    unfold costUpdatedWith
    rw [hcur]
  · intro a
    unfold setTriggers
    by_cases ht : t = {}
    · rw [if_pos ht]
      constructor
      · intro h; exact absurd h (by simp)
      · intro h; exact absurd ht h.1
    · rw [if_neg ht]
      cases he : evseOf q.transaction with
      | none =>
        constructor
        · intro h; exact absurd h (by simp)
        · rintro ⟨_, e, h, _⟩; exact absurd h (by simp)
      | some e =>
        constructor
        · intro h; exact ⟨ht, e, rfl, List.mem_singleton.1 h⟩
        · rintro ⟨_, e', h, h'⟩; injection h with h; rw [h', h]; exact List.mem_singleton.2 rfl
  · unfold setTriggers
    split
    · simp
    · cases evseOf q.transaction <;> simp

/-- C202: without costs it is only answered. -/
theorem C202_off (c : Config) (evseOf : Str → Option Nat) (q : CostRequest) (hc : ¬ CostOn c ∨ c.costCallback = false) :
    costUpdated c evseOf q = [.answered] := by
  unfold costUpdated
  rw [if_pos]
  rcases hc with hc | hc
  · have hcf : c.cost = false := by
      cases h : c.cost with
      | true => exact absurd ((cost_iff c).1 h) hc
      | false => rfl
    rw [hcf]; rfl
  · rw [hc]; simp

/-- C202 violated: without a currency no cost message has any effect but an exception. -/
theorem C202_currency_violated (c : Config) (evseOf : Str → Option Nat) (q : CostRequest) (hc : CostOn c) (hcb : c.costCallback = true)
    (hcur : c.currency = none) : costUpdated c evseOf q = [.threw] := by
  unfold costUpdated
  rw [if_neg (by rw [(cost_iff c).2 hc, hcb]; simp)]
  cases readCustom c q with
  | none => rfl
  | some p => show costUpdatedWith c evseOf q p.1 p.2 = _; unfold costUpdatedWith; rw [hcur]

/-- C202 violated: with California pricing, custom data without a state (such as that of another vendor) makes the station tell a state
that was never assigned. -/
theorem C202_state_violated : ∃ (c : Config) (q : CostRequest), CostOn c ∧ q.custom = some (some {}) ∧
    ∀ evseOf, ∃ R d cur, Act.told R d cur ∈ costUpdated c evseOf q ∧ R.state = none :=
  ⟨shop, { transaction := "T1".toList, totalCost := 7, custom := some (some {}) }, ⟨rfl, rfl⟩, rfl, fun _ =>
    ⟨{ transaction := "T1".toList, cost := 7, state := none }, 2, "EUR".toList, List.mem_cons_self .., rfl⟩⟩

example : Told shop { transaction := "T1".toList, totalCost := 7, custom := some (some { state := some .idle, triggers := some { energy := some 3 } }) }
    .idle { energy := some 3 } := Or.inl ⟨rfl, _, rfl, rfl, Or.inl rfl⟩

end Verif.Tariff
