import Verif.Monitor.UpdaterTheorems
import Mathlib.Data.List.Nodup
import Mathlib.Data.List.Flatten
/-
C85: when periodic events are generated.  C86: ids of events.  C37: values of write-only variables in events.
-/
set_option linter.constructorNameAsVariable false
set_option linter.unusedSimpArgs false

namespace Verif.Mon

open Verif.DM (Str Comp Vbl DataType Chars exInterval exPassword)

/-! ### C85: periodic events -/

/-- The instants (in milliseconds) aligned with the clock for an interval of `i` seconds: every hour starts
anew. -/
def Aligned (i x : Nat) : Prop := ∃ h k, k * i < 3600 ∧ x = h * 3600000 + k * i * 1000

/-- The times of a sequence of runs at which an event of a periodic monitor is generated. -/
def eventTimes (dm : Verif.DM.DM) : Entry → List Clock → Option (List Clock)
  | _, [] => some []
  | e, t :: r => match generate t dm 0 e with
    | none => none
    | some (e', n) => (eventTimes dm e' r).map (fun ds => if n = 0 then ds else t :: ds)

theorem arith1 {h h' s n n' : Nat} (hs : s < 3600) (h36 : 3600 ≤ n) (hk : n' < 3600)
    (hx : h * 3600000 + s * 1000 ≤ h' * 3600000 + n' * 1000) (hm : s ≤ n' → n ≤ n') :
    (h + 1) * 3600000 ≤ h' * 3600000 + n' * 1000 := by
  by_cases hc : s ≤ n'
  · have := hm hc; omega
  · omega

theorem arith2 {h h' s n n' : Nat} (hs : s < 3600) (h36 : n < 3600) (hk : n' < 3600)
    (hx : h * 3600000 + s * 1000 ≤ h' * 3600000 + n' * 1000) (hm : s ≤ n' → n ≤ n') :
    h * 3600000 + n * 1000 ≤ h' * 3600000 + n' * 1000 := by
  have e : ∀ a b : Nat, a * 3600000 + b * 1000 = (a * 3600 + b) * 1000 := by intro a b; omega
  rw [e, e] at hx ⊢
  have hx' := Nat.le_of_mul_le_mul_right hx (by decide)
  apply Nat.mul_le_mul_right
  clear hx e
  rcases Nat.lt_trichotomy h' h with hh | hh | hh
  · omega
  · subst hh
    have := hm (by omega)
    omega
  · omega

/-- The first aligned instant that is not before the second of `now`. -/
theorem alignedPoint_spec (i now : Nat) (hi : 0 < i) : ∃ p, alignedPoint i now = some p ∧ Aligned i p ∧
    now / 1000 * 1000 ≤ p ∧ ∀ x, Aligned i x → now / 1000 * 1000 ≤ x → p ≤ x := by
  have hne : i ≠ 0 := by omega
  simp only [alignedPoint, if_neg hne]
  refine ⟨_, rfl, ?_⟩
  have hs : now % 3600000 / 1000 < 3600 := by omega
  have hsec : now / 1000 * 1000 = now / 3600000 * 3600000 + now % 3600000 / 1000 * 1000 := by omega
  rw [hsec]
  generalize now % 3600000 / 1000 = s at *
  generalize now / 3600000 = h at *
  have hdm := Nat.div_add_mod (s + (i - 1)) i
  have hml := Nat.mod_lt (s + (i - 1)) hi
  have hle : ∀ k, s ≤ k * i → (s + (i - 1)) / i ≤ k := by
    intro k hk
    have h2 : s + (i - 1) < (k + 1) * i := by rw [Nat.add_mul, Nat.one_mul]; omega
    have := (Nat.div_lt_iff_lt_mul hi).mpr h2
    omega
  have hmono : ∀ k, s ≤ k * i → (s + (i - 1)) / i * i ≤ k * i := fun k hk => Nat.mul_le_mul_right i (hle k hk)
  have hcomm : i * ((s + (i - 1)) / i) = (s + (i - 1)) / i * i := Nat.mul_comm _ _
  generalize hq : (s + (i - 1)) / i = q at *
  generalize hn : q * i = n at *
  split
  · rename_i h36
    refine ⟨⟨h + 1, 0, by omega, by simp only [Nat.zero_mul, Nat.add_zero]⟩, by omega, ?_⟩
    rintro x ⟨h', k, hk, rfl⟩ hx
    have hm := hmono k
    generalize k * i = n' at hx hk hm ⊢
    clear hmono hle hdm hcomm hn hq hml hsec
    exact arith1 hs h36 hk hx hm
  · rename_i h36
    refine ⟨⟨h, q, by omega, by rw [hn]⟩, by omega, ?_⟩
    rintro x ⟨h', k, hk, rfl⟩ hx
    have hm := hmono k
    generalize k * i = n' at hx hk hm ⊢
    clear hmono hle hdm hcomm hn hq hml hsec
    exact arith2 hs (Nat.lt_of_not_le h36) hk hx hm

theorem Aligned.mod {i x : Nat} (h : Aligned i x) : x % 1000 = 0 := by
  obtain ⟨h, k, _, rfl⟩ := h
  generalize k * i = n
  omega

/-- What is generated for a periodic monitor. -/
theorem generate_due {t : Clock} {dm : Verif.DM.DM} {e e' : Entry} {n : Nat} (hp : e.periodic = true)
    (h : generate t dm 0 e = some (e', n)) :
    ∃ e1, due t e = some (n != 0, e1) ∧ e'.periodic = true ∧ e'.mon = e.mon ∧ e'.last = e1.last ∧ e'.next = e1.next := by
  unfold generate at h
  simp only [hp, if_true] at h
  cases hd : due t e with
  | none => simp [hd] at h
  | some x =>
    obtain ⟨b, e1⟩ := x
    obtain ⟨d1, d2, d3⟩ := due_frame hd
    cases b with
    | false =>
      simp only [hd] at h
      injection h with h; injection h with h1 h2
      subst h1; subst h2
      exact ⟨e1, rfl, d3.trans hp, d1, rfl, rfl⟩
    | true =>
      simp only [hd] at h
      split at h
      · injection h with h; injection h with h1 h2
        subst h1; subst h2
        exact ⟨e1, rfl, d3.trans hp, d1, rfl, rfl⟩
      · simp at h

/-- C85: events of a monitor of type Periodic are more than the interval apart, and at every run the last
event (or the installation) is at most the interval ago. -/
theorem C85_periodic (dm : Verif.DM.DM) (e : Entry) (hp : e.periodic = true) (ht : e.mon.type = .periodic)
    (s : Nat) (hs : seconds e.mon.value = s) (ts : List Clock)
    (hsorted : (e.last :: ts.map (·.steady)).Pairwise (· ≤ ·)) (ds : List Clock)
    (h : eventTimes dm e ts = some ds) :
    List.Sublist ds ts ∧ (e.last :: ds.map (·.steady)).Pairwise (fun a b => a + s * 1000 < b) ∧
    ∀ t ∈ ts, ∃ p ∈ e.last :: ds.map (·.steady), p ≤ t.steady ∧ t.steady ≤ p + s * 1000 := by
  induction ts generalizing e ds with
  | nil =>
    simp only [eventTimes] at h
    injection h with h; subst h
    simp
  | cons t r ih =>
    simp only [eventTimes] at h
    simp only [List.map_cons, List.pairwise_cons, List.mem_cons] at hsorted
    obtain ⟨hs1, hs2, hs3⟩ := hsorted
    have hlt : e.last ≤ t.steady := hs1 _ (.inl rfl)
    cases hg : generate t dm 0 e with
    | none => simp [hg] at h
    | some x =>
      obtain ⟨e', n⟩ := x
      obtain ⟨e1, d1, d2, d3, d4, d5⟩ := generate_due hp hg
      simp only [hg] at h
      rw [Option.map_eq_some_iff] at h
      obtain ⟨ds', hds, hd⟩ := h
      unfold due at d1
      simp only [ht, hs] at d1
      by_cases hc : (s : Int) * 1000 < (t.steady : Int) - e.last
      · simp only [hc, if_true] at d1
        injection d1 with d1; injection d1 with d6 d7
        have hl : e'.last = t.steady := by rw [d4, ← d7]
        have hn : n ≠ 0 := by simpa using d6.symm
        simp only [hn, if_false] at hd
        subst hd
        obtain ⟨i1, i2, i3⟩ := ih e' d2 (d3 ▸ ht) (d3 ▸ hs) (by
          rw [List.pairwise_cons, hl]; exact ⟨hs2, hs3⟩) ds' hds
        rw [hl] at i2 i3
        refine ⟨i1.cons_cons t, ?_, ?_⟩
        · rw [List.map_cons, List.pairwise_cons]
          refine ⟨?_, i2⟩
          intro a ha
          rcases List.mem_cons.mp ha with rfl | ha
          · omega
          · have := (List.pairwise_cons.mp i2).1 a ha
            omega
        · intro t' ht'
          rcases List.mem_cons.mp ht' with rfl | ht'
          · exact ⟨t'.steady, by simp, le_refl _, by omega⟩
          · obtain ⟨p, hp1, hp2⟩ := i3 t' ht'
            exact ⟨p, List.mem_cons_of_mem _ hp1, hp2⟩
      · simp only [hc, if_false] at d1
        injection d1 with d1; injection d1 with d6 d7
        have hl : e'.last = e.last := by rw [d4, ← d7]
        have hn : n = 0 := by simpa using d6.symm
        simp only [hn, if_true] at hd
        subst hd
        obtain ⟨i1, i2, i3⟩ := ih e' d2 (d3 ▸ ht) (d3 ▸ hs) (by
          rw [List.pairwise_cons, hl]; exact ⟨fun a ha => hs1 a (.inr ha), hs3⟩) ds' hds
        rw [hl] at i2 i3
        refine ⟨i1.cons t, i2, ?_⟩
        intro t' ht'
        rcases List.mem_cons.mp ht' with rfl | ht'
        · exact ⟨e.last, by simp, hlt, by omega⟩
        · exact i3 t' ht'

/-- Non-vacuity of `C85_periodic`: an interval of 60 seconds, runs every 25 seconds. -/
example : let e : Entry := ⟨true, ⟨1, 3, false, .periodic, 60, .custom, none⟩, exInterval.comp, exInterval.var, [], false,
      false, false, false, false, 0, 0, []⟩
    (eventTimes exDecimal.dm e [⟨25000, 25000⟩, ⟨50000, 50000⟩, ⟨75000, 75000⟩, ⟨100000, 100000⟩, ⟨125000, 125000⟩,
      ⟨150000, 150000⟩]).map (fun l => l.map (·.steady)) = some [75000, 150000] := by
  decide +kernel

/-- What is known of an entry for aligned events after the event (or the installation) at `p`. -/
def NextOk (i p : Nat) (e : Entry) : Prop :=
  Aligned i e.next ∧ p < e.next ∧ ∀ x, Aligned i x → p < x → e.next ≤ x

theorem alignedPoint_next {i now p : Nat} (hi : 0 < i) (hn : ¬ Aligned i (now / 1000 * 1000))
    (h : alignedPoint i now = some p) : Aligned i p ∧ now < p ∧ ∀ x, Aligned i x → now < x → p ≤ x := by
  obtain ⟨q, h1, h2, h3, h4⟩ := alignedPoint_spec i now hi
  rw [h] at h1; injection h1 with h1; subst h1
  refine ⟨h2, ?_, fun x hx hlt => h4 x hx (by omega)⟩
  have hm := h2.mod
  have hne : p ≠ now / 1000 * 1000 := fun hh => hn (hh ▸ h2)
  omega

theorem aligned_run (dm : Verif.DM.DM) (i : Nat) (hi : 0 < i) (ts : List Clock) : ∀ (e : Entry) (p : Nat),
    e.periodic = true → e.mon.type = .periodicAligned → seconds e.mon.value = i → NextOk i p e →
    (p :: ts.map (·.sys)).Pairwise (· ≤ ·) → (∀ t ∈ ts, ¬ Aligned i (t.sys / 1000 * 1000)) →
    ∀ ds, eventTimes dm e ts = some ds →
    List.Sublist ds ts ∧
    (p :: ds.map (·.sys)).Pairwise (fun a b => ∃ x, Aligned i x ∧ a < x ∧ x < b) ∧
    ∀ t ∈ ts, ∀ x, Aligned i x → p < x → x < t.sys → ∃ d ∈ ds, x < d.sys ∧ d.sys ≤ t.sys := by
  induction ts with
  | nil =>
    intro e p _ _ _ _ _ _ ds h
    simp only [eventTimes] at h
    injection h with h; subst h
    simp
  | cons t r ih =>
    intro e p hp ht hs hN hsorted hal ds h
    simp only [eventTimes] at h
    simp only [List.map_cons, List.pairwise_cons, List.mem_cons] at hsorted
    obtain ⟨hs1, hs2, hs3⟩ := hsorted
    cases hg : generate t dm 0 e with
    | none => simp [hg] at h
    | some y =>
      obtain ⟨e', n⟩ := y
      obtain ⟨e1, d1, d2, d3, d4, d5⟩ := generate_due hp hg
      simp only [hg] at h
      rw [Option.map_eq_some_iff] at h
      obtain ⟨ds', hds, hd⟩ := h
      unfold due at d1
      simp only [ht, hs, Int.toNat_natCast] at d1
      have halt := hal t (List.mem_cons_self ..)
      by_cases hc : e.next < t.sys
      · simp only [hc, if_true] at d1
        rw [Option.map_eq_some_iff] at d1
        obtain ⟨q, hq, d1⟩ := d1
        injection d1 with d6 d7
        have hn : n ≠ 0 := by simpa using d6.symm
        simp only [hn, if_false] at hd
        subst hd
        have hN' : NextOk i t.sys e' := by
          obtain ⟨a1, a2, a3⟩ := alignedPoint_next hi halt hq
          have : e'.next = q := by rw [d5, ← d7]
          unfold NextOk; rw [this]; exact ⟨a1, a2, a3⟩
        obtain ⟨i1, i2, i3⟩ := ih e' t.sys d2 (d3 ▸ ht) (d3 ▸ hs) hN' (List.pairwise_cons.mpr ⟨hs2, hs3⟩)
          (fun t ht => hal t (List.mem_cons_of_mem _ ht)) ds' hds
        refine ⟨i1.cons_cons t, ?_, ?_⟩
        · rw [List.map_cons, List.pairwise_cons]
          refine ⟨?_, i2⟩
          intro a ha
          rcases List.mem_cons.mp ha with rfl | ha
          · exact ⟨e.next, hN.1, hN.2.1, hc⟩
          · obtain ⟨x, _, x2, x3⟩ := (List.pairwise_cons.mp i2).1 a ha
            exact ⟨e.next, hN.1, hN.2.1, by omega⟩
        · intro t' ht' x hx hpx hxt
          rcases lt_trichotomy x t.sys with hlt | heq | hgt
          · refine ⟨t, List.mem_cons_self .., hlt, ?_⟩
            rcases List.mem_cons.mp ht' with rfl | ht'
            · exact le_refl _
            · exact hs2 _ (List.mem_map_of_mem ht')
          · exfalso
            apply halt
            have := hx.mod
            have e2 : t.sys / 1000 * 1000 = x := by omega
            rw [e2]; exact hx
          · rcases List.mem_cons.mp ht' with rfl | ht'
            · omega
            · obtain ⟨d, hd1, hd2⟩ := i3 t' ht' x hx hgt hxt
              exact ⟨d, List.mem_cons_of_mem _ hd1, hd2⟩
      · simp only [hc, if_false] at d1
        injection d1 with d1; injection d1 with d6 d7
        have hn : n = 0 := by simpa using d6.symm
        simp only [hn, if_true] at hd
        subst hd
        have hN' : NextOk i p e' := by
          have : e'.next = e.next := by rw [d5, ← d7]
          unfold NextOk; rw [this]; exact hN
        obtain ⟨i1, i2, i3⟩ := ih e' p d2 (d3 ▸ ht) (d3 ▸ hs) hN'
          (List.pairwise_cons.mpr ⟨fun a ha => hs1 a (.inr ha), hs3⟩)
          (fun t ht => hal t (List.mem_cons_of_mem _ ht)) ds' hds
        refine ⟨i1.cons t, i2, ?_⟩
        intro t' ht' x hx hpx hxt
        rcases List.mem_cons.mp ht' with rfl | ht'
        · have := hN.2.2 x hx hpx; omega
        · exact i3 t' ht' x hx hpx hxt

/-- C85: for a monitor of type PeriodicClockAligned there is an aligned instant between any two events, and
every aligned instant after the installation is followed by an event at the next run.  Partial: if no run
falls within the second that starts at an aligned instant; see `C85_violated`. -/
theorem C85_partial (dm : Verif.DM.DM) (x : Item) (ht : x.mon.type = .periodicAligned) (i : Nat) (hi : 0 < i)
    (hs : seconds x.mon.value = i) (t0 : Clock) (e : Entry) (he : newPeriodic t0 x = some e) (ts : List Clock)
    (hsorted : ((t0 :: ts).map (·.sys)).Pairwise (· ≤ ·))
    (hal : ∀ t ∈ t0 :: ts, ¬ Aligned i (t.sys / 1000 * 1000)) (ds : List Clock) (h : eventTimes dm e ts = some ds) :
    List.Sublist ds ts ∧
    ((t0 :: ds).map (·.sys)).Pairwise (fun a b => ∃ y, Aligned i y ∧ a < y ∧ y < b) ∧
    ∀ t ∈ ts, ∀ y, Aligned i y → t0.sys < y → y < t.sys → ∃ d ∈ ds, y < d.sys ∧ d.sys ≤ t.sys := by
  obtain ⟨f1, _, f3⟩ := newPeriodic_frame he
  have hN : NextOk i t0.sys e := by
    unfold newPeriodic at he
    simp only [ht, hs, Int.toNat_natCast] at he
    rw [if_neg (by decide)] at he
    rw [Option.map_eq_some_iff] at he
    obtain ⟨p, hp, rfl⟩ := he
    exact alignedPoint_next hi (hal t0 (List.mem_cons_self ..)) hp
  exact aligned_run dm i hi ts e t0.sys f3 (f1 ▸ ht) (f1 ▸ hs) hN hsorted
    (fun t ht => hal t (List.mem_cons_of_mem _ ht)) ds h

/-- Non-vacuity of `C85_partial`: every 900 seconds, runs every 400 seconds. -/
example : let x : Item := ⟨exInterval.comp, exInterval.var, ⟨1, 3, false, .periodicAligned, 900, .custom, none⟩⟩
    ((newPeriodic ⟨0, 100500⟩ x).bind (fun e => eventTimes exDecimal.dm e [⟨0, 500500⟩, ⟨0, 901500⟩, ⟨0, 1301500⟩,
      ⟨0, 1701500⟩, ⟨0, 2101500⟩, ⟨0, 4000000⟩])).map (fun l => l.map (·.sys)) =
    some [901500, 2101500, 4000000] := by
  decide +kernel

/-- C85 is violated: a run within the second after an aligned instant generates an event and computes the same
instant as the next one, so that the next run generates a second event for it, whenever that is. -/
theorem C85_violated (dm : Verif.DM.DM) (e : Entry) (hp : e.periodic = true) (ht : e.mon.type = .periodicAligned)
    (i : Nat) (hi : 0 < i) (hs : seconds e.mon.value = i) (ha : Aligned i e.next) (val : Str)
    (hv : Verif.DM.requestValue dm e.comp e.var .actual true = (.accepted, some val))
    (t t' : Clock) (h1 : e.next < t.sys) (h2 : t.sys < e.next + 1000) (h3 : t.sys ≤ t'.sys) :
    eventTimes dm e [t, t'] = some [t, t'] := by
  have hm := ha.mod
  have hpt : alignedPoint i t.sys = some e.next := by
    obtain ⟨p, q1, q2, q3, q4⟩ := alignedPoint_spec i t.sys hi
    have : p ≤ e.next := q4 _ ha (by omega)
    have : p = e.next := by omega
    rw [q1, this]
  obtain ⟨p', hpt', _⟩ := alignedPoint_spec i t'.sys hi
  have h4 : e.next < t'.sys := by omega
  simp [eventTimes, generate, hp, due, ht, hs, h1, h4, hpt, hpt', hv]

/-- Non-vacuity of `C85_violated`. -/
example : let x : Item := ⟨exInterval.comp, exInterval.var, ⟨1, 3, false, .periodicAligned, 900, .custom, none⟩⟩
    ((newPeriodic ⟨0, 100500⟩ x).bind (fun e => eventTimes exDecimal.dm e [⟨0, 900200⟩, ⟨0, 905200⟩])).map
      (fun l => l.map (·.sys)) = some [900200, 905200] := by
  decide +kernel

/-- C85 is violated: an aligned monitor with an interval below one second is accepted; computing its instant is
undefined behaviour. -/
theorem C85_zero_violated : (setOne .custom ex0 { exQ with type := .periodicAligned, value := 0 }).1 = .accepted ∧
    ∀ t, process exOnline true t ⟨step ex0 (.set { exQ with type := .periodicAligned, value := 0 }), [], 0, []⟩ = none := by
  refine ⟨by decide +kernel, ?_⟩
  intro t
  have h : periodics (step ex0 (.set { exQ with type := .periodicAligned, value := 0 })) =
      [⟨exInterval.comp, exInterval.var, ⟨1, 3, false, .periodicAligned, 0, .custom, none⟩⟩] := by
    decide +kernel
  have hs : (seconds 0).toNat = 0 := by decide +kernel
  simp [process, exOnline, updatePeriodics, h, addPeriodics, entryOf, newPeriodic, alignedPoint, hs]

/-- C82 is violated: a periodic monitor on a variable without a value throws out of the timer's run, once it
is due. -/
theorem C82_value_violated (k : Conf) (t : Clock) (dm : Verif.DM.DM) (uid : Nat) (e : Entry) (r : List Entry)
    (hp : e.periodic = true) (hs : shouldProcess k e.mon = true) (e' : Entry) (hd : due t e = some (true, e'))
    (hv : (Verif.DM.requestValue dm e.comp e.var .actual true).2 = none) :
    iterate k true t dm ⟨[], e :: r, uid, [], false⟩ = ⟨[], e :: r, uid, [], true⟩ := by
  have : generate t dm uid e = none := by
    unfold generate
    simp only [hp, if_true, hd]
    split
    · rename_i h; rw [h] at hv; simp at hv
    · rfl
  simp [iterate, turn, hs, this]

/-! ### C86: ids of events -/

/-- What happens to the updater: a monitor is evaluated, a monitor was changed, the monitors are processed, or
anything in the store of monitors or of variables is changed. -/
inductive GOp
  | ev : Meta → Comp → Vbl → DataType → Bool → Str → Str → GOp
  | upd : Meta → Comp → Vbl → DataType → Bool → Str → GOp
  | proc : Conf → Bool → Clock → GOp
  | store : Store → GOp

/-- One of these; `none` is an exception. -/
def gstep (u : U) : GOp → Option U
  | .ev m c v dt wo old new => evaluate u m c v dt wo old new
  | .upd m c v dt wo cur => onUpdated u m c v dt wo cur
  | .proc k pa t => process k pa t u
  | .store s => some { u with st := s }

/-- A history. -/
def grun : U → List GOp → Option U
  | u, [] => some u
  | u, op :: r => match gstep u op with
    | none => none
    | some w => grun w r

/-- The ids of a list of events. -/
def ids (l : List Event) : List Nat := l.map (·.eventId)

/-- The events waiting in the map. -/
def waiting (map : List Entry) : List Event := map.flatMap (·.events)

/-- Every id below the next one was given at most once, the others never. -/
def IdsOk (u : U) : Prop :=
  ∀ j, (ids u.sent).count j + (ids (waiting u.map)).count j ≤ (if j < u.uid then 1 else 0)

theorem waiting_of {map map' : List Entry} {k : Nat}
    (h : map'.map (·.events) = map.map (·.events) ++ List.replicate k []) : waiting map' = waiting map := by
  unfold waiting
  rw [List.flatMap_def, List.flatMap_def, h]; simp

theorem finish_ids {k : Conf} {pa : Bool} {t : Clock} {dm : Verif.DM.DM} (map : List Entry) :
    ∀ (uid : Nat) (r : List Entry × Nat × List Event), finish k pa t dm uid map = some r →
    uid ≤ r.2.1 ∧ ∀ j, (ids r.2.2).count j + (ids (waiting r.1)).count j ≤
      (ids (waiting map)).count j + (if uid ≤ j ∧ j < r.2.1 then 1 else 0) := by
  induction map with
  | nil =>
    intro uid r h
    simp only [finish] at h
    injection h with h; subst h
    simp [ids, waiting]
  | cons e rest ih =>
    intro uid r h
    simp only [finish] at h
    cases hT : turn k pa t dm uid e with
    | stays x => simp [hT] at h
    | throws => simp [hT] at h
    | moves e' evs uid' =>
      simp only [hT] at h
      rw [Option.map_eq_some_iff] at h
      obtain ⟨y, hy, rfl⟩ := h
      obtain ⟨i1, i2⟩ := ih uid' y hy
      have key : uid ≤ uid' ∧ ∀ j, (ids evs).count j + (ids (waiting e'.toList)).count j ≤
          (ids e.events).count j + (if uid ≤ j ∧ j < uid' then 1 else 0) := by
        unfold turn at hT
        split at hT
        · simp at hT
        · split at hT
          · split at hT
            · simp at hT
            · injection hT with h1 h2 h3
              subst h1; subst h2; subst h3
              simp [ids, waiting]
          · cases hg : generate t dm uid e with
            | none => simp [hg] at hT
            | some x =>
              obtain ⟨e1, u1⟩ := x
              simp only [hg] at hT
              injection hT with h1 h2 h3
              subst h2; subst h3
              obtain ⟨_, _, g3⟩ := generate_frame hg
              obtain ⟨_, _, f3⟩ := deliver_frame k e1
              have hsum : ∀ j, (ids (deliver k e1).2).count j + (ids (waiting e'.toList)).count j ≤ (ids e1.events).count j := by
                intro j
                have hw : (ids (waiting e'.toList)).count j ≤ (ids (deliver k e1).1.events).count j := by
                  rw [← h1]
                  split <;> simp [waiting, ids]
                rcases f3 with ⟨a, b⟩ | ⟨a, b⟩
                · rw [a]; rw [b] at hw; simpa [ids] using hw
                · rw [a]; rw [b] at hw; simp [ids] at hw ⊢; simpa [ids, hw] using hw
              rcases g3 with ⟨a, b⟩ | ⟨a, ev, b, c, _⟩
              · refine ⟨by omega, fun j => ?_⟩
                have := hsum j
                rw [b] at this
                omega
              · refine ⟨by omega, fun j => ?_⟩
                have := hsum j
                rw [b] at this
                simp only [ids, List.map_append, List.map_cons, List.map_nil, c, List.count_append,
                  List.count_singleton] at this
                simp only [ids]
                by_cases hj : uid = j
                · subst hj
                  simp only [beq_self_eq_true, if_true] at this
                  rw [if_pos ⟨le_refl _, by omega⟩]
                  exact this
                · rw [if_neg (by simpa using hj)] at this
                  exact le_trans this (Nat.le_add_right _ _)
      refine ⟨by simp only; omega, fun j => ?_⟩
      have h1 := key.2 j
      have h2 := i2 j
      simp only [ids, waiting, List.map_append, List.flatMap_append, List.count_append, List.flatMap_cons,
        List.map_cons] at h1 h2 ⊢
      have h3 : (if uid ≤ j ∧ j < uid' then 1 else 0) + (if uid' ≤ j ∧ j < y.2.1 then 1 else 0) ≤
          (if uid ≤ j ∧ j < y.2.1 then 1 else 0 : Nat) := by
        split <;> split <;> split <;> omega
      omega

theorem evaluate_ids {u u' : U} {m : Meta} {c : Comp} {v : Vbl} {dt : DataType} {wo : Bool} {old new : Str}
    (hm : MapOk u.map) (hi : IdsOk u) (h : evaluate u m c v dt wo old new = some u') : MapOk u'.map ∧ IdsOk u' := by
  obtain ⟨f1, _, f3, f4, ⟨k, f5⟩, _⟩ := evaluate_frame h hm
  refine ⟨f1, ?_⟩
  unfold IdsOk
  rw [f3, f4, waiting_of f5]
  exact hi

theorem IdsOk.step {u u' : U} (hm : MapOk u.map) (hi : IdsOk u) (op : GOp) (h : gstep u op = some u') :
    MapOk u'.map ∧ IdsOk u' := by
  cases op with
  | store s =>
    simp only [gstep] at h
    injection h with h; subst h
    exact ⟨hm, hi⟩
  | ev m c v dt wo old new => exact evaluate_ids hm hi h
  | upd m c v dt wo cur =>
    simp only [gstep, onUpdated] at h
    split at h
    · injection h with h; subst h; exact ⟨hm, hi⟩
    · have hev : (u.map.map (fun x => if x.mon.id == m.id then { x with mon := m } else x)).map (·.events) =
          u.map.map (·.events) ++ List.replicate 0 [] := by
        rw [List.map_map]
        simp only [List.replicate_zero, List.append_nil]
        apply List.map_congr_left
        intro x _
        simp only [Function.comp]
        split <;> rfl
      have hmap : MapOk (u.map.map (fun x => if x.mon.id == m.id then { x with mon := m } else x)) := by
        refine ⟨?_, ?_⟩
        · rw [List.pairwise_map]
          apply hm.unique.imp
          intro a b hab
          by_cases ha : a.mon.id = m.id <;> by_cases hb : b.mon.id = m.id <;> simp [ha, hb] <;> simp_all
        · intro e he ev hev'
          obtain ⟨x, hx, rfl⟩ := List.mem_map.mp he
          by_cases hxi : x.mon.id = m.id
          · simp only [hxi, beq_self_eq_true, if_true] at hev' ⊢
            rw [← hxi]; exact hm.events x hx ev hev'
          · have : (x.mon.id == m.id) = false := by simpa using hxi
            simp only [this, Bool.false_eq_true, if_false] at hev' ⊢
            exact hm.events x hx ev hev'
      have hids : IdsOk { u with map := u.map.map (fun x => if x.mon.id == m.id then { x with mon := m } else x) } := by
        unfold IdsOk
        simp only [waiting_of hev]
        exact hi
      split at h
      · exact evaluate_ids hmap hids h
      · injection h with h; subst h; exact ⟨hmap, hids⟩
  | proc k pa t =>
    simp only [gstep] at h
    unfold process at h
    split at h
    · injection h with h; subst h; exact ⟨hm, hi⟩
    · cases hmp : (if pa then updatePeriodics t u.st u.map else some u.map) with
      | none => simp [hmp] at h
      | some map =>
        simp only [hmp] at h
        rw [Option.map_eq_some_iff] at h
        obtain ⟨r, hr, rfl⟩ := h
        have hmap : MapOk map ∧ ∀ j, (ids (waiting map)).count j ≤ (ids (waiting u.map)).count j := by
          cases pa with
          | false => simp at hmp; subst hmp; exact ⟨hm, fun _ => le_refl _⟩
          | true =>
            simp only [if_true] at hmp
            refine ⟨(updatePeriodics_frame hm hmp).1, ?_⟩
            unfold updatePeriodics at hmp
            rw [Option.map_eq_some_iff] at hmp
            obtain ⟨m1, h1, rfl⟩ := hmp
            obtain ⟨_, _, k, h2⟩ := addPeriodics_frame _ hm h1
            intro j
            rw [← waiting_of h2]
            apply List.Sublist.count_le
            unfold ids waiting
            exact ((List.filter_sublist).flatMap _).map _
        obtain ⟨q1, q2⟩ := finish_ids map u.uid r hr
        refine ⟨(finish_frame 0 hmap.1 hr).1, ?_⟩
        intro j
        have a := hi j
        have b := q2 j
        have c := hmap.2 j
        simp only [ids, List.map_append, List.count_append] at a b c ⊢
        split at a <;> split at b <;> split <;> omega

/-- C86: whatever happens, no two events sent since the start of the station have the same id. -/
theorem C86 (u0 : U) (hmap : u0.map = []) (hsent : u0.sent = []) (ops : List GOp) (u : U) (h : grun u0 ops = some u) :
    (u.sent.map (·.eventId)).Nodup := by
  have : ∀ (ops : List GOp) (u0 : U), MapOk u0.map → IdsOk u0 → grun u0 ops = some u → IdsOk u := by
    intro ops
    induction ops with
    | nil => intro u0 _ hi h; simp only [grun] at h; injection h with h; exact h ▸ hi
    | cons op r ih =>
      intro u0 hm hi h
      simp only [grun] at h
      cases hs : gstep u0 op with
      | none => simp [hs] at h
      | some w =>
        simp only [hs] at h
        obtain ⟨a, b⟩ := hi.step hm op hs
        exact ih w a b h
  have hi := this ops u0 (by rw [hmap]; exact ⟨by simp, by simp⟩) (by intro j; simp [hmap, hsent, ids, waiting]) h
  rw [List.nodup_iff_count_le_one]
  intro j
  have := hi j
  simp only [ids] at this
  split at this <;> omega

/-- Non-vacuity of `C86`. -/
example : (acts exAlarm [w "70", .proc exOnline true ⟨0, 0⟩, w "40", .proc exOnline true ⟨1, 1⟩]).map
      (fun u => u.sent.map (·.eventId)) = some [0, 1] := by
  decide +kernel

/-! ### C37: write-only variables -/

/-- The events of a monitor hold no value. -/
structure HideOk (i : Nat) (u : U) : Prop where
  map : MapOk u.map
  mem : ∀ x ∈ u.st.mem, x.mon.id = i → x.mon.type ≠ .periodic ∧ x.mon.type ≠ .periodicAligned
  ent : ∀ e, entryOf u.map i = some e → e.periodic = false ∧ e.writeOnly = true ∧ ∀ ev ∈ e.events, ev.value = []
  sent : ∀ ev ∈ u.sent, ev.monId = i → ev.value = []

theorem evaluateEntry_hide {m : Meta} {c : Comp} {v : Vbl} {new : Str} {t : Bool} {old : Option Entry} {e' : Entry}
    (h : evaluateEntry m c v true new t old = some (some e'))
    (ho : ∀ e, old = some e → e.periodic = false ∧ e.writeOnly = true ∧ ∀ ev ∈ e.events, ev.value = []) :
    e'.periodic = false ∧ e'.writeOnly = true ∧ ∀ ev ∈ e'.events, ev.value = [] := by
  have setc : ∀ {e : Entry} {b : Bool} {e2 : Entry}, setClear e b = some e2 →
      e2.periodic = e.periodic ∧ e2.writeOnly = e.writeOnly ∧ e2.events = e.events := by
    intro e b e2 h
    unfold setClear at h
    split at h
    · simp at h
    · split at h <;> (injection h with h; subst h; exact ⟨rfl, rfl, rfl⟩)
  cases old with
  | none =>
    unfold evaluateEntry at h
    cases t with
    | false => simp at h
    | true =>
      simp only [Option.map_none, Option.getD_none, if_true] at h
      split at h
      · simp [newTrigger] at *
      · split at h
        · injection h with h; injection h with h; subst h
          simp [newTrigger]
        · injection h with h; injection h with h; subst h
          simp [newTrigger]
  | some e =>
    obtain ⟨q1, q2, q3⟩ := ho e rfl
    unfold evaluateEntry at h
    cases t with
    | false =>
      simp only [Option.map_some, Bool.false_eq_true, if_false] at h
      split at h
      · rw [Option.map_eq_some_iff] at h
        obtain ⟨e2, h2, h3⟩ := h
        injection h3 with h3; subst h3
        obtain ⟨a, b, c⟩ := setc h2
        rw [a, b, c]; exact ⟨q1, q2, q3⟩
      · injection h with h; injection h with h; subst h
        exact ⟨q1, q2, q3⟩
    | true =>
      simp only [Option.map_some, Option.getD_some, if_true] at h
      split at h
      · rw [Option.map_eq_some_iff] at h
        obtain ⟨e2, h2, h3⟩ := h
        injection h3 with h3; subst h3
        obtain ⟨a, b, c⟩ := setc h2
        rw [a, b, c]; exact ⟨q1, q2, q3⟩
      · split at h
        · injection h with h; injection h with h; subst h
          exact ⟨q1, q2, q3⟩
        · injection h with h; injection h with h; subst h
          exact ⟨q1, q2, q3⟩

theorem HideOk.proc {i : Nat} {u u' : U} {k : Conf} {pa : Bool} {t : Clock} (h : HideOk i u)
    (hp : process k pa t u = some u') : HideOk i u' := by
  unfold process at hp
  split at hp
  · injection hp with hp; subst hp; exact h
  · cases hmp : (if pa then updatePeriodics t u.st u.map else some u.map) with
    | none => simp [hmp] at hp
    | some map =>
      have hmok : MapOk map ∧ entryOf map i = entryOf u.map i := by
        cases pa with
        | false => simp at hmp; subst hmp; exact ⟨h.map, rfl⟩
        | true =>
          simp only [if_true] at hmp
          obtain ⟨p1, p2⟩ := updatePeriodics_frame h.map hmp
          refine ⟨p1, p2 i ?_ (fun e he => (h.ent e he).1)⟩
          intro x hx hi
          obtain ⟨hx1, hx2⟩ := List.mem_filter.mp hx
          have := h.mem x hx1 hi
          simp only [Bool.or_eq_true, beq_iff_eq] at hx2
          tauto
      simp only [hmp] at hp
      rw [Option.map_eq_some_iff] at hp
      obtain ⟨r, hr, rfl⟩ := hp
      obtain ⟨r1, _, r3, r4⟩ := finish_frame i hmok.1 hr
      cases ho : entryOf u.map i with
      | none =>
        obtain ⟨s1, s2⟩ := r3 (hmok.2.trans ho)
        refine ⟨r1, h.mem, fun e he => by simp [s1] at he, ?_⟩
        intro ev hev hid
        rcases List.mem_append.mp hev with hev | hev
        · exact h.sent ev hev hid
        · have : ev ∈ r.2.2.filter (fun ev => ev.monId == i) := List.mem_filter.mpr ⟨hev, by simp [hid]⟩
          rw [s2] at this; simp at this
      | some e =>
        obtain ⟨q1, q2, q3⟩ := h.ent e ho
        obtain ⟨n1, n2, e', evs, hT, s1, s2⟩ := r4 e (hmok.2.trans ho)
        have key : (∀ x, e' = some x → x.periodic = false ∧ x.writeOnly = true ∧ ∀ ev ∈ x.events, ev.value = []) ∧
            ∀ ev ∈ evs, ev.value = [] := by
          unfold turn at hT
          simp only [q1, Bool.and_false, Bool.false_eq_true, if_false] at hT
          split at hT
          · injection hT with a b c; subst a; subst b; simp
          · cases hg : generate t u.st.dm n1 e with
            | none => simp [hg] at hT
            | some y =>
              obtain ⟨e1, n3⟩ := y
              have he1 : e1.periodic = false ∧ e1.writeOnly = true ∧ ∀ ev ∈ e1.events, ev.value = [] := by
                unfold generate at hg
                simp only [q1, Bool.false_eq_true, if_false] at hg
                split at hg
                · injection hg with hg; injection hg with a b; subst a; exact ⟨q1, q2, q3⟩
                · injection hg with hg; injection hg with a b; subst a
                  refine ⟨rfl, q2, ?_⟩
                  intro ev hev
                  rcases List.mem_append.mp hev with hev | hev
                  · exact q3 ev hev
                  · simp only [List.mem_singleton] at hev
                    subst hev; simp [newEvent, q2]
              simp only [hg] at hT
              injection hT with a b c
              have hd : (deliver k e1).1.periodic = false ∧ (deliver k e1).1.writeOnly = true ∧
                  (∀ ev ∈ (deliver k e1).1.events, ev.value = []) ∧ ∀ ev ∈ (deliver k e1).2, ev.value = [] := by
                unfold deliver
                split
                · exact ⟨he1.1, he1.2.1, he1.2.2, by simp⟩
                · rw [he1.1]; simp; exact ⟨he1.2.1, he1.2.2⟩
              constructor
              · intro x hx
                rw [← a] at hx
                split at hx
                · simp at hx
                · injection hx with hx; subst hx; exact ⟨hd.1, hd.2.1, hd.2.2.1⟩
              · rw [← b]; exact hd.2.2.2
        refine ⟨r1, h.mem, fun x hx => key.1 x (s1 ▸ hx), ?_⟩
        intro ev hev hid
        rcases List.mem_append.mp hev with hev | hev
        · exact h.sent ev hev hid
        · have : ev ∈ r.2.2.filter (fun ev => ev.monId == i) := List.mem_filter.mpr ⟨hev, by simp [hid]⟩
          rw [s2] at this; exact key.2 ev this

/-- C37: the events of threshold and delta monitors on a write-only variable hold no value, whatever its
history.  Periodic ones: see `C37_periodic_violated`. -/
theorem C37_events (i : Nat) (u0 : U) (hmap : u0.map = []) (hsent : u0.sent = [])
    (hmem : ∀ x ∈ u0.st.mem, x.mon.id = i → x.mon.type ≠ .periodic ∧ x.mon.type ≠ .periodicAligned) (ops : List HOp)
    (hev : ∀ m c v dt wo old new, .ev m c v dt wo old new ∈ ops → m.id = i → wo = true)
    (u : U) (h : hrun u0 ops = some u) : ∀ ev ∈ u.sent, ev.monId = i → ev.value = [] := by
  have : ∀ (ops : List HOp) (u0 : U), HideOk i u0 →
      (∀ m c v dt wo old new, .ev m c v dt wo old new ∈ ops → m.id = i → wo = true) →
      hrun u0 ops = some u → HideOk i u := by
    intro ops
    induction ops with
    | nil => intro u0 hk _ h; simp only [hrun] at h; injection h with h; exact h ▸ hk
    | cons op r ih =>
      intro u0 hk he h
      simp only [hrun] at h
      cases hs : hstep u0 op with
      | none => simp [hs] at h
      | some w =>
        simp only [hs] at h
        refine ih w ?_ (fun m c v dt wo old new hm => he m c v dt wo old new (List.mem_cons_of_mem _ hm)) h
        cases op with
        | proc k pa t => exact hk.proc hs
        | ev m c v dt wo old new =>
          simp only [hstep] at hs
          obtain ⟨f1, f2, f3, _, _, f6, f7, f8⟩ := evaluate_frame hs hk.map
          refine ⟨f1, ?_, ?_, by rw [f3]; exact hk.sent⟩
          · intro x hx hi
            obtain ⟨y, hy, y1, y2⟩ := f6 x hx
            rw [← y2]; exact hk.mem y hy (y1.trans hi)
          · intro e hE
            by_cases hid : m.id = i
            · by_cases hper : m.type = .periodic ∨ m.type = .periodicAligned
              · rw [f7 hper] at hE; exact hk.ent e hE
              · obtain ⟨t, _, ht⟩ := f8 hper
                have hwo : wo = true := he m c v dt wo old new (List.mem_cons_self ..) hid
                rw [hid, hE, hwo] at ht
                exact evaluateEntry_hide ht hk.ent
            · rw [f2 i (fun h => hid h.symm)] at hE
              exact hk.ent e hE
  exact (this ops u0 ⟨by rw [hmap]; exact ⟨by simp, by simp⟩, hmem, by simp [hmap, entryOf], by simp [hsent]⟩ hev h).sent

/-- C37 is violated by periodic monitors: the value of a write-only variable is sent to the CSMS. -/
theorem C37_periodic_violated : ∃ q : Request,
    (setOne .custom ex0 q).1 = .accepted ∧
    (∃ e ∈ ex0.dm, e.comp = q.comp ∧ e.var = q.var ∧ ∃ a, Verif.DM.attrOf e .actual = some a ∧
      a.mutability = some .writeOnly ∧
      ∃ u, acts ⟨step ex0 (.set q), [], 0, []⟩ [.proc exOnline true ⟨0, 0⟩, .proc exOnline true ⟨61000, 61000⟩] = some u ∧
        ∃ ev ∈ u.sent, some ev.value = a.value) := by
  refine ⟨{ exQ with comp := exPassword.comp, var := exPassword.var }, by decide +kernel, exPassword,
    by simp [ex0, Verif.DM.exDM], rfl, rfl, ⟨.actual, some "secret".toList, some .writeOnly⟩, by decide +kernel, rfl,
    (acts ⟨step ex0 (.set { exQ with comp := exPassword.comp, var := exPassword.var }), [], 0, []⟩
      [.proc exOnline true ⟨0, 0⟩, .proc exOnline true ⟨61000, 61000⟩]).get (by decide +kernel), by simp,
    by decide +kernel⟩

/-- Non-vacuity of `C37_events`: the same with a delta monitor, and another password. -/
example : (acts ⟨step ex0 (.set { exQ with comp := exPassword.comp, var := exPassword.var, type := .delta, value := 1 }),
      [], 0, []⟩ [.write exPassword.comp exPassword.var "swordfish".toList, .proc exOnline true ⟨0, 0⟩]).map
      (fun u => u.sent.map (fun e => (e.monId, e.value))) = some [(1, [])] := by
  decide +kernel

end Verif.Mon
