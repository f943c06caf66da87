import Verif.Prof16.Spec
import Mathlib.Data.List.Perm.Subperm

namespace Verif.Prof16

set_option linter.constructorNameAsVariable false

/-- Profiles are removed from memory, and their ids from the database. -/
def removeIf (s : S) (P : Entry → Bool) : S :=
  { s with
    mem := s.mem.filter (fun e => !P e)
    db := (s.mem.filter P).foldl (fun db e => delete db e.prof.id) s.db }

theorem clear_eq (s : S) (f : Filter) : clear s f = removeIf s f.hits := rfl
theorem clearExpired_eq (s : S) (now : Int) : clearExpired s now = removeIf s (fun e => expired now e.prof) := rfl

theorem foldl_delete (l : List Entry) : ∀ db : List Entry, l.foldl (fun db e => delete db e.prof.id) db =
    db.filter (fun r => l.all (fun e => r.prof.id != e.prof.id)) := by
  induction l with
  | nil => intro db; simp only [List.foldl_nil, List.all_nil]; exact (List.filter_eq_self.mpr (fun _ _ => rfl)).symm
  | cons e l ih =>
    intro db
    rw [List.foldl_cons, ih, delete, List.filter_filter]
    congr 1
    funext r
    simp only [List.all_cons]
    rw [Bool.and_comm]

theorem mem_removeIf {s : S} {P : Entry → Bool} {e : Entry} : e ∈ (removeIf s P).mem ↔ e ∈ s.mem ∧ P e = false := by
  simp [removeIf, List.mem_filter]

theorem db_removeIf {s : S} {P : Entry → Bool} {r : Entry} : r ∈ (removeIf s P).db ↔ r ∈ s.db ∧ ∀ e ∈ s.mem, P e = true → r.prof.id ≠ e.prof.id := by
  simp only [removeIf, foldl_delete, List.mem_filter, List.all_eq_true, bne_iff_ne, and_imp]

theorem mem_put {m : List Entry} {e x : Entry} : x ∈ put m e ↔ x = e ∨
    (x ∈ m ∧ ¬ (x.conn = e.conn ∧ x.prof.purpose = e.prof.purpose ∧ x.prof.level = e.prof.level)) := by
  simp only [put, List.mem_append, List.mem_filter, List.mem_singleton, Bool.not_eq_true', Bool.and_eq_false_iff, beq_eq_false_iff_ne, ne_eq]
  tauto

theorem mem_puts (p : Profile) : ∀ (l : List Nat) (m : List Entry) (x : Entry), x ∈ l.foldl (fun m t => put m { conn := t, prof := p }) m ↔
    (x.prof = p ∧ x.conn ∈ l) ∨ (x ∈ m ∧ ¬ (x.conn ∈ l ∧ x.prof.purpose = p.purpose ∧ x.prof.level = p.level)) := by
  intro l
  induction l with
  | nil => intro m x; simp
  | cons t l ih =>
    intro m x
    rw [List.foldl_cons, ih, mem_put]
    have e1 : x = (⟨t, p⟩ : Entry) ↔ x.conn = t ∧ x.prof = p := by cases x; simp
    rw [e1]
    simp only [List.mem_cons]
    constructor
    · rintro (⟨h1, h2⟩ | ⟨⟨h1, h2⟩ | ⟨h1, h2⟩, h3⟩)
      · exact .inl ⟨h1, .inr h2⟩
      · exact .inl ⟨h2, .inl h1⟩
      · refine .inr ⟨h1, ?_⟩
        rintro ⟨h4 | h4, h5⟩
        · exact h2 ⟨h4, h5⟩
        · exact h3 ⟨h4, h5⟩
    · rintro (⟨h1, h2 | h2⟩ | ⟨h1, h2⟩)
      · by_cases h : x.conn ∈ l
        · exact .inl ⟨h1, h⟩
        · exact .inr ⟨.inl ⟨h2, h1⟩, fun h' => h h'.1⟩
      · exact .inl ⟨h1, h2⟩
      · exact .inr ⟨.inr ⟨h1, fun h => h2 ⟨.inl h.1, h.2⟩⟩, fun h => h2 ⟨.inr h.1, h.2⟩⟩

theorem mem_targets {cfg : Cfg} {c t : Nat} {p : Profile} : t ∈ targets cfg c p ↔ Concerns cfg c p.purpose t := by
  unfold targets Concerns
  cases p.purpose with
  | max => simp
  | tx => simp
  | txDefault =>
    simp only
    split
    · simp only [List.mem_map, List.mem_range]
      constructor
      · rintro ⟨a, h, rfl⟩; omega
      · rintro ⟨h1, h2⟩; exact ⟨t - 1, by omega, by omega⟩
    · simp

theorem targets_nodup (cfg : Cfg) (c : Nat) (p : Profile) : (targets cfg c p).Nodup := by
  unfold targets
  split
  · simp
  · split
    · rw [List.nodup_iff_pairwise_ne, List.pairwise_map]
      exact (List.nodup_iff_pairwise_ne.mp List.nodup_range).imp (fun h => by omega)
    · simp
  · simp

theorem mem_store {db : List Entry} {e r : Entry} : r ∈ store db e ↔ r = e ∨
    (r ∈ db ∧ ¬ (r.prof.level = e.prof.level ∧ r.prof.purpose = e.prof.purpose) ∧ r.prof.id ≠ e.prof.id) := by
  simp only [store, List.mem_append, List.mem_filter, List.mem_singleton, Bool.not_eq_true', Bool.and_eq_false_iff, beq_eq_false_iff_ne, ne_eq, bne_iff_ne]
  tauto

/-- The conditions that do not depend on the state. -/
def Stat (cfg : Cfg) (c : Nat) (p : Profile) : Prop :=
  c ≤ cfg.connectors ∧ (0 ≤ p.level ∧ p.level ≤ cfg.maxLevel) ∧ scheduleOk cfg p = true ∧ (p.kind ≠ .relative → p.start ≠ none) ∧
  (p.kind = .recurring → p.recurrency ≠ none ∧ ∀ d, p.duration = some d → d ≤ longest p.recurrency) ∧
  (p.purpose = .max → c = 0 ∧ p.kind ≠ .relative) ∧ (p.purpose = .tx → c ≠ 0)

theorem withStart_iff {cfg : Cfg} {now : Int} {p q : Profile} : withStart cfg now p = some q ↔
    (p.start ≠ none ∨ cfg.allowNoStart = true) ∧ q = { p with start := some (p.start.getD now) } := by
  unfold withStart
  cases h : p.start with
  | some t =>
    simp only [Option.isSome_some, if_true, Option.some.injEq, ne_eq, reduceCtorEq, not_false_eq_true, true_or, true_and, Option.getD_some]
    have : ({ p with start := some t } : Profile) = p := by rw [← h]
    rw [this]; exact eq_comm
  | none =>
    simp only [Option.isSome_none, Bool.false_eq_true, if_false, ne_eq, not_true_eq_false, false_or, Option.getD_none]
    split
    · rename_i h'; simp only [h', Option.some.injEq, true_and]; exact eq_comm
    · rename_i h'; simp [h']

theorem min_longest (r : Option Recurrency) (d : Int) : (if d > longest r then longest r else d) = min d (if r = some .daily then 86400 else 604800) := by
  have : longest r = if r = some .daily then 86400 else 604800 := by
    cases r with
    | none => rfl
    | some r => cases r <;> rfl
  rw [this]
  generalize (if r = some Recurrency.daily then (86400 : Int) else 604800) = k
  split <;> omega

theorem scheduleOk_iff {cfg : Cfg} {p : Profile} : scheduleOk cfg p = true ↔ (0 ≤ cfg.maxPeriods → (p.periods.length : Int) ≤ cfg.maxPeriods) ∧ p.unit ∈ cfg.units ∧
    ∀ q ∈ p.periods, 0 ≤ q.limit ∧ ∀ n, q.phases = some n → 1 ≤ n ∧ n ≤ 3 := by
  have hp : ∀ q, periodOk q = true ↔ 0 ≤ q.limit ∧ ∀ n, q.phases = some n → 1 ≤ n ∧ n ≤ 3 := by
    intro q
    unfold periodOk
    cases q.phases with
    | none => simp
    | some n =>
      simp only [Bool.and_eq_true, Bool.not_eq_true', Bool.or_eq_false_iff, decide_eq_false_iff_not, Option.some.injEq, forall_eq']
      omega
  simp only [scheduleOk, Bool.and_eq_true, Bool.not_eq_true', Bool.and_eq_false_iff, decide_eq_false_iff_not, List.contains_eq_mem, decide_eq_true_eq, List.all_eq_true, hp]
  constructor
  · rintro ⟨⟨h1, h2⟩, h3⟩; exact ⟨by omega, h2, h3⟩
  · rintro ⟨h1, h2, h3⟩; exact ⟨⟨by omega, h2⟩, h3⟩

theorem txOk_iff {s : S} {c : Nat} {p : Profile} {b : Bool} : txOk s c p b = true ↔
    c ≠ 0 ∧ (b = false → s.tx c ≠ none) ∧ ∀ i, p.txId = some i → s.tx c = some (some i) := by
  unfold txOk
  by_cases hc : c = 0
  · simp [hc]
  · simp only [hc, if_false]
    cases b <;> cases h : s.tx c <;> cases h' : p.txId <;> simp [hc]

theorem purposeOk_iff {s : S} {c : Nat} {p : Profile} {b : Bool} : purposeOk s c p b = true ↔ (p.purpose = .max → c = 0 ∧ p.kind ≠ .relative) ∧
    (p.purpose = .tx → c ≠ 0 ∧ (b = false → s.tx c ≠ none) ∧ ∀ i, p.txId = some i → s.tx c = some (some i)) := by
  unfold purposeOk
  cases h : p.purpose with
  | max => simp
  | txDefault => simp
  | tx => simpa using txOk_iff

/-- The profile after the first of the two parts that change it. -/
def adj1 (now : Int) (p : Profile) : Profile := if p.kind = .absolute then { p with start := some (p.start.getD now) } else p

theorem adj1_iff {cfg : Cfg} {now : Int} {p q : Profile} : (if p.kind = .absolute then withStart cfg now p else some p) = some q ↔
    (p.kind = .absolute → p.start ≠ none ∨ cfg.allowNoStart = true) ∧ q = adj1 now p := by
  unfold adj1
  split
  · rename_i h; rw [withStart_iff]; simp [h]
  · rename_i h; simp only [Option.some.injEq, h, false_implies, true_and]; exact eq_comm

theorem rec_iff {cfg : Cfg} {now : Int} {p q : Profile} : recurringOk cfg now p = some q ↔
    (p.kind = .recurring → p.recurrency ≠ none ∧ (p.start ≠ none ∨ cfg.allowNoStart = true)) ∧
    q = if p.kind = .recurring then withDuration { p with start := some (p.start.getD now) } else p := by
  unfold recurringOk
  split
  · rename_i h
    split
    · rename_i h'; simp only [Option.isNone_iff_eq_none] at h'; simp [h, h']
    · rename_i h'
      simp only [Option.isNone_iff_eq_none] at h'
      simp only [Option.map_eq_some_iff, withStart_iff]
      constructor
      · rintro ⟨a, ⟨h1, rfl⟩, rfl⟩; exact ⟨fun _ => ⟨h', h1⟩, rfl⟩
      · rintro ⟨h1, rfl⟩; exact ⟨_, ⟨(h1 h).2, rfl⟩, rfl⟩
  · rename_i h; simp only [Option.some.injEq, h, false_implies, true_and]; exact eq_comm

theorem adjusted_eq (now : Int) (p : Profile) : (if (adj1 now p).kind = .recurring then withDuration { (adj1 now p) with start := some ((adj1 now p).start.getD now) } else adj1 now p) =
    adjusted now p := by
  unfold adj1 adjusted
  cases hk : p.kind with
  | absolute => simp
  | relative => simp only [reduceCtorEq, if_false, if_true, hk]; rw [← hk]
  | recurring => simp [hk, withDuration, min_longest]

theorem validate_iff {cfg : Cfg} {s : S} {now c : Int} {p q : Profile} {b : Bool} :
    validate cfg s now p c b = some q ↔ Valid cfg s c p b ∧ q = adjusted now p := by
  have hsame : ∀ now p, (adjusted now p).purpose = p.purpose ∧ (adjusted now p).kind = p.kind ∧ (adjusted now p).txId = p.txId := fun _ _ => ⟨rfl, rfl, rfl⟩
  have hsame1 : ∀ now p, (adj1 now p).kind = p.kind ∧ (adj1 now p).recurrency = p.recurrency ∧ (adj1 now p).periods = p.periods ∧ (adj1 now p).unit = p.unit := by
    intro now p; unfold adj1; split <;> exact ⟨rfl, rfl, rfl, rfl⟩
  have hst : p.kind = .recurring → (adj1 now p).start = p.start := by intro h; unfold adj1; rw [if_neg (by simp [h])]
  have hsch : scheduleOk cfg (adj1 now p) = scheduleOk cfg p := by
    unfold scheduleOk; rw [(hsame1 now p).2.2.1, (hsame1 now p).2.2.2]
  unfold validate
  split
  · rename_i h
    simp only [Bool.or_eq_true, decide_eq_true_eq] at h
    simp only [reduceCtorEq, false_iff, not_and]
    intro v; have := v.conn; have := v.level; omega
  · rename_i h
    simp only [Bool.or_eq_true, decide_eq_true_eq, not_or, Int.not_lt] at h
    generalize h1 : (if p.kind = .absolute then withStart cfg now p else some p) = o1
    cases o1 with
    | none =>
      simp only [reduceCtorEq, false_iff, not_and]
      intro v
      exfalso
      have : (if p.kind = .absolute then withStart cfg now p else some p) = some (adj1 now p) :=
        adj1_iff.mpr ⟨fun hk => v.start (by simp [hk]), rfl⟩
      rw [h1] at this; simp at this
    | some p1 =>
      obtain ⟨ha, rfl⟩ := adj1_iff.mp h1
      simp only
      split
      · rename_i hr
        simp only [reduceCtorEq, false_iff, not_and]
        intro v; have := v.room; omega
      · rename_i hr
        rw [hsch]
        split
        · rename_i hs
          simp only [reduceCtorEq, false_iff, not_and]
          intro v
          exfalso
          apply absurd (scheduleOk_iff.mpr ⟨v.periods, v.unit, v.limits⟩)
          simpa using hs
        · rename_i hs
          have hs := scheduleOk_iff.mp (by simpa using hs)
          generalize h2 : recurringOk cfg now (adj1 now p) = o2
          have hrec : recurringOk cfg now (adj1 now p) = o2 := h2
          cases o2 with
          | none =>
            simp only [reduceCtorEq, false_iff, not_and]
            intro v
            exfalso
            have : recurringOk cfg now (adj1 now p) = some (adjusted now p) :=
              rec_iff.mpr ⟨fun hk => by
                rw [(hsame1 now p).1] at hk
                rw [(hsame1 now p).2.1, hst hk]
                exact ⟨v.recurring hk, v.start (by simp [hk])⟩, (adjusted_eq now p).symm⟩
            rw [h2] at this; simp at this
          | some p2 =>
            obtain ⟨hb, rfl⟩ := rec_iff.mp h2
            simp only [adjusted_eq]
            rw [(hsame1 now p).1, (hsame1 now p).2.1] at hb
            split
            · rename_i hp
              rw [purposeOk_iff, (hsame now p).1, (hsame now p).2.1, (hsame now p).2.2] at hp
              simp only [Option.some.injEq]
              constructor
              · rintro rfl
                refine ⟨⟨by omega, by omega, by omega, hs.1, hs.2.1, hs.2.2, ?_, fun hk => (hb hk).1, ?_, ?_⟩, rfl⟩
                · intro hk
                  cases hk' : p.kind with
                  | absolute => exact ha hk'
                  | relative => exact absurd hk' hk
                  | recurring => have := (hb hk').2; rwa [hst hk'] at this
                · intro hm; exact ⟨by have := (hp.1 hm).1; omega, (hp.1 hm).2⟩
                · intro hm; exact ⟨by have := (hp.2 hm).1; omega, (hp.2 hm).2⟩
              · rintro ⟨_, rfl⟩; rfl
            · rename_i hp
              simp only [reduceCtorEq, false_iff, not_and]
              intro v
              exfalso
              apply hp
              rw [purposeOk_iff, (hsame now p).1, (hsame now p).2.1, (hsame now p).2.2]
              refine ⟨fun hm => ⟨by have := (v.max hm).1; omega, (v.max hm).2⟩, fun hm => ⟨?_, (v.tx hm).2⟩⟩
              have := (v.tx hm).1
              omega

end Verif.Prof16
