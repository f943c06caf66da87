import Verif.Meter.Model

/-!
C48: the meter values stored for a transaction are read back.
-/
set_option linter.constructorNameAsVariable false

namespace Verif.Met

/-- All samples were taken in the context. -/
def InContext (m : Meter) (c : Ctx) : Prop := m.samples ≠ [] ∧ ∀ s ∈ m.samples, s.context = some c

instance (m : Meter) (c : Ctx) : Decidable (InContext m c) := inferInstanceAs (Decidable (_ ∧ _))

/-- What a history of calls shall keep: the values (with one context, and none twice at the same time in the same context) in their order, until
those of the transaction are cleared. -/
def keepStep (l : List (Nat × Meter)) : DbOp → List (Nat × Meter)
  | .insert tx m =>
    if (∃ c ∈ [Ctx.interruptionBegin, .interruptionEnd, .other, .clock, .periodic, .txBegin, .txEnd, .trigger], InContext m c ∧
        ∀ p ∈ l, ¬ (p.1 = tx ∧ p.2.time = m.time ∧ InContext p.2 c)) then l ++ [(tx, m)] else l
  | .clear tx => l.filter (fun p => p.1 != tx)

/-- The values kept. -/
def kept (ops : List DbOp) : List (Nat × Meter) := ops.foldl keepStep []

/-- The value has no custom data, its signatures are complete, its units are not empty, and all its samples have the same optional parts. -/
structure Plain (m : Meter) : Prop where
  custom : ∀ s ∈ m.samples, s.custom = none
  signed : ∀ s ∈ m.samples, ∀ g, s.signed = some g → g.method.isSome ∧ g.key.isSome
  unit : ∀ s ∈ m.samples, ∀ u, s.unit = some u → u.custom = none ∧ (u.unit.isSome ∨ u.mult.isSome)
  same : ∀ s ∈ m.samples, ∀ s' ∈ m.samples, (s.location.isSome → s'.location.isSome) ∧
    (∀ u, s.unit = some u → ∃ u', s'.unit = some u' ∧ (u.unit.isSome → u'.unit.isSome) ∧ (u.mult.isSome → u'.mult.isSome))

/-- What the bindings of the statement must be like for the samples to come. -/
structure Bound (b : Cols) (l : List Sample) : Prop where
  custom : b.custom = none
  unitCustom : b.unitCustom = none
  location : b.location.isSome → ∀ s ∈ l, s.location.isSome
  unitText : b.unitText.isSome → ∀ s ∈ l, ∃ u, s.unit = some u ∧ u.unit.isSome
  unitMult : b.unitMult.isSome → ∀ s ∈ l, ∃ u, s.unit = some u ∧ u.mult.isSome

theorem Plain.tail {t : Int} {s : Sample} {l : List Sample} (h : Plain ⟨t, s :: l⟩) : Plain ⟨t, l⟩ :=
  ⟨fun x hx => h.custom x (List.mem_cons_of_mem _ hx), fun x hx => h.signed x (List.mem_cons_of_mem _ hx),
    fun x hx => h.unit x (List.mem_cons_of_mem _ hx), fun x hx y hy => h.same x (List.mem_cons_of_mem _ hx) y (List.mem_cons_of_mem _ hy)⟩

theorem bindSample_location (b : Cols) (s : Sample) : (bindSample b s).location = s.location.or b.location := by
  unfold bindSample bindSigned bindUnit
  cases s.signed <;> cases s.unit <;> cases s.location <;> rfl

theorem bindSample_custom (b : Cols) (s : Sample) (h : s.custom = none) : (bindSample b s).custom = b.custom := by
  unfold bindSample bindSigned bindUnit
  cases s.signed <;> cases s.unit <;> simp [h]

theorem bindSample_values (b : Cols) (s : Sample) : (bindSample b s).value = s.value ∧ (bindSample b s).measurand = s.measurand ∧
    (bindSample b s).phase = s.phase := by
  unfold bindSample bindSigned bindUnit
  cases s.signed <;> cases s.unit <;> exact ⟨rfl, rfl, rfl⟩

theorem bindSample_unit (b : Cols) (s : Sample) : (bindSample b s).unitText = (s.unit.bind (·.unit)).or b.unitText ∧
    (bindSample b s).unitMult = (s.unit.bind (·.mult)).or b.unitMult ∧
    (bindSample b s).unitCustom = ((s.unit.bind (·.custom)).map vendor).or b.unitCustom := by
  unfold bindSample bindSigned bindUnit
  cases s.signed with
  | none =>
    cases s.unit with
    | none => exact ⟨rfl, rfl, rfl⟩
    | some u => obtain ⟨a, c, d⟩ := u; cases a <;> cases c <;> cases d <;> exact ⟨rfl, rfl, rfl⟩
  | some g =>
    cases s.unit with
    | none => exact ⟨rfl, rfl, rfl⟩
    | some u => obtain ⟨a, c, d⟩ := u; cases a <;> cases c <;> cases d <;> exact ⟨rfl, rfl, rfl⟩

theorem bindSample_signed (b : Cols) (s : Sample) (h : ∀ g, s.signed = some g → g.method.isSome ∧ g.key.isSome) :
    readSigned (bindSample b s) = s.signed := by
  unfold bindSample bindSigned
  cases hs : s.signed with
  | none => rfl
  | some g =>
    obtain ⟨h1, h2⟩ := h g hs
    obtain ⟨d, e, m, k⟩ := g
    cases m with
    | none => simp at h1
    | some m =>
      cases k with
      | none => simp at h2
      | some k => rfl

/-- A sample is read back if the bindings are right. -/
theorem readSample_bind (b : Cols) (s : Sample) (c : Ctx) (hc : s.context = some c) (hcu : s.custom = none)
    (hsi : ∀ g, s.signed = some g → g.method.isSome ∧ g.key.isSome)
    (hun : ∀ u, s.unit = some u → u.custom = none ∧ (u.unit.isSome ∨ u.mult.isSome))
    (h1 : b.custom = none) (h2 : b.unitCustom = none) (h3 : b.location.isSome → s.location.isSome)
    (h4 : b.unitText.isSome → ∃ u, s.unit = some u ∧ u.unit.isSome) (h5 : b.unitMult.isSome → ∃ u, s.unit = some u ∧ u.mult.isSome) :
    readSample c (bindSample b s) = some s := by
  obtain ⟨v1, v2, v3⟩ := bindSample_values b s
  obtain ⟨u1, u2, u3⟩ := bindSample_unit b s
  have hu : readUnit (bindSample b s) = s.unit := by
    unfold readUnit
    rw [u1, u2, u3, h2]
    cases hs : s.unit with
    | none =>
      have e1 : b.unitText = none := by
        cases hb : b.unitText with
        | none => rfl
        | some x => obtain ⟨u, hu, _⟩ := h4 (by simp [hb]); rw [hs] at hu; simp at hu
      have e2 : b.unitMult = none := by
        cases hb : b.unitMult with
        | none => rfl
        | some x => obtain ⟨u, hu, _⟩ := h5 (by simp [hb]); rw [hs] at hu; simp at hu
      simp [e1, e2]
    | some u =>
      obtain ⟨k1, k2⟩ := hun u hs
      have e1 : u.unit.or b.unitText = u.unit := by
        cases hu : u.unit with
        | some x => rfl
        | none =>
          cases hb : b.unitText with
          | none => rfl
          | some x => obtain ⟨u', hu', h⟩ := h4 (by simp [hb]); rw [hs] at hu'; injection hu' with hu'; subst hu'; simp [hu] at h
      have e2 : u.mult.or b.unitMult = u.mult := by
        cases hu : u.mult with
        | some x => rfl
        | none =>
          cases hb : b.unitMult with
          | none => rfl
          | some x => obtain ⟨u', hu', h⟩ := h5 (by simp [hb]); rw [hs] at hu'; injection hu' with hu'; subst hu'; simp [hu] at h
      simp only [Option.bind_some, e1, e2, k1, Option.map_none, Option.or_none]
      obtain ⟨x, y, z⟩ := u
      simp only at k1 k2; subst k1
      rw [if_pos (by rcases k2 with h | h <;> simp [h])]
  have hl : (bindSample b s).location = s.location := by
    rw [bindSample_location]
    cases hs : s.location with
    | some x => rfl
    | none =>
      cases hb : b.location with
      | none => rfl
      | some x => have := h3 (by simp [hb]); simp [hs] at this
  unfold readSample
  rw [bindSample_custom b s hcu, h1]
  simp only [Option.isSome_none, Bool.false_eq_true, if_false]
  rw [v1, v2, v3, hl, hu, bindSample_signed b s hsi, ← hc, ← hcu]

theorem rows_read (t : Int) (c : Ctx) (l : List Sample) : ∀ b, Plain ⟨t, l⟩ → Bound b l → (∀ s ∈ l, s.context = some c) →
    allSome ((rowsOf b l).map (readSample c)) = some l := by
  induction l with
  | nil => intro b _ _ _; rfl
  | cons s r ih =>
    intro b hp hb hc
    have hs : s ∈ s :: r := List.mem_cons_self ..
    have h := readSample_bind b s c (hc s hs) (hp.custom s hs) (hp.signed s hs) (hp.unit s hs) hb.custom hb.unitCustom
      (fun h => hb.location h s hs) (fun h => hb.unitText h s hs) (fun h => hb.unitMult h s hs)
    simp only [rowsOf, List.map_cons, h, allSome]
    obtain ⟨u1, u2, u3⟩ := bindSample_unit b s
    rw [ih (bindSample b s) hp.tail ?_ (fun x hx => hc x (List.mem_cons_of_mem _ hx))]
    · rfl
    · refine ⟨?_, ?_, ?_, ?_, ?_⟩
      · rw [bindSample_custom b s (hp.custom s hs)]; exact hb.custom
      · rw [u3, hb.unitCustom]
        cases hu : s.unit with
        | none => rfl
        | some u => simp [(hp.unit s hs u hu).1]
      · intro hl x hx
        rw [bindSample_location] at hl
        cases hsl : s.location with
        | none => rw [hsl] at hl; exact hb.location (by simpa using hl) x (List.mem_cons_of_mem _ hx)
        | some y => exact (hp.same s hs x (List.mem_cons_of_mem _ hx)).1 (by simp [hsl])
      · intro hl x hx
        rw [u1] at hl
        cases hsu : s.unit.bind (·.unit) with
        | none => rw [hsu] at hl; exact hb.unitText (by simpa using hl) x (List.mem_cons_of_mem _ hx)
        | some y =>
          cases hu : s.unit with
          | none => simp [hu] at hsu
          | some u =>
            obtain ⟨u', h1, h2, _⟩ := (hp.same s hs x (List.mem_cons_of_mem _ hx)).2 u hu
            exact ⟨u', h1, h2 (by simp only [hu, Option.bind_some] at hsu; simp [hsu])⟩
      · intro hl x hx
        rw [u2] at hl
        cases hsu : s.unit.bind (·.mult) with
        | none => rw [hsu] at hl; exact hb.unitMult (by simpa using hl) x (List.mem_cons_of_mem _ hx)
        | some y =>
          cases hu : s.unit with
          | none => simp [hu] at hsu
          | some u =>
            obtain ⟨u', h1, _, h2⟩ := (hp.same s hs x (List.mem_cons_of_mem _ hx)).2 u hu
            exact ⟨u', h1, h2 (by simp only [hu, Option.bind_some] at hsu; simp [hsu])⟩

/-! ### Histories -/

/-- The database holds the values. -/
structure Holds (db : Db) (l : List (Nat × Meter)) (L : List (MRow × Meter)) : Prop where
  rows : L.map (·.1) = db.meters
  vals : L.map (fun p => (p.1.tx, p.2)) = l
  ids : L.Pairwise (fun p q => p.1.id ≠ q.1.id)
  row : ∀ p ∈ L, p.1.time = p.2.time ∧ InContext p.2 p.1.ctx
  items : ∀ p ∈ L, db.items.filter (fun i => i.1 == p.1.id) = (rowsOf {} p.2.samples).map (fun x => (p.1.id, x))
  own : ∀ i ∈ db.items, ∃ p ∈ L, p.1.id = i.1

theorem le_maxId (l : List MRow) (a : Nat) : a ≤ l.foldl (fun a r => max a r.id) a ∧ ∀ r ∈ l, r.id ≤ l.foldl (fun a r => max a r.id) a := by
  induction l generalizing a with
  | nil => simp
  | cons x r ih =>
    simp only [List.foldl_cons]
    obtain ⟨h1, h2⟩ := ih (max a x.id)
    refine ⟨by omega, ?_⟩
    intro y hy
    rcases List.mem_cons.mp hy with h | h
    · subst h; omega
    · exact h2 y h

theorem newId_fresh (db : Db) : ∀ r ∈ db.meters, r.id < newId db := by
  intro r hr
  have := (le_maxId db.meters 0).2 r hr
  unfold newId; omega

theorem InContext.inj {m : Meter} {c c' : Ctx} (h : InContext m c) (h' : InContext m c') : c = c' := by
  obtain ⟨hne, h1⟩ := h
  cases hs : m.samples with
  | nil => exact absurd hs hne
  | cons s r =>
    have a := h1 s (by simp [hs])
    have b := h'.2 s (by simp [hs])
    rw [a] at b; injection b

theorem all_ctx (c : Ctx) : c ∈ [Ctx.interruptionBegin, .interruptionEnd, .other, .clock, .periodic, .txBegin, .txEnd, .trigger] := by
  cases c <;> simp

theorem keepStep_insert (l : List (Nat × Meter)) (tx : Nat) (m : Meter) (c : Ctx) (hc : InContext m c) :
    keepStep l (.insert tx m) = if (∀ p ∈ l, ¬ (p.1 = tx ∧ p.2.time = m.time ∧ InContext p.2 c)) then l ++ [(tx, m)] else l := by
  simp only [keepStep]
  by_cases h : ∀ p ∈ l, ¬ (p.1 = tx ∧ p.2.time = m.time ∧ InContext p.2 c)
  · rw [if_pos h, if_pos ⟨c, all_ctx c, hc, h⟩]
  · rw [if_neg h, if_neg]
    rintro ⟨c', _, h1, h2⟩
    rw [hc.inj h1] at h; exact h h2

theorem keepStep_none (l : List (Nat × Meter)) (tx : Nat) (m : Meter) (h : ∀ c, ¬ InContext m c) : keepStep l (.insert tx m) = l := by
  simp only [keepStep]
  rw [if_neg]
  rintro ⟨c, _, h1, _⟩; exact h c h1

/-- What `insert` does. -/
theorem insert_cases (db : Db) (tx : Nat) (m : Meter) :
    ((∀ c, ¬ InContext m c) ∧ insert db tx m = db) ∨
    ∃ c, InContext m c ∧
      ((db.meters.any (fun r => r.tx == tx && r.time == m.time && r.ctx == c) = true ∧ insert db tx m = db) ∨
       (db.meters.any (fun r => r.tx == tx && r.time == m.time && r.ctx == c) = false ∧ insert db tx m =
         { meters := db.meters ++ [⟨newId db, tx, m.time, c⟩], items := db.items ++ (rowsOf {} m.samples).map (fun x => (newId db, x)) })) := by
  unfold insert
  cases hs : m.samples with
  | nil => exact .inl ⟨fun c h => h.1 hs, rfl⟩
  | cons s r =>
    simp only
    cases hc : s.context with
    | none =>
      refine .inl ⟨fun c h => ?_, rfl⟩
      have := h.2 s (by simp [hs]); rw [hc] at this; simp at this
    | some c =>
      simp only
      by_cases ha : ((s :: r).any (fun x => x.context != some c)) = true
      · rw [if_pos ha]
        refine .inl ⟨fun c' h => ?_, rfl⟩
        obtain ⟨x, hx, hx2⟩ := List.any_eq_true.mp ha
        have h1 := h.2 s (by simp [hs])
        have h2 := h.2 x (by rw [hs]; exact hx)
        rw [hc] at h1
        rw [h2, ← h1] at hx2
        simp at hx2
      · rw [if_neg ha]
        refine .inr ⟨c, ⟨by simp [hs], ?_⟩, ?_⟩
        · intro x hx
          rw [hs] at hx
          have : ¬ (x.context != some c) = true := fun h => ha (List.any_eq_true.mpr ⟨x, hx, h⟩)
          simpa using this
        · cases hd : db.meters.any (fun r => r.tx == tx && r.time == m.time && r.ctx == c) with
          | true => exact .inl ⟨rfl, by simp⟩
          | false => exact .inr ⟨rfl, by simp⟩

theorem Holds.insert {db : Db} {l : List (Nat × Meter)} {L : List (MRow × Meter)} (h : Holds db l L) (tx : Nat) (m : Meter) :
    ∃ L', Holds (Met.insert db tx m) (keepStep l (.insert tx m)) L' := by
  rcases insert_cases db tx m with ⟨h1, h2⟩ | ⟨c, hc, ⟨h1, h2⟩ | ⟨h1, h2⟩⟩
  · rw [h2, keepStep_none l tx m h1]; exact ⟨L, h⟩
  · rw [h2, keepStep_insert l tx m c hc, if_neg]
    · exact ⟨L, h⟩
    · intro hall
      obtain ⟨r, hr, hr2⟩ := List.any_eq_true.mp h1
      simp only [Bool.and_eq_true, beq_iff_eq] at hr2
      rw [← h.rows] at hr
      obtain ⟨p, hp, rfl⟩ := List.mem_map.mp hr
      obtain ⟨q1, q2⟩ := h.row p hp
      refine hall (p.1.tx, p.2) ?_ ⟨hr2.1.1, q1 ▸ hr2.1.2, hr2.2 ▸ q2⟩
      rw [← h.vals]; exact List.mem_map.mpr ⟨p, hp, rfl⟩
  · rw [h2, keepStep_insert l tx m c hc, if_pos]
    · have hfresh : ∀ p ∈ L, p.1.id ≠ newId db := by
        intro p hp
        have := newId_fresh db p.1 (by rw [← h.rows]; exact List.mem_map.mpr ⟨p, hp, rfl⟩)
        omega
      refine ⟨L ++ [(⟨newId db, tx, m.time, c⟩, m)], ?_, ?_, ?_, ?_, ?_, ?_⟩
      · simp [h.rows]
      · simp [h.vals]
      · rw [List.pairwise_append]
        exact ⟨h.ids, by simp, fun p hp q hq => by simp at hq; subst hq; exact hfresh p hp⟩
      · intro p hp
        rcases List.mem_append.mp hp with hp | hp
        · exact h.row p hp
        · simp at hp; subst hp; exact ⟨rfl, hc⟩
      · intro p hp
        simp only [List.filter_append]
        rcases List.mem_append.mp hp with hp | hp
        · rw [h.items p hp]
          have : ((rowsOf {} m.samples).map (fun x => (newId db, x))).filter (fun i => i.1 == p.1.id) = [] := by
            rw [List.filter_eq_nil_iff]
            intro i hi
            obtain ⟨x, _, rfl⟩ := List.mem_map.mp hi
            simpa using Ne.symm (hfresh p hp)
          rw [this, List.append_nil]
        · simp at hp; subst hp
          have : db.items.filter (fun i => i.1 == newId db) = [] := by
            rw [List.filter_eq_nil_iff]
            intro i hi
            obtain ⟨p, hp, he⟩ := h.own i hi
            have := hfresh p hp
            simp [← he, this]
          simp only [this, List.nil_append]
          rw [List.filter_eq_self]
          intro i hi
          obtain ⟨x, _, rfl⟩ := List.mem_map.mp hi
          simp
      · intro i hi
        rcases List.mem_append.mp hi with hi | hi
        · obtain ⟨p, hp, he⟩ := h.own i hi
          exact ⟨p, List.mem_append_left _ hp, he⟩
        · obtain ⟨x, _, rfl⟩ := List.mem_map.mp hi
          exact ⟨_, List.mem_append_right _ (List.mem_singleton.mpr rfl), rfl⟩
    · intro p hp ⟨e1, e2, e3⟩
      rw [← h.vals] at hp
      obtain ⟨q, hq, rfl⟩ := List.mem_map.mp hp
      obtain ⟨q1, q2⟩ := h.row q hq
      have : db.meters.any (fun r => r.tx == tx && r.time == m.time && r.ctx == c) = true := by
        rw [List.any_eq_true]
        refine ⟨q.1, by rw [← h.rows]; exact List.mem_map.mpr ⟨q, hq, rfl⟩, ?_⟩
        simp only [Bool.and_eq_true, beq_iff_eq]
        exact ⟨⟨e1, q1.trans e2⟩, q2.inj e3⟩
      rw [h1] at this; simp at this

theorem Holds.clear {db : Db} {l : List (Nat × Meter)} {L : List (MRow × Meter)} (h : Holds db l L) (tx : Nat) :
    ∃ L', Holds (Met.clear db tx) (keepStep l (.clear tx)) L' := by
  have hsub : ∀ p ∈ L.filter (fun p => p.1.tx != tx), p ∈ L ∧ p.1.tx ≠ tx := by
    intro p hp
    obtain ⟨a, b⟩ := List.mem_filter.mp hp
    exact ⟨a, by simpa using b⟩
  have huniq : ∀ p ∈ L, ∀ q ∈ L, p.1.id = q.1.id → p = q := by
    have hp := h.ids
    clear hsub
    intro p hp1 q hq1 he
    have key : ∀ (L : List (MRow × Meter)), L.Pairwise (fun p q => p.1.id ≠ q.1.id) → p ∈ L → q ∈ L → p = q := by
      intro L
      induction L with
      | nil => intro _ h; simp at h
      | cons a r ih =>
        intro hp h1 h2
        rw [List.pairwise_cons] at hp
        rcases List.mem_cons.mp h1 with h1' | h1' <;> rcases List.mem_cons.mp h2 with h2' | h2'
        · rw [h1', h2']
        · subst h1'; exact absurd he (hp.1 q h2')
        · subst h2'; exact absurd he.symm (hp.1 p h1')
        · exact ih hp.2 h1' h2'
    exact key L hp hp1 hq1
  refine ⟨L.filter (fun p => p.1.tx != tx), ?_, ?_, h.ids.filter _, fun p hp => h.row p (hsub p hp).1, ?_, ?_⟩
  · simp only [Met.clear, ← h.rows, List.filter_map]; rfl
  · simp only [keepStep, ← h.vals, List.filter_map]; rfl
  · intro p hp
    obtain ⟨p1, p2⟩ := hsub p hp
    simp only [Met.clear]
    rw [List.filter_filter, ← h.items p p1]
    apply List.filter_congr
    intro i hi
    by_cases he : i.1 = p.1.id
    · have : (db.meters.any (fun r => r.tx == tx && r.id == i.1)) = false := by
        rw [List.any_eq_false]
        intro r hr
        rw [← h.rows] at hr
        obtain ⟨q, hq, rfl⟩ := List.mem_map.mp hr
        simp only [Bool.and_eq_true, beq_iff_eq, not_and]
        intro ht hid
        have := huniq q hq p p1 (hid.trans he)
        subst this; exact p2 ht
      simp [this]
    · simp [he]
  · intro i hi
    simp only [Met.clear] at hi
    obtain ⟨hi1, hi2⟩ := List.mem_filter.mp hi
    obtain ⟨p, hp, he⟩ := h.own i hi1
    refine ⟨p, List.mem_filter.mpr ⟨hp, ?_⟩, he⟩
    have : (db.meters.any (fun r => r.tx == tx && r.id == i.1)) = false := by simpa using hi2
    rw [List.any_eq_false] at this
    have := this p.1 (by rw [← h.rows]; exact List.mem_map.mpr ⟨p, hp, rfl⟩)
    simp [he] at this
    simpa using this

theorem Holds.run (ops : List DbOp) : ∃ L, Holds (dbRun ops) (kept ops) L := by
  have key : ∀ (ops : List DbOp) (db : Db) (l : List (Nat × Meter)) (L : List (MRow × Meter)), Holds db l L →
      ∃ L', Holds (ops.foldl dbStep db) (ops.foldl keepStep l) L' := by
    intro ops
    induction ops with
    | nil => intro db l L h; exact ⟨L, h⟩
    | cons op r ih =>
      intro db l L h
      simp only [List.foldl_cons]
      cases op with
      | insert tx m => obtain ⟨L', h'⟩ := h.insert tx m; exact ih _ _ L' h'
      | clear tx => obtain ⟨L', h'⟩ := h.clear tx; exact ih _ _ L' h'
  exact key ops {} [] [] ⟨rfl, rfl, List.Pairwise.nil, by simp, by simp, by simp⟩

theorem allSome_map {α β : Type} (f : α → Option β) (g : α → β) (l : List α) (h : ∀ a ∈ l, f a = some (g a)) :
    allSome (l.map f) = some (l.map g) := by
  induction l with
  | nil => rfl
  | cons a r ih =>
    simp only [List.map_cons, h a (List.mem_cons_self ..), allSome]
    rw [ih (fun x hx => h x (List.mem_cons_of_mem _ hx))]; rfl

/-- C48: after every history of insertions and deletions, the values read for a transaction are those that were stored for it and not cleared, in
the order of their insertion, each unchanged; provided they are plain. -/
theorem C48_partial (ops : List DbOp) (tx : Nat) (hp : ∀ p ∈ kept ops, p.1 = tx → Plain p.2) :
    getAll (dbRun ops) tx = some (((kept ops).filter (fun p => p.1 == tx)).map (·.2)) := by
  obtain ⟨L, h⟩ := Holds.run ops
  unfold getAll
  have e1 : (dbRun ops).meters.filter (fun r => r.tx == tx) = (L.filter (fun p => p.1.tx == tx)).map (·.1) := by
    rw [← h.rows, List.filter_map]; rfl
  have e2 : ((kept ops).filter (fun p => p.1 == tx)).map (·.2) = (L.filter (fun p => p.1.tx == tx)).map (·.2) := by
    rw [← h.vals, List.filter_map, List.map_map]; rfl
  rw [e1, e2, List.map_map]
  apply allSome_map
  intro p hp1
  obtain ⟨hp1, ht⟩ := List.mem_filter.mp hp1
  simp only [beq_iff_eq] at ht
  have hpl : Plain p.2 := hp (p.1.tx, p.2) (by rw [← h.vals]; exact List.mem_map.mpr ⟨p, hp1, rfl⟩) ht
  obtain ⟨r1, r2⟩ := h.row p hp1
  show readMeter (dbRun ops) p.1 = some p.2
  unfold readMeter
  rw [h.items p hp1, List.map_map]
  have : ((fun (i : Nat × Cols) => readSample p.1.ctx i.2) ∘ fun x => (p.1.id, x)) = readSample p.1.ctx := rfl
  rw [this, rows_read p.2.time p.1.ctx p.2.samples {} hpl ⟨rfl, rfl, by simp, by simp, by simp⟩ r2.2, r1]
  rfl

/-- A value with two samples. -/
def exStored (t : Int) : Meter :=
  ⟨t, [{ value := 5, measurand := some 4, context := some .periodic, unit := some { unit := some 1 }, signed := some ⟨1, 2, some 3, some 4⟩ },
    { value := 230, measurand := some 1, context := some .periodic, unit := some { unit := some 6 } }]⟩

/-- Non-vacuity of `C48_partial`: a duplicate is dropped, another transaction is cleared. -/
example : getAll (dbRun [.insert 1 (exStored 0), .insert 2 (exStored 0), .insert 1 (exStored 0), .insert 1 (exStored 9), .clear 2]) 1 =
    some [exStored 0, exStored 9] := by decide +kernel

/-- Non-vacuity of the hypothesis. -/
example (t : Int) : Plain (exStored t) := by
  refine ⟨?_, ?_, ?_, ?_⟩ <;> simp [exStored]

/-- C48 violated: the location of a sample is also stored for the samples after it that have none. -/
theorem C48_location_violated (x : Nat) :
    getAll (dbRun [.insert 1 ⟨0, [{ value := 5, context := some .periodic, location := some x }, { value := 6, context := some .periodic }]⟩]) 1 =
    some [⟨0, [{ value := 5, context := some .periodic, location := some x }, { value := 6, context := some .periodic, location := some x }]⟩] :=
  rfl

/-- C48 violated: so are the parts of the unit; here the multiplier of a value in kW makes one out of the next, in V. -/
theorem C48_unit_violated (u v : Nat) (k : Int) :
    getAll (dbRun [.insert 1 ⟨0, [{ value := 5, context := some .periodic, unit := some { unit := some u, mult := some k } },
      { value := 6, context := some .periodic, unit := some { unit := some v } }]⟩]) 1 =
    some [⟨0, [{ value := 5, context := some .periodic, unit := some { unit := some u, mult := some k } },
      { value := 6, context := some .periodic, unit := some { unit := some v, mult := some k } }]⟩] :=
  rfl

/-- C48 violated: if a sample has custom data, none of the values of the transaction can be read any more. -/
theorem C48_custom_violated (c : Custom) :
    getAll (dbRun [.insert 1 (exStored 0), .insert 1 ⟨1, [{ value := 5, context := some .periodic, custom := some c }]⟩]) 1 = none := by
  cases c <;> rfl

/-- C48 violated: a signed value without public key or signing method is lost. -/
theorem C48_signed_violated (g : Signed) (h : g.method = none ∨ g.key = none) :
    getAll (dbRun [.insert 1 ⟨0, [{ value := 5, context := some .periodic, signed := some g }]⟩]) 1 =
    some [⟨0, [{ value := 5, context := some .periodic }]⟩] := by
  obtain ⟨d, e, m, k⟩ := g
  rcases h with h | h <;> simp only at h <;> subst h
  · rfl
  · cases m <;> rfl

end Verif.Met
