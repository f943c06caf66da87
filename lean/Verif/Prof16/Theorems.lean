import Verif.Prof16.Invariants

/-! Properties of the charging profiles of OCPP 1.6. -/

namespace Verif.Prof16

set_option linter.constructorNameAsVariable false

/-- The state of a station that has run for a while. -/
def Reachable (cfg : Cfg) (s : S) : Prop := ∃ ops, s = run cfg {} ops

theorem Reachable.inv {cfg : Cfg} {s : S} (h : Reachable cfg s) : Inv cfg s := by obtain ⟨ops, rfl⟩ := h; exact inv_run cfg ops

theorem validate_self {cfg : Cfg} {s : S} {c : Int} {p : Profile} {b : Bool} (v : Valid cfg s c p b) (now : Int) :
    validate cfg s now p c b = some (adjusted now p) := validate_iff.mpr ⟨v, rfl⟩

/-- C120: SetChargingProfile is Accepted exactly if the purpose is supported and the profile obeys the rules. -/
theorem C120_answer (cfg : Cfg) (s : S) (now c : Int) (p : Profile) :
    (setProfile cfg s now c p).2 = true ↔ p.purpose ∈ cfg.purposes ∧ Valid cfg s c p false := by
  unfold setProfile
  split
  · rename_i h
    simp only [Bool.not_eq_true', List.contains_eq_mem, decide_eq_false_iff_not] at h
    simp [h]
  · rename_i h
    simp only [Bool.not_eq_true', List.contains_eq_mem, decide_eq_false_iff_not, Decidable.not_not] at h
    cases hv : validate cfg s now p c false with
    | none =>
      simp only [Bool.false_eq_true, false_iff, not_and]
      intro _ v
      have := validate_self v now
      rw [hv] at this; simp at this
    | some q => simp only [true_iff]; exact ⟨h, (validate_iff.mp hv).1⟩

/-- C120: a request that is not Accepted changes nothing. -/
theorem C120_refused (cfg : Cfg) (s : S) (now c : Int) (p : Profile) (h : (setProfile cfg s now c p).2 = false) : (setProfile cfg s now c p).1 = s := by
  unfold setProfile at h ⊢
  split
  · rfl
  · rename_i h'
    rw [if_neg h'] at h
    cases hv : validate cfg s now p c false with
    | none => rfl
    | some q => rw [hv] at h; simp at h

/-- C120: after an Accepted request the installed profiles are the new one, at each connector it concerns, and the old ones except those it replaces. -/
theorem C120_installed (cfg : Cfg) (s : S) (hs : Reachable cfg s) (now c : Int) (p : Profile) (h : (setProfile cfg s now c p).2 = true) (e : Entry) :
    e ∈ (setProfile cfg s now c p).1.mem ↔ (e.prof = adjusted now p ∧ Concerns cfg c.toNat p.purpose e.conn) ∨ (e ∈ s.mem ∧ ¬ Replaced c p e) := by
  have hi := hs.inv
  obtain ⟨hp, v⟩ := (C120_answer cfg s now c p).mp h
  unfold setProfile
  rw [if_neg (by simpa using hp), validate_self v now]
  simp only [add, mem_puts, clear_eq, mem_removeIf, mem_targets]
  have e1 : (adjusted now p).purpose = p.purpose := rfl
  have e2 : (adjusted now p).level = p.level := rfl
  have e3 : (adjusted now p).id = p.id := rfl
  rw [e1, e2, e3]
  refine or_congr Iff.rfl ?_
  simp only [Filter.hits, Bool.or_eq_false_iff, Bool.and_eq_false_iff, Bool.not_eq_false', eqOr, beq_eq_false_iff_ne, ne_eq, Option.some.injEq, Bool.true_eq_false,
    Bool.not_true, or_true, true_or, and_true, reduceCtorEq, not_false_eq_true, true_and, Bool.false_eq_true, false_or, Replaced, not_or]
  have hc := v.conn
  constructor
  · rintro ⟨⟨⟨h1, h2⟩, h3⟩, h4⟩
    refine ⟨h1, fun h' => h2 h'.symm, ?_⟩
    rintro ⟨g1, g2, g3⟩
    rcases h3 with ((h3 | h3) | h3)
    · rcases g3 with g3 | g3
      · have hw := hi.wf e h1
        by_cases hm : p.purpose = .max
        · have := hw.1 (g1.trans hm); omega
        · by_cases ht : p.purpose = .tx
          · exact (v.tx ht).1 g3
          · have hd : p.purpose = .txDefault := by cases hpp : p.purpose <;> simp_all
            refine h4 ⟨?_, g1, g2⟩
            rw [hd]
            simp only [Concerns]
            rw [if_pos (by omega)]
            exact hw.2 (by rw [g1]; exact hm)
      · exact h3 g3.symm
    · exact h3 g2.symm
    · exact h3 g1.symm
  · rintro ⟨h1, h2, h3⟩
    refine ⟨⟨⟨h1, fun h' => h2 h'.symm⟩, ?_⟩, ?_⟩
    · by_cases g1 : p.purpose = e.prof.purpose
      · by_cases g2 : p.level = e.prof.level
        · refine .inl (.inl fun g3 => h3 ⟨g1.symm, g2.symm, .inr g3.symm⟩)
        · exact .inl (.inr g2)
      · exact .inr g1
    · rintro ⟨g0, g1, g2⟩
      refine h3 ⟨g1, g2, ?_⟩
      cases hpp : p.purpose with
      | max => exact .inl (v.max hpp).1
      | tx => rw [hpp] at g0; simp only [Concerns] at g0; exact .inr (by omega)
      | txDefault =>
        rw [hpp] at g0
        simp only [Concerns] at g0
        split at g0
        · exact .inl (by omega)
        · exact .inr (by omega)

theorem mem_inEffect {s : S} {c : Nat} {q : Profile} : q ∈ inEffect s c ↔ ∃ e ∈ s.mem, e.prof = q ∧ (q.purpose = .max ∨
    (c ≠ 0 ∧ e.conn = c ∧ (q.purpose = .txDefault ∨ (q.purpose = .tx ∧ ∀ i, q.txId = some i → s.tx c = some (some i))))) := by
  unfold inEffect
  simp only [List.mem_map, List.mem_append]
  have hm : ∀ e : Entry, (match e.prof.txId with
        | some i => s.tx c == some (some i)
        | none => true) = true ↔ ∀ i, e.prof.txId = some i → s.tx c = some (some i) := by
    intro e
    cases e.prof.txId with
    | none => simp
    | some i => simp
  constructor
  · rintro ⟨e, h | h, rfl⟩
    · simp only [List.mem_filter, beq_iff_eq] at h
      exact ⟨e, h.1, rfl, .inl h.2⟩
    · split at h
      · simp at h
      · rename_i hc
        rcases List.mem_append.mp h with h | h
        · simp only [List.mem_filter, Bool.and_eq_true, beq_iff_eq] at h
          exact ⟨e, h.1, rfl, .inr ⟨hc, h.2.1.2, .inr ⟨h.2.1.1, (hm e).mp h.2.2⟩⟩⟩
        · simp only [List.mem_filter, Bool.and_eq_true, beq_iff_eq] at h
          exact ⟨e, h.1, rfl, .inr ⟨hc, h.2.2, .inl h.2.1⟩⟩
  · rintro ⟨e, he, rfl, h | ⟨hc, h1, h | ⟨h, h2⟩⟩⟩
    · exact ⟨e, .inl (by simp [he, h]), rfl⟩
    · refine ⟨e, .inr ?_, rfl⟩
      rw [if_neg hc]
      simp [he, h, h1]
    · refine ⟨e, .inr ?_, rfl⟩
      rw [if_neg hc]
      refine List.mem_append_left _ (List.mem_filter.mpr ⟨he, ?_⟩)
      simp only [Bool.and_eq_true, beq_iff_eq]
      exact ⟨⟨h, h1⟩, (hm e).mpr h2⟩

/-- C120: an Accepted profile is in effect at the connector of the request; with connector 0 at all of them. -/
theorem C120_in_effect (cfg : Cfg) (s : S) (hs : Reachable cfg s) (now c : Int) (p : Profile) (h : (setProfile cfg s now c p).2 = true) (t : Nat)
    (ht : c = 0 ∨ c = t) (h0 : 1 ≤ t) (hn : t ≤ cfg.connectors) : adjusted now p ∈ inEffect (setProfile cfg s now c p).1 t := by
  obtain ⟨hp, v⟩ := (C120_answer cfg s now c p).mp h
  have key : ∀ t', Concerns cfg c.toNat p.purpose t' → (⟨t', adjusted now p⟩ : Entry) ∈ (setProfile cfg s now c p).1.mem :=
    fun t' h' => (C120_installed cfg s hs now c p h ⟨t', adjusted now p⟩).mpr (.inl ⟨rfl, h'⟩)
  rw [mem_inEffect]
  cases hpp : p.purpose with
  | max => exact ⟨⟨0, adjusted now p⟩, key 0 (by rw [hpp]; rfl), rfl, .inl hpp⟩
  | txDefault =>
    refine ⟨⟨t, adjusted now p⟩, key t ?_, rfl, .inr ⟨by omega, rfl, .inl hpp⟩⟩
    rw [hpp]; simp only [Concerns]
    split <;> omega
  | tx =>
    have hv := v.tx hpp
    refine ⟨⟨t, adjusted now p⟩, key t ?_, rfl, .inr ⟨by omega, rfl, .inr ⟨hpp, ?_⟩⟩⟩
    · rw [hpp]; simp only [Concerns]; omega
    · intro i hi
      have htx : (setProfile cfg s now c p).1.tx t = s.tx t := by
        unfold setProfile
        rw [if_neg (by simpa using hp), validate_self v now]
        rfl
      rw [htx]
      have := hv.2.2 i hi
      rwa [show c.toNat = t by omega] at this

/-- A profile for examples. -/
def prof (id level : Int) (purpose : Purpose) : Profile := { id, level, purpose, kind := .absolute, start := some 0, periods := [{ start := 0, limit := 16 }] }

/-- Two connectors. -/
def cfg2 : Cfg := { connectors := 2, maxProfiles := 3 }

/-- A profile for both connectors, replaced at the first one; a limit of the whole station. -/
def hist : List Op := [.set 0 0 (prof 1 0 .txDefault), .set 0 1 (prof 2 0 .txDefault), .set 0 0 (prof 3 0 .max)]

example : (run cfg2 {} hist).mem.map (fun e => (e.conn, e.prof.id)) = [(2, 1), (1, 2), (0, 3)] ∧
    (inEffect (run cfg2 {} hist) 1).map (·.id) = [3, 2] ∧ (setProfile cfg2 (run cfg2 {} (hist.take 2)) 0 0 (prof 3 0 .max)).2 = true := by decide +kernel

/-- C120: a profile that only replaces an installed one is refused when the store is full: the CSMS cannot change a profile then. -/
theorem C120_full_violated : ∃ cfg ops now c p, (∃ e ∈ (run cfg {} ops).mem, e.prof.id = p.id ∧ e.prof.purpose = p.purpose ∧ e.prof.level = p.level ∧ (e.conn : Int) = c) ∧
    (setProfile cfg (run cfg {} ops) now c p).2 = false ∧ (setProfile { cfg with maxProfiles := cfg.maxProfiles + 1 } (run cfg {} ops) now c p).2 = true :=
  ⟨{ connectors := 1, maxProfiles := 1 }, [.set 0 1 (prof 1 0 .txDefault)], 0, 1, { prof 1 0 .txDefault with periods := [{ start := 0, limit := 10 }] },
    by decide +kernel⟩

theorem hits_iff (id conn level : Option Int) (purpose : Option Purpose) (e : Entry) :
    (if id.isSome then { id := id, conn := conn, level := level, purpose := purpose, idOnly := true }
      else ({ conn := conn, level := level, purpose := purpose } : Filter)).hits e = true ↔ Matches id conn level purpose e := by
  unfold Matches
  cases id with
  | some i => simp only [Option.isSome_some, if_true, Filter.hits, Bool.not_true, Bool.false_and, Bool.or_false, beq_iff_eq, Option.some.injEq]; exact eq_comm
  | none =>
    have h : ∀ {α : Type} [DecidableEq α] (o : Option α) (a : α), eqOr o a = true ↔ ∀ x, o = some x → a = x := by
      intro α _ o a
      cases o with
      | none => simp [eqOr]
      | some x => simp only [eqOr, beq_iff_eq, Option.some.injEq, forall_eq']; exact eq_comm
    simp [Filter.hits, h, and_assoc]

/-- C120: the profile of RemoteStartTransaction is installed exactly if the request names a connector and the profile is a TxProfile that obeys the rules, except that
the transaction need not run yet; otherwise nothing changes and the request is refused. -/
theorem C120_remote (cfg : Cfg) (s : S) (now : Int) (c : Option Int) (p : Profile) :
    ((remoteProfile cfg s now c p).2 = true ↔ p.purpose = .tx ∧ ∃ k, c = some k ∧ Valid cfg s k p true) ∧
    ((remoteProfile cfg s now c p).2 = false → (remoteProfile cfg s now c p).1 = s) ∧
    ∀ k, c = some k → (remoteProfile cfg s now c p).2 = true → ∀ e, e ∈ (remoteProfile cfg s now c p).1.mem ↔
      (e.prof = adjusted now p ∧ (e.conn : Int) = k) ∨ (e ∈ s.mem ∧ ¬ ((e.conn : Int) = k ∧ e.prof.purpose = .tx ∧ e.prof.level = p.level)) := by
  unfold remoteProfile
  cases c with
  | none => simp
  | some k =>
    by_cases hp : p.purpose = .tx
    · simp only [hp, ne_eq, not_true_eq_false, if_false, true_and, Option.some.injEq, forall_eq', exists_eq_left']
      cases hv : validate cfg s now p k true with
      | none =>
        simp only [Bool.false_eq_true, false_iff, false_implies, implies_true, and_true]
        intro v; rw [validate_self v now] at hv; simp at hv
      | some q =>
        obtain ⟨v, rfl⟩ := validate_iff.mp hv
        simp only [true_iff, Bool.true_eq_false, false_implies, true_and, forall_const]
        refine ⟨v, ?_⟩
        intro e
        simp only [add, mem_puts, mem_targets]
        have e1 : (adjusted now p).purpose = .tx := hp
        have e2 : (adjusted now p).level = p.level := rfl
        have hc := v.conn
        have e3 : (e.conn = k.toNat) ↔ (e.conn : Int) = k := by omega
        rw [e1, e2]
        simp only [Concerns, e3]
    · simp [hp]

/-- C121: ClearChargingProfile removes exactly the profiles that match the filters (all without filters), and the answer is Accepted exactly if there are any, or no
filter is given. -/
theorem C121_cleared (s : S) (id conn level : Option Int) (purpose : Option Purpose) :
    (∀ e, e ∈ (clearProfile s id conn level purpose).1.mem ↔ e ∈ s.mem ∧ ¬ Matches id conn level purpose e) ∧
    ((clearProfile s id conn level purpose).2 = true ↔ (∃ e ∈ s.mem, Matches id conn level purpose e) ∨ (id = none ∧ conn = none ∧ level = none ∧ purpose = none)) := by
  unfold clearProfile
  split
  · rename_i h
    simp only [Bool.and_eq_true, Option.isNone_iff_eq_none] at h
    obtain ⟨⟨⟨rfl, rfl⟩, rfl⟩, rfl⟩ := h
    simp [Matches]
  · rename_i h
    simp only [Bool.and_eq_true, Option.isNone_iff_eq_none, not_and] at h
    simp only [clear_eq, mem_removeIf, cleared, List.any_eq_true, hits_iff, ← Bool.not_eq_true]
    refine ⟨fun _ => trivial, ?_⟩
    constructor
    · rintro ⟨e, he, h1⟩; exact .inl ⟨e, he, h1⟩
    · rintro (⟨e, he, h1⟩ | ⟨h1, h2, h3, h4⟩)
      · exact ⟨e, he, h1⟩
      · exact absurd h3 (h ⟨⟨h1, h2⟩, h4⟩)

/-- C121: what ClearChargingProfile has removed does not come back with a restart. -/
theorem C121_not_back (cfg : Cfg) (s : S) (hs : Reachable cfg s) (id conn level : Option Int) (purpose : Option Purpose) (now : Int) :
    ∀ e ∈ (restart cfg (clearProfile s id conn level purpose).1 now).mem, e ∈ s.mem ∧ ¬ Matches id conn level purpose e := by
  have hi : Inv cfg (clearProfile s id conn level purpose).1 := hs.inv.step (.clear id conn level purpose)
  intro e he
  rw [restart_eq hi] at he
  obtain ⟨r, hr, he⟩ := List.mem_flatMap.mp he
  exact ((C121_cleared s id conn level purpose).1 e).mp (hi.row r (List.mem_filter.mp hr).1 e he)

/-- C121: a profile that was set for a connector is no longer in effect there after ClearChargingProfile for this connector with its purpose and stack level.
Partial: not for a TxDefaultProfile of connector 0, see `C121_violated`. -/
theorem C121_partial (cfg : Cfg) (s : S) (hs : Reachable cfg s) (now c : Int) (p : Profile) (h : (setProfile cfg s now c p).2 = true)
    (hp : ¬ (p.purpose = .txDefault ∧ c = 0)) (t : Nat) (ht : c = 0 ∨ c = t) :
    ∀ q ∈ inEffect (clearProfile (setProfile cfg s now c p).1 none (some c) (some p.level) (some p.purpose)).1 t, ¬ (q.purpose = p.purpose ∧ q.level = p.level) := by
  have hi : Inv cfg (setProfile cfg s now c p).1 := hs.inv.step (.set now c p)
  obtain ⟨_, v⟩ := (C120_answer cfg s now c p).mp h
  rintro q hq ⟨h1, h2⟩
  obtain ⟨e, he, rfl, h3⟩ := mem_inEffect.mp hq
  obtain ⟨h4, h5⟩ := ((C121_cleared _ none (some c) (some p.level) (some p.purpose)).1 e).mp he
  simp only [Matches, Option.some.injEq, forall_eq', h1, h2, and_true] at h5
  by_cases hm : p.purpose = .max
  · apply h5
    rw [(hi.wf e h4).1 (h1.trans hm), (v.max hm).1]; rfl
  · rcases h3 with h3 | ⟨h3, h6, _⟩
    · exact hm (h1.symm.trans h3)
    · rcases ht with ht | ht
      · cases hpp : p.purpose with
        | max => exact hm hpp
        | txDefault => exact hp ⟨hpp, ht⟩
        | tx => exact (v.tx hpp).1 ht
      · exact h5 (by rw [h6, ht])

example : Reachable cfg2 (run cfg2 {} hist) ∧ (setProfile cfg2 {} 0 1 (prof 1 0 .txDefault)).2 = true ∧
    (clearProfile (run cfg2 {} hist) none (some 1) (some 0) (some .txDefault)).2 = true ∧
    (clearProfile (run cfg2 {} hist) none (some 1) (some 0) (some .txDefault)).1.mem.map (fun e => (e.conn, e.prof.id)) = [(2, 1), (0, 3)] :=
  ⟨⟨_, rfl⟩, by decide +kernel⟩

/-- C121 is false of the code for a TxDefaultProfile of connector 0: the copies of the connectors remain in effect, and the answer is Unknown. -/
theorem C121_violated : ∃ cfg now p t, (setProfile cfg {} now 0 p).2 = true ∧
    (clearProfile (setProfile cfg {} now 0 p).1 none (some 0) (some p.level) (some p.purpose)).2 = false ∧
    p ∈ inEffect (clearProfile (setProfile cfg {} now 0 p).1 none (some 0) (some p.level) (some p.purpose)).1 t :=
  ⟨cfg2, 0, prof 1 0 .txDefault, 1, by decide +kernel⟩

/-- C124: expired profiles are removed, and only those; they do not come back with a restart. -/
theorem C124_expired (cfg : Cfg) (s : S) (hs : Reachable cfg s) (now later : Int) :
    (∀ e, e ∈ (clearExpired s now).mem ↔ e ∈ s.mem ∧ ¬ Over now e.prof) ∧ ∀ e ∈ (restart cfg (clearExpired s now) later).mem, ¬ Over now e.prof := by
  have hx : ∀ p, expired now p = true ↔ Over now p := by
    intro p
    unfold expired Over
    rw [Bool.or_eq_true, Bool.and_eq_true, beq_iff_eq]
    refine or_congr ?_ (and_congr Iff.rfl ?_)
    · cases p.validTo <;> simp
    · cases p.start <;> cases p.duration <;> simp
  have h1 : ∀ e, e ∈ (clearExpired s now).mem ↔ e ∈ s.mem ∧ ¬ Over now e.prof := by
    intro e; rw [clearExpired_eq, mem_removeIf, ← hx]; simp
  refine ⟨h1, ?_⟩
  have hi : Inv cfg (clearExpired s now) := hs.inv.step (.expire now)
  intro e he
  rw [restart_eq hi] at he
  obtain ⟨r, hr, he⟩ := List.mem_flatMap.mp he
  exact ((h1 e).mp (hi.row r (List.mem_filter.mp hr).1 e he)).2

example : ((clearExpired (run cfg2 {} [.set 0 1 { prof 1 0 .txDefault with duration := some 60 }, .set 0 2 { prof 2 1 .txDefault with validTo := some 100 }]) 61).mem.map
    (fun e => e.prof.id)) = [2] := by decide +kernel

/-- C125: a TxProfile with a transaction id is in effect only while the transaction with this id runs at its connector. -/
theorem C125_matching (s : S) (c : Nat) (q : Profile) (hq : q ∈ inEffect s c) (hp : q.purpose = .tx) (i : Int) (hi : q.txId = some i) : s.tx c = some (some i) := by
  obtain ⟨e, _, _, h | ⟨_, _, h | ⟨_, h⟩⟩⟩ := mem_inEffect.mp hq
  · rw [hp] at h; simp at h
  · rw [hp] at h; simp at h
  · exact h i hi

/-- C125: when a transaction ends, the TxProfiles of its connector are removed, and nothing else. -/
theorem C125_ended (cfg : Cfg) (s : S) (c : Nat) : ∀ e, e ∈ (step cfg s (.txEnd c)).mem ↔ e ∈ s.mem ∧ ¬ (e.prof.purpose = .tx ∧ e.conn = c) := by
  intro e
  simp only [step, txEnd, clear_eq, mem_removeIf, Filter.hits, eqOr]
  simp only [Option.none_beq_some, Bool.not_false, Bool.true_and, Bool.and_true, Bool.false_or, Bool.and_eq_false_iff, beq_eq_false_iff_ne, not_and]
  constructor
  · rintro ⟨h1, h2⟩
    refine ⟨h1, fun h3 h4 => ?_⟩
    rcases h2 with h2 | h2
    · exact h2 (by rw [h4])
    · exact h2 h3.symm
  · rintro ⟨h1, h2⟩
    refine ⟨h1, ?_⟩
    by_cases h3 : e.prof.purpose = .tx
    · exact .inl (fun h4 => h2 h3 (by omega))
    · exact .inr (fun h4 => h3 h4.symm)

example : (inEffect (run cfg2 {} [.txStart 1, .txId 1 7, .set 0 1 { prof 1 0 .tx with txId := some 7 }]) 1).map (·.id) = [1] ∧
    (run cfg2 {} [.txStart 1, .txId 1 7, .set 0 1 { prof 1 0 .tx with txId := some 7 }, .txEnd 1]).mem = [] := by decide +kernel

/-- C125 is false of the code for a TxProfile that came with RemoteStartTransaction: if its transaction never starts, the profile stays and is applied to the
next transaction at the connector, whoever starts it. -/
theorem C125_violated : ∃ cfg ops p, (remoteProfile cfg {} 0 (some 1) p).2 = true ∧ run cfg {} ops = { (remoteProfile cfg {} 0 (some 1) p).1 with txs := [(1, some 7)] } ∧
    p ∈ inEffect (run cfg {} ops) 1 :=
  ⟨cfg2, [.remote 0 (some 1) (prof 1 0 .tx), .txStart 1, .txId 1 7], prof 1 0 .tx, by decide +kernel⟩

end Verif.Prof16
