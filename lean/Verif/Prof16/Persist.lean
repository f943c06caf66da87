import Verif.Prof16.Theorems

/-! Properties of the charging profiles of OCPP 1.6: restart and number of profiles. -/

namespace Verif.Prof16

set_option linter.constructorNameAsVariable false

/-- Every installed profile that is not a TxProfile has its row, and ids are unique. -/
structure Kept (cfg : Cfg) (s : S) : Prop where
  uniq : ∀ e ∈ s.mem, ∀ e' ∈ s.mem, e.prof.id = e'.prof.id → e.prof = e'.prof
  row : ∀ e ∈ s.mem, e.prof.purpose ≠ .tx → ∃ r ∈ s.db, e ∈ copies cfg r

theorem Kept.removeIf {cfg : Cfg} {s : S} (h : Kept cfg s) (P : Entry → Bool)
    (hP : ∀ e ∈ s.mem, ∀ e' ∈ s.mem, e.prof.id = e'.prof.id → P e = true → P e' = true) : Kept cfg (removeIf s P) := by
  refine ⟨fun e he e' he' => h.uniq e (mem_removeIf.mp he).1 e' (mem_removeIf.mp he').1, ?_⟩
  intro e he hp
  obtain ⟨h1, h2⟩ := mem_removeIf.mp he
  obtain ⟨r, hr, h3⟩ := h.row e h1 hp
  refine ⟨r, db_removeIf.mpr ⟨hr, ?_⟩, h3⟩
  intro e' he' hP' hid
  have := hP e' he' e h1 (by rw [(mem_copies.mp h3).1]; exact hid.symm) hP'
  rw [h2] at this; simp at this

theorem Kept.add {cfg : Cfg} {s : S} (h : Kept cfg s) (c : Nat) (p : Profile) (hs : Stat cfg c p) (hid : ∀ e ∈ s.mem, e.prof.id ≠ p.id)
    (hl : p.purpose ≠ .tx → ∀ e ∈ s.mem, e.prof.purpose = p.purpose → e.prof.level = p.level → Concerns cfg c p.purpose e.conn) : Kept cfg (add cfg s c p) := by
  have hc : (if p.purpose = .max then 0 else c) = c := by
    split
    · rename_i h'; exact (hs.2.2.2.2.2.1 h').1.symm
    · rfl
  unfold Prof16.add
  rw [hc]
  constructor
  · intro e he e' he' hi
    rcases (mem_puts p _ _ e).mp he with ⟨h1, _⟩ | ⟨h1, _⟩ <;> rcases (mem_puts p _ _ e').mp he' with ⟨h2, _⟩ | ⟨h2, _⟩
    · rw [h1, h2]
    · rw [h1] at hi; exact absurd hi.symm (hid e' h2)
    · rw [h2] at hi; exact absurd hi (hid e h1)
    · exact h.uniq e h1 e' h2 hi
  · intro e he hp
    rcases (mem_puts p _ _ e).mp he with ⟨h1, h2⟩ | ⟨h1, h2⟩
    · exact ⟨⟨c, p⟩, mem_store.mpr (.inl rfl), mem_copies.mpr ⟨h1, mem_targets.mp h2⟩⟩
    · obtain ⟨r, hr, h3⟩ := h.row e h1 hp
      have h4 := (mem_copies.mp h3).1
      refine ⟨r, mem_store.mpr (.inr ⟨hr, ?_, ?_⟩), h3⟩
      · rw [← h4]
        rintro ⟨g1, g2⟩
        have hp' : p.purpose ≠ .tx := by rw [← show e.prof.purpose = p.purpose from g2]; exact hp
        exact h2 ⟨mem_targets.mpr (hl hp' e h1 g2 g1), g2, g1⟩
      · rw [← h4]; exact hid e h1

theorem pairwise_mem {l : List Entry} (h : l.Pairwise Distinct) : ∀ r ∈ l, ∀ r' ∈ l, r ≠ r' → Distinct r r' := by
  induction l with
  | nil => intro r hr; simp at hr
  | cons a l ih =>
    obtain ⟨h1, h2⟩ := List.pairwise_cons.mp h
    intro r hr r' hr' hne
    rcases List.mem_cons.mp hr with rfl | hr2 <;> rcases List.mem_cons.mp hr' with rfl | hr2'
    · exact absurd rfl hne
    · exact h1 r' hr2'
    · exact (h1 r hr2).symm
    · exact ih h2 r hr2 r' hr2' hne

theorem Kept.step {cfg : Cfg} {s : S} (h : Kept cfg s) (hi : Inv cfg s) (op : Op) (ho : NoClash s op) : Kept cfg (step cfg s op) := by
  have hprof : ∀ {P : Profile → Bool}, ∀ e ∈ s.mem, ∀ e' ∈ s.mem, e.prof.id = e'.prof.id → P e.prof = true → P e'.prof = true := by
    intro P e he e' he' hid hP; rw [← h.uniq e he e' he' hid]; exact hP
  cases op with
  | set now c p =>
    simp only [Prof16.step, setProfile]
    split
    · exact h
    · cases hv : validate cfg s now p c false with
      | none => exact h
      | some q =>
        obtain ⟨v, rfl⟩ := validate_iff.mp hv
        have e1 : (adjusted now p).purpose = p.purpose := rfl
        have e2 : (adjusted now p).level = p.level := rfl
        have e3 : (adjusted now p).id = p.id := rfl
        simp only [clear_eq, e1, e2, e3]
        have hb : ∀ e, ({ id := some p.id, idOnly := true } : Filter).hits e = true ↔ e.prof.id = p.id := by
          intro e; simp only [Filter.hits, Bool.not_true, Bool.false_and, Bool.or_false, beq_iff_eq, Option.some.injEq]; exact eq_comm
        have hb2 : ∀ e, ({ conn := some c, level := some p.level, purpose := some p.purpose } : Filter).hits e = true ↔
            (e.conn : Int) = c ∧ e.prof.level = p.level ∧ e.prof.purpose = p.purpose := by
          intro e
          simp only [Filter.hits, eqOr, Option.none_beq_some, Bool.not_false, Bool.true_and, Bool.false_or, Bool.and_eq_true, beq_iff_eq]
          constructor
          · rintro ⟨⟨a, b⟩, c⟩; exact ⟨a.symm, b.symm, c.symm⟩
          · rintro ⟨a, b, c⟩; exact ⟨⟨a.symm, b.symm⟩, c.symm⟩
        have k1 : Kept cfg (Prof16.removeIf s ({ id := some p.id, idOnly := true } : Filter).hits) :=
          h.removeIf _ (fun e _ e' _ hid => by rw [hb, hb]; rw [hid]; exact id)
        have hm1 : ∀ e ∈ (Prof16.removeIf s ({ id := some p.id, idOnly := true } : Filter).hits).mem, e ∈ s.mem ∧ e.prof.id ≠ p.id := by
          intro e he
          obtain ⟨a, b⟩ := mem_removeIf.mp he
          refine ⟨a, fun hid => ?_⟩
          rw [(hb e).mpr hid] at b; simp at b
        have k2 : Kept cfg (Prof16.removeIf (Prof16.removeIf s ({ id := some p.id, idOnly := true } : Filter).hits)
            ({ conn := some c, level := some p.level, purpose := some p.purpose } : Filter).hits) := by
          refine k1.removeIf _ ?_
          intro e he e' he' hid hP
          rw [hb2] at hP ⊢
          have he2 := k1.uniq e he e' he' hid
          obtain ⟨a, b⟩ := hm1 e' he'
          refine ⟨?_, by rw [← he2]; exact hP.2.1, by rw [← he2]; exact hP.2.2⟩
          rcases ho e' a (by rw [← he2]; exact hP.2.2) (by rw [← he2]; exact hP.2.1) with h' | h' | h'
          · exact absurd h' b
          · have w := hi.wf e' a
            have w2 := hi.wf e (hm1 e he).1
            by_cases hm : p.purpose = .max
            · rw [w.1 (by rw [← he2, hP.2.2, hm]), h']; rfl
            · have := w2.2 (by rw [hP.2.2]; exact hm)
              have := hP.1
              omega
          · exact h'
        refine k2.add c.toNat _ (stat_of_valid v) ?_ ?_
        · intro e he; exact (hm1 e (mem_removeIf.mp he).1).2
        · intro hp e he g1 g2
          obtain ⟨a, b⟩ := mem_removeIf.mp he
          obtain ⟨a1, a2⟩ := hm1 e a
          rw [e1] at g1 hp ⊢
          rw [e2] at g2
          have w := hi.wf e a1
          have hc := v.conn
          rcases ho e a1 g1 g2 with h' | h' | h'
          · exact absurd h' a2
          · cases hpp : p.purpose with
            | max => exact w.1 (g1.trans hpp)
            | tx => exact absurd hpp hp
            | txDefault =>
              simp only [Concerns]
              rw [if_pos (by omega)]
              exact w.2 (by rw [g1, hpp]; simp)
          · exfalso
            rw [(hb2 e).mpr ⟨h', g2, g1⟩] at b; simp at b
  | remote now c p =>
    simp only [Prof16.step, remoteProfile]
    split
    · exact h
    · rename_i c
      split
      · exact h
      · rename_i hp
        have hp' : p.purpose = .tx := by simpa using hp
        cases hv : validate cfg s now p c true with
        | none => exact h
        | some q =>
          obtain ⟨v, rfl⟩ := validate_iff.mp hv
          exact h.add c.toNat _ (stat_of_valid v) ho (fun h' => absurd hp' h')
  | clear i c l p =>
    simp only [Prof16.step, clearProfile]
    split
    · exact ⟨by simp, by simp⟩
    · simp only [clear_eq]
      refine h.removeIf _ ?_
      intro e he e' he' hid
      rw [hits_iff, hits_iff]
      exact ho e he e' he' hid
  | expire now => simp only [Prof16.step, clearExpired_eq]; exact h.removeIf _ (hprof (P := expired now))
  | txStart c => exact ⟨h.uniq, h.row⟩
  | txId c i => exact ⟨h.uniq, h.row⟩
  | txEnd c =>
    simp only [Prof16.step, txEnd, clear_eq]
    have h' : Kept cfg { s with txs := s.txs.filter (fun t => t.1 != c) } := ⟨h.uniq, h.row⟩
    refine ⟨fun e he e' he' => h.uniq e (mem_removeIf.mp he).1 e' (mem_removeIf.mp he').1, ?_⟩
    intro e he hp
    obtain ⟨h1, h2⟩ := mem_removeIf.mp he
    obtain ⟨r, hr, h3⟩ := h.row e h1 hp
    refine ⟨r, db_removeIf.mpr ⟨hr, ?_⟩, h3⟩
    intro e' he' hP' hid
    have he2 := h.uniq e' he' e h1 (by rw [(mem_copies.mp h3).1]; exact hid.symm)
    simp only [Filter.hits, eqOr, Option.none_beq_some, Bool.not_false, Bool.true_and, Bool.and_true, Bool.false_or, Bool.and_eq_true, beq_iff_eq] at hP'
    exact hp (by rw [← he2]; exact hP'.2.symm)
  | restart now =>
    simp only [Prof16.step]
    rw [restart_eq hi]
    constructor
    · intro e he e' he' hid
      obtain ⟨r, hr, he⟩ := List.mem_flatMap.mp he
      obtain ⟨r', hr', he'⟩ := List.mem_flatMap.mp he'
      have h1 := (mem_copies.mp he).1
      have h2 := (mem_copies.mp he').1
      by_cases hrr : r = r'
      · rw [h1, h2, hrr]
      · exfalso
        have hne := pairwise_mem hi.distinct r (List.mem_filter.mp hr).1 r' (List.mem_filter.mp hr').1 hrr
        rw [h1, h2] at hid
        exact hne.1 hid
    · intro e he _
      exact List.mem_flatMap.mp he

/-- C122: after a restart the installed profiles are those before, except the TxProfiles.
Partial: in histories in which a profile is not set while another one of the same purpose and stack level is kept at another connector, in which
ClearChargingProfile does not remove only some of the copies of a profile, and RemoteStartTransaction uses new ids; see `C122_violated` and
`C122_copies_violated`. -/
theorem C122_partial (cfg : Cfg) (ops : List Op) (h : ∀ pre op post, ops = pre ++ op :: post → NoClash (run cfg {} pre) op) (now : Int) (e : Entry) :
    e ∈ (restart cfg (run cfg {} ops) now).mem ↔ e ∈ (run cfg {} ops).mem ∧ e.prof.purpose ≠ .tx := by
  have hk : ∀ (n : Nat), Kept cfg (run cfg {} (ops.take n)) := by
    intro n
    induction n with
    | zero => exact ⟨by simp [run], by simp [run]⟩
    | succ n ih =>
      by_cases hn : n < ops.length
      · rw [List.take_add_one, List.getElem?_eq_getElem hn]
        have h1 : run cfg {} (ops.take n ++ [ops[n]]) = step cfg (run cfg {} (ops.take n)) ops[n] := by rw [run, List.foldl_append]; rfl
        rw [Option.toList_some, h1]
        refine ih.step (inv_run cfg _) _ (h (ops.take n) ops[n] (ops.drop (n + 1)) ?_)
        simp
      · rw [List.take_of_length_le (by omega)]
        rwa [List.take_of_length_le (by omega)] at ih
  have k := hk ops.length
  rw [List.take_length] at k
  have i := inv_run cfg ops
  rw [restart_eq i]
  constructor
  · intro he
    obtain ⟨r, hr, he⟩ := List.mem_flatMap.mp he
    obtain ⟨h1, h2⟩ := List.mem_filter.mp hr
    refine ⟨i.row r h1 e he, ?_⟩
    rw [(mem_copies.mp he).1]; simpa [notTx] using h2
  · rintro ⟨he, hp⟩
    obtain ⟨r, hr, h1⟩ := k.row e he hp
    refine List.mem_flatMap.mpr ⟨r, List.mem_filter.mpr ⟨hr, ?_⟩, h1⟩
    have := (mem_copies.mp h1).1
    rw [this] at hp; simpa [notTx] using hp

/-- Nothing comes back with a restart that was not installed before, in any history. -/
theorem C122_no_more (cfg : Cfg) (s : S) (hs : Reachable cfg s) (now : Int) : ∀ e ∈ (restart cfg s now).mem, e ∈ s.mem := by
  intro e he
  rw [restart_eq hs.inv] at he
  obtain ⟨r, hr, he⟩ := List.mem_flatMap.mp he
  exact hs.inv.row r (List.mem_filter.mp hr).1 e he

/-- A history for the example: different stack levels at the connectors. -/
def hist2 : List Op := [.set 0 0 (prof 1 0 .txDefault), .set 0 1 (prof 2 1 .txDefault), .txStart 1, .set 0 0 (prof 1 0 .max)]

example : (∀ pre op post, hist2 = pre ++ op :: post → NoClash (run { cfg2 with maxProfiles := 9 } {} pre) op) ∧
    (run { cfg2 with maxProfiles := 9 } {} hist2).mem.map (fun e => (e.conn, e.prof.id)) = [(1, 2), (0, 1)] := by
  refine ⟨?_, by decide +kernel⟩
  intro pre op post e
  match pre, e with
  | [], e => injection e with e _; subst e; intro x hx; simp [run] at hx
  | [_], e =>
    injection e with e0 e; injection e with e _; subst e0; subst e
    intro x hx
    have : ∀ x ∈ (run { cfg2 with maxProfiles := 9 } {} [.set 0 0 (prof 1 0 .txDefault)]).mem, x.prof.level = 0 := by decide +kernel
    intro _ h; rw [this x hx] at h; exact absurd h (by decide)
  | [_, _], e => injection e with _ e; injection e with _ e; injection e with e _; subst e; trivial
  | [_, _, _], e =>
    injection e with e0 e; injection e with e1 e; injection e with e2 e; injection e with e _; subst e0; subst e1; subst e2; subst e
    intro x hx
    have : ∀ x ∈ (run { cfg2 with maxProfiles := 9 } {} [.set 0 0 (prof 1 0 .txDefault), .set 0 1 (prof 2 1 .txDefault), .txStart 1]).mem, x.prof.purpose = .txDefault := by
      decide +kernel
    intro h; rw [this x hx] at h; exact absurd h (by decide)
  | _ :: _ :: _ :: _ :: pre, e => simp [hist2] at e

/-- C122 is false of the code: profiles of the same purpose and stack level at two connectors are both installed, but the row of the first one is deleted from the
database when the second one is stored.  After a restart the first connector has no profile. -/
theorem C122_violated : ∃ cfg p q now, (setProfile cfg {} now 1 p).2 = true ∧ (setProfile cfg (setProfile cfg {} now 1 p).1 now 2 q).2 = true ∧
    inEffect (setProfile cfg (setProfile cfg {} now 1 p).1 now 2 q).1 1 = [p] ∧
    inEffect (restart cfg (setProfile cfg (setProfile cfg {} now 1 p).1 now 2 q).1 now) 1 = [] :=
  ⟨cfg2, prof 1 0 .txDefault, prof 2 0 .txDefault, 0, by decide +kernel⟩

/-- C122 is false of the code: if one of the copies of a profile for all connectors is cleared, the row of all is deleted, and after a restart the other copies are
gone. -/
theorem C122_copies_violated : ∃ cfg p now, (setProfile cfg {} now 0 p).2 = true ∧
    inEffect (clearProfile (setProfile cfg {} now 0 p).1 none (some 1) none none).1 2 = [p] ∧
    inEffect (restart cfg (clearProfile (setProfile cfg {} now 0 p).1 none (some 1) none none).1 now) 2 = [] :=
  ⟨cfg2, prof 1 0 .txDefault, 0, by decide +kernel⟩

/-- C125: the code does not connect a resumed transaction with its connector: after a restart no TxProfile is in effect and SetChargingProfile refuses
TxProfiles, until a new transaction starts. -/
theorem C125_resumed_violated (cfg : Cfg) (s : S) (hs : Reachable cfg s) (now : Int) :
    (∀ c, ∀ q ∈ inEffect (restart cfg s now) c, q.purpose ≠ .tx) ∧
    ∀ c p, p.purpose = .tx → (setProfile cfg (restart cfg s now) now c p).2 = false := by
  rw [restart_eq hs.inv]
  constructor
  · intro c q hq
    obtain ⟨e, he, rfl, _⟩ := mem_inEffect.mp hq
    obtain ⟨r, hr, he⟩ := List.mem_flatMap.mp he
    rw [(mem_copies.mp he).1]
    simpa [notTx] using (List.mem_filter.mp hr).2
  · intro c p hp
    cases h : (setProfile cfg { mem := (s.db.filter notTx).flatMap (copies cfg), db := s.db.filter notTx, txs := [] } now c p).2 with
    | false => rfl
    | true =>
      have := ((C120_answer _ _ _ _ _).mp h).2.tx hp
      exact absurd (by simp [S.tx]) (this.2.1 rfl)

theorem put_length (m : List Entry) (e : Entry) : (put m e).length ≤ m.length + 1 := by
  unfold put; rw [List.length_append, List.length_singleton]; exact Nat.succ_le_succ (List.length_filter_le _ _)

theorem puts_length (p : Profile) : ∀ (l : List Nat) (m : List Entry), (l.foldl (fun m t => put m { conn := t, prof := p }) m).length ≤ m.length + l.length := by
  intro l
  induction l with
  | nil => intro m; simp
  | cons t l ih => intro m; have := ih (put m ⟨t, p⟩); have := put_length m ⟨t, p⟩; simp only [List.foldl_cons, List.length_cons]; omega

theorem targets_length (cfg : Cfg) (c : Nat) (p : Profile) : (targets cfg c p).length ≤ max 1 cfg.connectors := by
  unfold targets
  split
  · simp only [List.length_singleton]; omega
  · split
    · simp only [List.length_map, List.length_range]; omega
    · simp only [List.length_singleton]; omega
  · simp only [List.length_singleton]; omega

/-- C123: the number of installed profiles stays below the configured maximum plus the number of connectors, in all histories.
Partial: it may exceed the maximum, see `C123_violated`. -/
theorem C123_partial (cfg : Cfg) (ops : List Op) (hm : 0 < cfg.maxProfiles) : ((run cfg {} ops).mem.length : Int) < cfg.maxProfiles + max 1 cfg.connectors := by
  have key : ∀ (ops : List Op) (s : S), Inv cfg s → (s.mem.length : Int) < cfg.maxProfiles + max 1 cfg.connectors →
      ((run cfg s ops).mem.length : Int) < cfg.maxProfiles + max 1 cfg.connectors := by
    intro ops
    induction ops with
    | nil => intro s _ h; exact h
    | cons op ops ih =>
      intro s hi h
      refine ih _ (hi.step op) ?_
      have hrem : ∀ (s' : S) (P : Entry → Bool), (removeIf s' P).mem.length ≤ s'.mem.length := fun s' P => List.length_filter_le _ _
      cases op with
      | set now c p =>
        simp only [step, setProfile]
        split
        · exact h
        · cases hv : validate cfg s now p c false with
          | none => exact h
          | some q =>
            obtain ⟨v, rfl⟩ := validate_iff.mp hv
            simp only [add, clear_eq]
            have h2 := hrem s (Filter.hits { id := some (adjusted now p).id, idOnly := true })
            have h3 := hrem (removeIf s (Filter.hits { id := some (adjusted now p).id, idOnly := true }))
              (Filter.hits { conn := some c, level := some (adjusted now p).level, purpose := some (adjusted now p).purpose })
            have h4 := targets_length cfg c.toNat (adjusted now p)
            have h5 := v.room
            refine Int.lt_of_le_of_lt (Int.ofNat_le.mpr (puts_length _ _ _)) ?_
            omega
      | remote now c p =>
        simp only [step, remoteProfile]
        split
        · exact h
        · rename_i c
          split
          · exact h
          · cases hv : validate cfg s now p c true with
            | none => exact h
            | some q =>
              obtain ⟨v, rfl⟩ := validate_iff.mp hv
              have h1 := puts_length (adjusted now p) (targets cfg c.toNat (adjusted now p)) s.mem
              have h4 := targets_length cfg c.toNat (adjusted now p)
              have h5 := v.room
              simp only [add]
              omega
      | clear i c l p =>
        simp only [step, clearProfile]
        split
        · simp only [List.length_nil]; omega
        · simp only [clear_eq]; have := hrem s; exact Int.lt_of_le_of_lt (Int.ofNat_le.mpr (hrem _ _)) h
      | expire now => simp only [step, clearExpired_eq]; exact Int.lt_of_le_of_lt (Int.ofNat_le.mpr (hrem _ _)) h
      | txStart c => exact h
      | txId c i => exact h
      | txEnd c => simp only [step, txEnd, clear_eq]; exact Int.lt_of_le_of_lt (Int.ofNat_le.mpr (hrem _ _)) h
      | restart now =>
        simp only [step]
        have h1 : (restart cfg s now).mem.length ≤ s.mem.length := by
          rw [restart_eq hi]
          exact Nat.le_trans (weight_sublist (cfg := cfg) List.filter_sublist) (weight_le hi)
        omega
  exact key ops {} (inv_init cfg) (by simp only [List.length_nil]; omega)

example : (run { cfg2 with maxProfiles := 1 } {} [.set 0 0 (prof 1 0 .txDefault)]).mem.length = 2 := by decide +kernel

/-- C123 is false of the code: one profile for connector 0 counts once for each connector, and may exceed the maximum.  The station then even refuses its replacement. -/
theorem C123_violated : ∃ cfg ops, 0 < cfg.maxProfiles ∧ ((run cfg {} ops).mem.length : Int) > cfg.maxProfiles :=
  ⟨{ cfg2 with maxProfiles := 1 }, [.set 0 0 (prof 1 0 .txDefault)], by decide +kernel⟩

end Verif.Prof16
