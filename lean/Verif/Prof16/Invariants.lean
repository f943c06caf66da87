import Verif.Prof16.Lemmas

namespace Verif.Prof16

set_option linter.constructorNameAsVariable false

/-- The installed profiles that belong to a row. -/
def copies (cfg : Cfg) (r : Entry) : List Entry := (targets cfg r.conn r.prof).map (fun t => ⟨t, r.prof⟩)

theorem mem_copies {cfg : Cfg} {r e : Entry} : e ∈ copies cfg r ↔ e.prof = r.prof ∧ Concerns cfg r.conn r.prof.purpose e.conn := by
  unfold copies
  rw [List.mem_map]
  constructor
  · rintro ⟨t, ht, rfl⟩; exact ⟨rfl, mem_targets.mp ht⟩
  · rintro ⟨h1, h2⟩; exact ⟨e.conn, mem_targets.mpr h2, by cases e; simp_all⟩

/-- How many installed profiles belong to rows. -/
def weight (cfg : Cfg) (l : List Entry) : Nat := (l.flatMap (copies cfg)).length

def Distinct (r r' : Entry) : Prop := r.prof.id ≠ r'.prof.id ∧ ¬ (r.prof.level = r'.prof.level ∧ r.prof.purpose = r'.prof.purpose)

theorem Distinct.symm {r r' : Entry} (h : Distinct r r') : Distinct r' r := ⟨h.1.symm, fun h' => h.2 ⟨h'.1.symm, h'.2.symm⟩⟩

/-- Memory and database agree, and every row can be loaded again. -/
structure Inv (cfg : Cfg) (s : S) : Prop where
  wf : ∀ e ∈ s.mem, (e.prof.purpose = .max → e.conn = 0) ∧ (e.prof.purpose ≠ .max → 1 ≤ e.conn ∧ e.conn ≤ cfg.connectors)
  distinct : s.db.Pairwise Distinct
  row : ∀ r ∈ s.db, ∀ e ∈ copies cfg r, e ∈ s.mem
  stat : ∀ r ∈ s.db, Stat cfg r.conn r.prof
  supp : ∀ r ∈ s.db, r.prof.purpose ≠ .tx → r.prof.purpose ∈ cfg.purposes
  cap : ∀ a r b, s.db = a ++ r :: b → (weight cfg a : Int) < cfg.maxProfiles

theorem weight_append (cfg : Cfg) (a b : List Entry) : weight cfg (a ++ b) = weight cfg a + weight cfg b := by simp [weight]

theorem weight_sublist {cfg : Cfg} {a b : List Entry} (h : a.Sublist b) : weight cfg a ≤ weight cfg b := by
  induction h with
  | slnil => exact Nat.le_refl _
  | cons x _ ih => rw [← List.singleton_append, weight_append]; omega
  | @cons_cons l₁ l₂ x _ ih =>
    rw [← List.singleton_append, weight_append, ← List.singleton_append (l := l₂), weight_append]; omega

theorem copies_nodup (cfg : Cfg) (r : Entry) : (copies cfg r).Nodup := by
  unfold copies
  rw [List.nodup_iff_pairwise_ne, List.pairwise_map]
  exact (List.nodup_iff_pairwise_ne.mp (targets_nodup cfg r.conn r.prof)).imp (fun h e => h (by injection e))

theorem weight_le {cfg : Cfg} {s : S} (h : Inv cfg s) : weight cfg s.db ≤ s.mem.length := by
  have hn : (s.db.flatMap (copies cfg)).Nodup := by
    have hd := h.distinct
    generalize s.db = db at hd
    induction db with
    | nil => simp
    | cons r db ih =>
      rw [List.flatMap_cons, List.nodup_append]
      obtain ⟨h1, h2⟩ := List.pairwise_cons.mp hd
      refine ⟨copies_nodup cfg r, ih h2, ?_⟩
      intro a ha b hb e
      subst e
      obtain ⟨r', hr', hb⟩ := List.mem_flatMap.mp hb
      have e : r.prof = r'.prof := (mem_copies.mp ha).1.symm.trans (mem_copies.mp hb).1
      exact (h1 r' hr').1 (by rw [e])
  have hs : (s.db.flatMap (copies cfg)) ⊆ s.mem := by
    intro e he
    obtain ⟨r, hr, he⟩ := List.mem_flatMap.mp he
    exact h.row r hr e he
  exact (List.subperm_of_subset hn hs).length_le

theorem cap_sublist {cfg : Cfg} {db db' : List Entry} (hs : db'.Sublist db) (h : ∀ a r b, db = a ++ r :: b → (weight cfg a : Int) < cfg.maxProfiles) :
    ∀ a r b, db' = a ++ r :: b → (weight cfg a : Int) < cfg.maxProfiles := by
  intro a r b e
  subst e
  obtain ⟨x, y, rfl, h1, h2⟩ := List.append_sublist_iff.mp hs
  obtain ⟨y1, y2, rfl, h3, h4⟩ := List.cons_sublist_iff.mp h2
  obtain ⟨z, w, rfl⟩ := List.append_of_mem h3
  have h5 := h (x ++ z) r (w ++ y2) (by simp)
  have h6 : weight cfg a ≤ weight cfg (x ++ z) := weight_sublist (h1.trans (List.sublist_append_left x z))
  omega

theorem inv_init (cfg : Cfg) : Inv cfg {} := by constructor <;> simp

theorem db_sublist (s : S) (P : Entry → Bool) : (removeIf s P).db.Sublist s.db := by
  simp only [removeIf, foldl_delete]; exact List.filter_sublist

theorem Inv.removeIf {cfg : Cfg} {s : S} (h : Inv cfg s) (P : Entry → Bool) : Inv cfg (removeIf s P) := by
  have hd := db_sublist s P
  refine ⟨fun e he => h.wf e (mem_removeIf.mp he).1, h.distinct.sublist hd, ?_, fun r hr => h.stat r (hd.subset hr), fun r hr => h.supp r (hd.subset hr),
    cap_sublist hd h.cap⟩
  intro r hr e he
  obtain ⟨h1, h2⟩ := db_removeIf.mp hr
  refine mem_removeIf.mpr ⟨h.row r h1 e he, ?_⟩
  cases hP : P e with
  | false => rfl
  | true => exact absurd (by rw [(mem_copies.mp he).1]) (h2 e (h.row r h1 e he) hP)

theorem Inv.add {cfg : Cfg} {s : S} (h : Inv cfg s) (c : Nat) (p : Profile) (hs : Stat cfg c p) (hp : p.purpose ≠ .tx → p.purpose ∈ cfg.purposes)
    (hw : (weight cfg s.db : Int) < cfg.maxProfiles) : Inv cfg (add cfg s c p) := by
  obtain ⟨g1, g2, g3, g4, g5, g6, g7⟩ := hs
  have hc : (if p.purpose = .max then 0 else c) = c := by
    split
    · rename_i h'; exact (g6 h').1.symm
    · rfl
  unfold Prof16.add
  rw [hc]
  have hsub : (((s.db.filter (fun x => !(x.prof.level == p.level && x.prof.purpose == p.purpose))).filter (fun x => x.prof.id != p.id))).Sublist s.db :=
    List.filter_sublist.trans List.filter_sublist
  constructor
  · intro e he
    rcases (mem_puts p _ _ e).mp he with ⟨h1, h2⟩ | ⟨h1, _⟩
    · rw [mem_targets] at h2
      rw [h1]
      unfold Concerns at h2
      cases hpp : p.purpose with
      | max => rw [hpp] at h2; simpa using h2
      | tx => rw [hpp] at h2; have := g7 hpp; simp only at h2; simp; omega
      | txDefault =>
        rw [hpp] at h2
        simp only at h2
        split at h2
        · simpa using h2
        · simp; omega
    · exact h.wf e h1
  · simp only [store]
    rw [List.pairwise_append]
    refine ⟨h.distinct.sublist hsub, by simp, ?_⟩
    intro a ha b hb
    rw [List.mem_singleton] at hb; subst hb
    simp only [List.mem_filter, Bool.not_eq_true', Bool.and_eq_false_iff, beq_eq_false_iff_ne, bne_iff_ne] at ha
    exact ⟨ha.2, by tauto⟩
  · intro r hr e he
    refine (mem_puts p _ _ e).mpr ?_
    rcases mem_store.mp hr with rfl | ⟨h1, h2, h3⟩
    · obtain ⟨a1, a2⟩ := mem_copies.mp he
      exact .inl ⟨a1, mem_targets.mpr a2⟩
    · refine .inr ⟨h.row r h1 e he, ?_⟩
      rw [(mem_copies.mp he).1]
      intro h'
      exact h2 ⟨h'.2.2, h'.2.1⟩
  · intro r hr
    rcases mem_store.mp hr with rfl | ⟨h1, h2, h3⟩
    · exact ⟨g1, g2, g3, g4, g5, g6, g7⟩
    · exact h.stat r h1
  · intro r hr
    rcases mem_store.mp hr with rfl | ⟨h1, h2, h3⟩
    · exact hp
    · exact h.supp r h1
  · intro a r b e
    rw [show store s.db ⟨c, p⟩ = ((s.db.filter (fun x => !(x.prof.level == p.level && x.prof.purpose == p.purpose))).filter (fun x => x.prof.id != p.id)) ++ [⟨c, p⟩]
      from rfl] at e
    rcases List.append_eq_append_iff.mp e with ⟨a', h1, h2⟩ | ⟨c', h1, h2⟩
    · cases a' with
      | nil =>
        rw [List.append_nil] at h1
        rw [h1]
        have := weight_sublist (cfg := cfg) hsub
        omega
      | cons y a' => simp at h2
    · cases c' with
      | nil =>
        rw [List.append_nil] at h1
        rw [← h1]
        have := weight_sublist (cfg := cfg) hsub
        omega
      | cons y c' =>
        simp only [List.cons_append, List.cons.injEq] at h2
        obtain ⟨rfl, rfl⟩ := h2
        exact cap_sublist hsub h.cap a r c' h1

theorem stat_of_valid {cfg : Cfg} {s : S} {now c : Int} {p : Profile} {b : Bool} (v : Valid cfg s c p b) : Stat cfg c.toNat (adjusted now p) := by
  refine ⟨by have := v.conn; omega, v.level, ?_, ?_, ?_, ?_, ?_⟩
  · have : scheduleOk cfg (adjusted now p) = scheduleOk cfg p := rfl
    rw [this]; exact scheduleOk_iff.mpr ⟨v.periods, v.unit, v.limits⟩
  · intro hk
    have hk' : p.kind ≠ .relative := hk
    simp [adjusted, hk']
  · intro hk
    have hk' : p.kind = .recurring := hk
    refine ⟨v.recurring hk', ?_⟩
    intro d hd
    simp only [adjusted, hk', if_true, Option.map_eq_some_iff] at hd ⊢
    obtain ⟨x, _, rfl⟩ := hd
    rw [← min_longest]
    split <;> omega
  · intro hm
    have := v.max hm
    exact ⟨by omega, this.2⟩
  · intro hm
    have := (v.tx hm).1
    have := v.conn
    omega

theorem adjusted_self {cfg : Cfg} {now : Int} {c : Nat} {p : Profile} (h : Stat cfg c p) : adjusted now p = p := by
  obtain ⟨_, _, _, g4, g5, _⟩ := h
  unfold adjusted
  have h1 : (if p.kind = .relative then p.start else some (p.start.getD now)) = p.start := by
    split
    · rfl
    · rename_i hk
      cases hs : p.start with
      | none => exact absurd hs (g4 hk)
      | some t => rfl
  have h2 : (if p.kind = .recurring then p.duration.map (fun d => min d (if p.recurrency = some .daily then 86400 else 604800)) else p.duration) = p.duration := by
    split
    · rename_i hk
      cases hd : p.duration with
      | none => rfl
      | some d =>
        have := (g5 hk).2 d hd
        simp only [Option.map_some, Option.some.injEq, ← min_longest]
        rw [if_neg (by omega)]
    · rfl
  rw [h1, h2]

theorem valid_of_stat {cfg : Cfg} {s : S} {c : Nat} {p : Profile} (h : Stat cfg c p) (hr : (s.mem.length : Int) < cfg.maxProfiles) (hp : p.purpose ≠ .tx) :
    Valid cfg s c p false := by
  obtain ⟨g1, g2, g3, g4, g5, g6, g7⟩ := h
  have hs := scheduleOk_iff.mp g3
  exact ⟨by omega, g2, hr, hs.1, hs.2.1, hs.2.2, fun hk => .inl (g4 hk), fun hk => (g5 hk).1, fun hm => ⟨by have := (g6 hm).1; omega, (g6 hm).2⟩,
    fun hm => absurd hm hp⟩

theorem puts_append (p : Profile) : ∀ (l : List Nat) (m : List Entry), l.Nodup → (∀ x ∈ m, ¬ (x.conn ∈ l ∧ x.prof.purpose = p.purpose ∧ x.prof.level = p.level)) →
    l.foldl (fun m t => put m { conn := t, prof := p }) m = m ++ l.map (fun t => ⟨t, p⟩) := by
  intro l
  induction l with
  | nil => intro m _ _; simp
  | cons t l ih =>
    intro m hn hm
    obtain ⟨h1, h2⟩ := List.nodup_cons.mp hn
    have hp : put m ⟨t, p⟩ = m ++ [⟨t, p⟩] := by
      unfold put
      rw [List.filter_eq_self.mpr]
      intro x hx
      have := hm x hx
      simp only [List.mem_cons, Bool.not_eq_true', Bool.and_eq_false_iff, beq_eq_false_iff_ne] at this ⊢
      tauto
    rw [List.foldl_cons, hp, ih _ h2]
    · simp
    · intro x hx
      rcases List.mem_append.mp hx with hx | hx
      · intro h'; exact hm x hx ⟨List.mem_cons_of_mem _ h'.1, h'.2⟩
      · rw [List.mem_singleton] at hx; subst hx
        intro h'; exact h1 h'.1

def notTx (r : Entry) : Bool := r.prof.purpose != .tx

theorem load_fold (cfg : Cfg) (now : Int) : ∀ (b k : List Entry), (b ++ k).Pairwise Distinct → (∀ r ∈ b, Stat cfg r.conn r.prof) →
    (∀ r ∈ b, r.prof.purpose ≠ .tx → r.prof.purpose ∈ cfg.purposes) →
    (∀ x r y, b = x ++ r :: y → (weight cfg (k ++ x.filter notTx) : Int) < cfg.maxProfiles) →
    (b.map (·.prof)).foldl (loadOne cfg now) { mem := k.flatMap (copies cfg), db := b ++ k, txs := [] } =
      { mem := (k ++ b.filter notTx).flatMap (copies cfg), db := k ++ b.filter notTx, txs := [] } := by
  intro b
  induction b with
  | nil => intro k _ _ _ _; simp
  | cons r b ih =>
    intro k hd hs hp hw
    rw [List.map_cons, List.foldl_cons]
    rw [List.cons_append, List.pairwise_cons] at hd
    have hfind : connectorOf (r :: b ++ k) r.prof.id = some r.conn := by simp [connectorOf]
    have hr := hs r (by simp)
    have hdel : delete (r :: b ++ k) r.prof.id = b ++ k := by
      unfold delete
      rw [List.cons_append, List.filter_cons_of_neg (by simp), List.filter_eq_self.mpr]
      intro x hx
      simpa using (hd.1 x hx).1.symm
    by_cases ht : r.prof.purpose = .tx
    · have hv : validate cfg { mem := k.flatMap (copies cfg), db := r :: b ++ k, txs := [] } now r.prof r.conn false = none := by
        cases hv : validate cfg { mem := k.flatMap (copies cfg), db := r :: b ++ k, txs := [] } now r.prof r.conn false with
        | none => rfl
        | some q =>
          have := ((validate_iff.mp hv).1.tx ht).2.1 rfl
          simp [S.tx] at this
      have h1 : loadOne cfg now { mem := k.flatMap (copies cfg), db := r :: b ++ k, txs := [] } r.prof =
          { mem := k.flatMap (copies cfg), db := b ++ k, txs := [] } := by
        unfold loadOne
        rw [hfind]
        simp only [hv, hdel]
      rw [h1, ih k hd.2 (fun x hx => hs x (by simp [hx])) (fun x hx => hp x (by simp [hx]))]
      · rw [List.filter_cons_of_neg (by simp [notTx, ht])]
      · intro x q y e
        have := hw (r :: x) q y (by rw [e]; rfl)
        rwa [List.filter_cons_of_neg (by simp [notTx, ht])] at this
    · have hroom := hw [] r b rfl
      simp only [List.filter_nil, List.append_nil] at hroom
      have hv : validate cfg { mem := k.flatMap (copies cfg), db := r :: b ++ k, txs := [] } now r.prof r.conn false = some r.prof :=
        validate_iff.mpr ⟨valid_of_stat hr hroom ht, (adjusted_self hr).symm⟩
      have h1 : loadOne cfg now { mem := k.flatMap (copies cfg), db := r :: b ++ k, txs := [] } r.prof =
          { mem := (k ++ [r]).flatMap (copies cfg), db := b ++ (k ++ [r]), txs := [] } := by
        unfold loadOne
        rw [hfind]
        simp only [hv]
        rw [if_pos (by simpa using hp r (by simp) ht)]
        unfold add
        have hc : (if r.prof.purpose = .max then 0 else r.conn) = r.conn := by
          split
          · rename_i h'; exact (hr.2.2.2.2.2.1 h').1.symm
          · rfl
        rw [hc, puts_append r.prof _ _ (targets_nodup _ _ _)]
        · have hst : store (r :: b ++ k) ⟨r.conn, r.prof⟩ = b ++ (k ++ [r]) := by
            unfold store
            rw [List.cons_append, List.filter_cons_of_neg (by simp)]
            have e1 : (b ++ k).filter (fun x => !(x.prof.level == r.prof.level && x.prof.purpose == r.prof.purpose)) = b ++ k := by
              refine List.filter_eq_self.mpr ?_
              intro x hx
              have := (hd.1 x hx).2
              simp only [Bool.not_eq_true', Bool.and_eq_false_iff, beq_eq_false_iff_ne]
              by_cases h5 : x.prof.level = r.prof.level
              · exact .inr (fun h6 => this ⟨h5.symm, h6.symm⟩)
              · exact .inl h5
            have e2 : (b ++ k).filter (fun x => x.prof.id != r.prof.id) = b ++ k := by
              refine List.filter_eq_self.mpr ?_
              intro x hx; simpa using (hd.1 x hx).1.symm
            rw [e1, e2, List.append_assoc]
          rw [hst]
          simp [copies]
        · intro x hx h'
          obtain ⟨q, hq, hx⟩ := List.mem_flatMap.mp hx
          have h4 := (mem_copies.mp hx).1
          rw [h4] at h'
          exact (hd.1 q (List.mem_append_right _ hq)).2 ⟨h'.2.2.symm, h'.2.1.symm⟩
      rw [h1, ih (k ++ [r]) ?_ (fun x hx => hs x (by simp [hx])) (fun x hx => hp x (by simp [hx]))]
      · rw [List.filter_cons_of_pos (by simp [notTx, ht])]; simp
      · intro x q y e
        have := hw (r :: x) q y (by rw [e]; rfl)
        rw [List.filter_cons_of_pos (by simp [notTx, ht])] at this
        simpa using this
      · rw [← List.append_assoc, List.pairwise_append]
        refine ⟨hd.2, by simp, ?_⟩
        intro x hx y hy
        rw [List.mem_singleton] at hy; subst hy
        exact (hd.1 x hx).symm

theorem restart_eq {cfg : Cfg} {s : S} (h : Inv cfg s) (now : Int) :
    restart cfg s now = { mem := (s.db.filter notTx).flatMap (copies cfg), db := s.db.filter notTx, txs := [] } := by
  have := load_fold cfg now s.db [] (by simpa using h.distinct) h.stat h.supp (by
    intro x r y e
    have h1 := h.cap x r y e
    have h2 : weight cfg ([] ++ x.filter notTx) ≤ weight cfg x := weight_sublist (by simp)
    omega)
  simpa [restart] using this

theorem concerns_wf {cfg : Cfg} {c t : Nat} {p : Profile} (hs : Stat cfg c p) (h : Concerns cfg c p.purpose t) :
    (p.purpose = .max → t = 0) ∧ (p.purpose ≠ .max → 1 ≤ t ∧ t ≤ cfg.connectors) := by
  obtain ⟨g1, _, _, _, _, g6, g7⟩ := hs
  unfold Concerns at h
  cases hpp : p.purpose with
  | max => rw [hpp] at h; simpa using h
  | tx => rw [hpp] at h; have := g7 hpp; simp only at h; simp; omega
  | txDefault =>
    rw [hpp] at h
    simp only at h
    split at h
    · simpa using h
    · simp; omega

theorem Inv.restart {cfg : Cfg} {s : S} (h : Inv cfg s) (now : Int) : Inv cfg (restart cfg s now) := by
  rw [restart_eq h]
  have hsub : (s.db.filter notTx).Sublist s.db := List.filter_sublist
  refine ⟨?_, h.distinct.sublist hsub, fun r hr e he => List.mem_flatMap.mpr ⟨r, hr, he⟩, fun r hr => h.stat r (hsub.subset hr), fun r hr => h.supp r (hsub.subset hr),
    cap_sublist hsub h.cap⟩
  intro e he
  obtain ⟨r, hr, he⟩ := List.mem_flatMap.mp he
  obtain ⟨h1, h2⟩ := mem_copies.mp he
  rw [h1]
  exact concerns_wf (h.stat r (hsub.subset hr)) h2

theorem Inv.set {cfg : Cfg} {s : S} (h : Inv cfg s) (now c : Int) (p : Profile) : Inv cfg (setProfile cfg s now c p).1 := by
  unfold setProfile
  split
  · exact h
  · rename_i hp
    cases hv : validate cfg s now p c false with
    | none => exact h
    | some q =>
      obtain ⟨v, rfl⟩ := validate_iff.mp hv
      simp only [clear_eq]
      have hp' : p.purpose ∈ cfg.purposes := by simpa using hp
      refine ((h.removeIf _).removeIf _).add c.toNat _ (stat_of_valid v) (fun _ => hp') ?_
      have h2 := weight_le h
      have h3 := v.room
      refine Int.lt_of_le_of_lt ?_ h3
      refine Int.ofNat_le.mpr (Nat.le_trans (weight_sublist ?_) h2)
      exact (db_sublist _ _).trans (db_sublist s _)

theorem Inv.remote {cfg : Cfg} {s : S} (h : Inv cfg s) (now : Int) (c : Option Int) (p : Profile) : Inv cfg (remoteProfile cfg s now c p).1 := by
  unfold remoteProfile
  split
  · exact h
  · rename_i c
    split
    · exact h
    · rename_i hp
      cases hv : validate cfg s now p c true with
      | none => exact h
      | some q =>
        obtain ⟨v, rfl⟩ := validate_iff.mp hv
        refine h.add c.toNat _ (stat_of_valid v) (fun h' => absurd ?_ h') ?_
        · have : p.purpose = .tx := by simpa using hp
          exact this
        · have h2 := weight_le h
          have h3 := v.room
          omega

theorem Inv.txs {cfg : Cfg} {s : S} (h : Inv cfg s) (t : List (Nat × Option Int)) : Inv cfg { s with txs := t } :=
  ⟨h.wf, h.distinct, h.row, h.stat, h.supp, h.cap⟩

theorem Inv.step {cfg : Cfg} {s : S} (h : Inv cfg s) (op : Op) : Inv cfg (step cfg s op) := by
  cases op with
  | set now c p => exact h.set now c p
  | remote now c p => exact h.remote now c p
  | clear i c l p =>
    simp only [Prof16.step, clearProfile]
    split
    · exact ⟨by simp, by simp, by simp, by simp, by simp, by simp⟩
    · simp only [clear_eq]; exact h.removeIf _
  | expire now => simp only [Prof16.step, clearExpired_eq]; exact h.removeIf _
  | txStart c => exact h.txs _
  | txId c i => exact h.txs _
  | txEnd c => simp only [Prof16.step, txEnd, clear_eq]; exact (h.txs _).removeIf _
  | restart now => exact h.restart now

theorem inv_run (cfg : Cfg) (ops : List Op) : Inv cfg (run cfg {} ops) := by
  have : ∀ (ops : List Op) (s : S), Inv cfg s → Inv cfg (run cfg s ops) := by
    intro ops
    induction ops with
    | nil => intro s h; exact h
    | cons op ops ih => intro s h; exact ih _ (h.step op)
  exact this ops {} (inv_init cfg)

end Verif.Prof16
