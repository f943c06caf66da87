import Verif.InitDb.Model
/-
Lemmas about the two loops that bring rows in line with the configuration.
-/
set_option linter.constructorNameAsVariable false
set_option linter.unusedSectionVars false

namespace Verif.InitDb

variable {N O K : Type} [DecidableEq K]

/-- What a kind of rows must satisfy for the loops to do what they are meant to do: `vis` says which rows are
read, `rd` how a row is read, `ok o b` that the row is in order and its ids are below `b`, `T n` that the
entry is in order. -/
structure Lawful (s : Sync N O K) (vis : O → Bool) (rd : O → O) (ok : O → Nat → Prop) (T : N → Prop) : Prop where
  rd_id : ∀ o, s.oid (rd o) = s.oid o
  rd_key : ∀ o, s.keyO (rd o) = s.keyO o
  mono : ∀ o b b', ok o b → b ≤ b' → ok o b'
  id_lt : ∀ o b, ok o b → s.oid o < b
  ins_id : ∀ n x, s.oid (s.ins n x).1 = x.next
  ins_next : ∀ n x, x.next < (s.ins n x).2.next
  ins_key : ∀ n x, T n → s.keyO (s.ins n x).1 = s.keyN n
  ins_vis : ∀ n x, T n → vis (s.ins n x).1 = true
  ins_ok : ∀ n x, T n → ok (s.ins n x).1 (s.ins n x).2.next
  upd_id : ∀ n d o x, s.oid (s.upd n d o x).1 = s.oid o
  upd_next : ∀ n d o x, x.next ≤ (s.upd n d o x).2.next
  upd_key : ∀ n o x, T n → s.keyO o = s.keyN n → s.keyO (s.upd n (rd o) o x).1 = s.keyN n
  upd_vis : ∀ n o x, T n → vis o = true → ok o x.next → s.keyO o = s.keyN n →
    vis (s.upd n (rd o) o x).1 = true
  upd_ok : ∀ n o x, T n → vis o = true → ok o x.next → s.keyO o = s.keyN n →
    ok (s.upd n (rd o) o x).1 (s.upd n (rd o) o x).2.next

/-- Keys of the rows that are read. -/
def vkeys (s : Sync N O K) (vis : O → Bool) (l : List O) : List K := (l.filter vis).map s.keyO

/-- The rows that are read. -/
def olds (vis : O → Bool) (rd : O → O) (l : List O) : List O := (l.filter vis).map rd

theorem find_key_none {s : Sync N O K} {vis : O → Bool} {rd : O → O} {l : List O} {k : K}
    (hk : ∀ o, s.keyO (rd o) = s.keyO o)
    (h : (olds vis rd l).find? (fun d => decide (s.keyO d = k)) = none) :
    ∀ o ∈ l, vis o = true → s.keyO o ≠ k := by
  intro o ho hv he
  have := List.find?_eq_none.1 h (rd o) (List.mem_map.2 ⟨o, List.mem_filter.2 ⟨ho, hv⟩, rfl⟩)
  simp [hk, he] at this

theorem find_key_some {s : Sync N O K} {vis : O → Bool} {rd : O → O} {l : List O} {k : K} {d : O}
    (hk : ∀ o, s.keyO (rd o) = s.keyO o)
    (h : (olds vis rd l).find? (fun d => decide (s.keyO d = k)) = some d) :
    ∃ o ∈ l, vis o = true ∧ d = rd o ∧ s.keyO o = k := by
  have h1 := List.find?_some h
  have h2 := List.mem_of_find?_eq_some h
  obtain ⟨o, ho, rfl⟩ := List.mem_map.1 h2
  obtain ⟨ho, hv⟩ := List.mem_filter.1 ho
  exact ⟨o, ho, hv, rfl, by simpa [hk] using h1⟩

/-! ### Deleting -/

theorem delete_eq (s : Sync N O K) (ds : List O) (news : List N) (cur : List O) :
    s.delete ds news cur = cur.filter (fun o => ds.all (fun d =>
      news.any (fun n => decide (s.keyN n = s.keyO d)) || decide (s.oid o ≠ s.oid d))) := by
  unfold Sync.delete
  induction ds generalizing cur with
  | nil => simp only [List.foldl_nil, List.all_nil]; exact (List.filter_eq_self.2 (fun _ _ => rfl)).symm
  | cons d r ih =>
    simp only [List.foldl_cons, List.all_cons]
    by_cases h : news.any (fun n => decide (s.keyN n = s.keyO d)) = true
    · simp only [h, if_true, Bool.true_or, Bool.true_and, ih]
    · simp only [Bool.not_eq_true] at h
      simp only [h, Bool.false_or, ih]
      rw [if_neg (by simp)]
      rw [List.filter_filter]
      congr 1
      funext o
      exact Bool.and_comm _ _

theorem inj_of_nodup {A B : Type} {f : A → B} {l : List A} (h : (l.map f).Nodup) {a b : A} (ha : a ∈ l)
    (hb : b ∈ l) (e : f a = f b) : a = b := by
  induction l with
  | nil => cases ha
  | cons c r ih =>
    simp only [List.map_cons, List.nodup_cons, List.mem_map, not_exists, not_and] at h
    rcases List.mem_cons.1 ha with ha' | ha'
    · rcases List.mem_cons.1 hb with hb' | hb'
      · rw [ha', hb']
      · exact absurd (ha' ▸ e).symm (h.1 b hb')
    · rcases List.mem_cons.1 hb with hb' | hb'
      · exact absurd (hb' ▸ e) (h.1 a ha')
      · exact ih h.2 ha' hb'

/-- With distinct ids exactly the rows that are read and have no entry disappear. -/
theorem delete_read {s : Sync N O K} {vis : O → Bool} {rd : O → O} {l cur : List O} {news : List N}
    (hi : ∀ o, s.oid (rd o) = s.oid o) (hk : ∀ o, s.keyO (rd o) = s.keyO o)
    (hn : (l.map s.oid).Nodup) (hsub : ∀ o ∈ cur, o ∈ l) :
    s.delete (olds vis rd l) news cur
      = cur.filter (fun o => !vis o || news.any (fun n => decide (s.keyN n = s.keyO o))) := by
  rw [delete_eq]
  apply List.filter_congr
  intro o ho
  rw [Bool.eq_iff_iff]
  simp only [List.all_eq_true, olds, List.mem_map, List.mem_filter, Bool.or_eq_true, decide_eq_true_eq,
    forall_exists_index, and_imp, Bool.not_eq_true']
  constructor
  · intro h
    cases hv : vis o with
    | false => exact .inl rfl
    | true =>
      rcases h (rd o) o (hsub o ho) hv rfl with h | h
      · exact .inr (by simpa [hk] using h)
      · exact absurd (hi o).symm h
  · rintro h d o' ho' hv' rfl
    by_cases e : s.oid o = s.oid (rd o')
    · rw [hi] at e
      have := inj_of_nodup hn (hsub o ho) ho' e
      subst this
      rcases h with h | h
      · rw [hv'] at h; cases h
      · exact .inl (by simpa [hk] using h)
    · exact .inr e

/-! ### Updating one row -/

theorem modify_split {s : Sync N O K} {i : Nat} {f : O → Ctx → O × Ctx} {a b : List O} {o : O} {x : Ctx}
    (ha : ∀ o' ∈ a, s.oid o' ≠ i) (ho : s.oid o = i) :
    s.modify i f (a ++ o :: b) x = (a ++ (f o x).1 :: b, (f o x).2) := by
  induction a with
  | nil => simp [Sync.modify, ho]
  | cons c r ih =>
    have h1 := ha c (by simp)
    have h2 := ih (fun o' h' => ha o' (by simp [h']))
    simp only [List.cons_append, Sync.modify, h1, if_false, h2]

theorem split_of_mem {A B : Type} {f : A → B} {l : List A} {a : A} (hn : (l.map f).Nodup) (ha : a ∈ l) :
    ∃ p q, l = p ++ a :: q ∧ (∀ b ∈ p, f b ≠ f a) ∧ (∀ b ∈ q, f b ≠ f a) := by
  obtain ⟨p, q, rfl⟩ := List.append_of_mem ha
  refine ⟨p, q, rfl, ?_, ?_⟩
  · intro b hb e
    simp only [List.map_append, List.map_cons, List.nodup_append, List.mem_map, List.mem_cons] at hn
    exact hn.2.2 (f b) ⟨b, hb, rfl⟩ (f a) (.inl rfl) e
  · intro b hb e
    simp only [List.map_append, List.map_cons, List.nodup_append, List.nodup_cons, List.mem_map] at hn
    exact hn.2.1.1 ⟨b, hb, e⟩

/-! ### The whole of the second loop -/

/-- The row made for an entry that had none. -/
def Ins (s : Sync N O K) (n : N) (o : O) : Prop := ∃ x, o = (s.ins n x).1

/-- The row made from an old row. -/
def Upd (s : Sync N O K) (rd : O → O) (b : Nat) (n : N) (o o' : O) : Prop :=
  ∃ x, b ≤ x.next ∧ o' = (s.upd n (rd o) o x).1

/-- The invariant of the second loop: `done` are the entries handled so far, `todo` the others. -/
structure Inv (s : Sync N O K) (vis : O → Bool) (rd : O → O) (ok : O → Nat → Prop) (b : Nat) (l : List O)
    (done todo : List N) (cur : List O) (x : Ctx) : Prop where
  next : b ≤ x.next
  ids : (cur.map s.oid).Nodup
  keys : (vkeys s vis cur).Nodup
  ok : ∀ o ∈ cur, ok o x.next
  orig : ∀ o ∈ cur, vis o = true →
    (∃ n ∈ done, s.keyO o = s.keyN n ∧
      (((∀ o₀ ∈ l, vis o₀ = true → s.keyO o₀ ≠ s.keyN n) ∧ Ins s n o)
        ∨ ∃ o₀ ∈ l, vis o₀ = true ∧ s.keyO o₀ = s.keyN n ∧ Upd s rd b n o₀ o))
    ∨ (o ∈ l ∧ ∃ n ∈ todo, s.keyO o = s.keyN n)
  made : ∀ n ∈ done, ∃ o ∈ cur, vis o = true ∧ s.keyO o = s.keyN n
  left : ∀ n ∈ todo, ∀ o ∈ l, vis o = true → s.keyO o = s.keyN n → o ∈ cur
  hidden : ∀ o, vis o = false → (o ∈ cur ↔ o ∈ l)

theorem nodup_key_find {s : Sync N O K} {vis : O → Bool} {l : List O} (h : (vkeys s vis l).Nodup) {o o' : O}
    (ho : o ∈ l) (ho' : o' ∈ l) (hv : vis o = true) (hv' : vis o' = true) (e : s.keyO o = s.keyO o') : o = o' :=
  inj_of_nodup h (List.mem_filter.2 ⟨ho, hv⟩) (List.mem_filter.2 ⟨ho', hv'⟩) e

theorem Inv.insert {s : Sync N O K} {vis : O → Bool} {rd : O → O} {ok : O → Nat → Prop} {T : N → Prop}
    (L : Lawful s vis rd ok T) {b : Nat} {l : List O} {done todo : List N} {n : N} {cur : List O} {x : Ctx}
    (hT : T n) (hd : ∀ m ∈ done, s.keyN m ≠ s.keyN n) (ht : ∀ m ∈ todo, s.keyN m ≠ s.keyN n)
    (h : Inv s vis rd ok b l done (n :: todo) cur x)
    (hno : ∀ o ∈ l, vis o = true → s.keyO o ≠ s.keyN n) :
    Inv s vis rd ok b l (done ++ [n]) todo (cur ++ [(s.ins n x).1]) (s.ins n x).2 := by
  have hnext := L.ins_next n x
  refine ⟨by have := h.next; omega, ?_, ?_, ?_, ?_, ?_, ?_, ?_⟩
  · rw [List.map_append, List.nodup_append]
    refine ⟨h.ids, by simp, ?_⟩
    intro i hi j hj
    obtain ⟨o, ho, rfl⟩ := List.mem_map.1 hi
    simp only [List.map_cons, List.map_nil, List.mem_singleton] at hj
    rw [hj, L.ins_id]
    exact Nat.ne_of_lt (L.id_lt o _ (h.ok o ho))
  · have hv := L.ins_vis n x hT
    unfold vkeys
    rw [List.filter_append, List.map_append, List.nodup_append]
    refine ⟨h.keys, by simp [hv], ?_⟩
    intro k hk j hj
    obtain ⟨o, ho, rfl⟩ := List.mem_map.1 hk
    obtain ⟨ho, hvo⟩ := List.mem_filter.1 ho
    simp only [List.filter_cons, hv, if_true, List.filter_nil, List.map_cons, List.map_nil,
      List.mem_singleton] at hj
    rw [hj, L.ins_key n x hT]
    rcases h.orig o ho hvo with ⟨m, hm, he, -⟩ | ⟨hl, -⟩
    · rw [he]; exact hd m hm
    · exact hno o hl hvo
  · intro o ho
    rcases List.mem_append.1 ho with ho | ho
    · exact L.mono o _ _ (h.ok o ho) (Nat.le_of_lt hnext)
    · rw [List.mem_singleton.1 ho]; exact L.ins_ok n x hT
  · intro o ho hv
    rcases List.mem_append.1 ho with ho | ho
    · rcases h.orig o ho hv with ⟨m, hm, r⟩ | ⟨hl, m, hm, he⟩
      · exact .inl ⟨m, by simp [hm], r⟩
      · rcases List.mem_cons.1 hm with rfl | hm
        · exact absurd he (hno o hl hv)
        · exact .inr ⟨hl, m, hm, he⟩
    · rw [List.mem_singleton.1 ho]
      exact .inl ⟨n, by simp, L.ins_key n x hT, .inl ⟨hno, x, rfl⟩⟩
  · intro m hm
    rcases List.mem_append.1 hm with hm | hm
    · obtain ⟨o, ho, r⟩ := h.made m hm
      exact ⟨o, by simp [ho], r⟩
    · rw [List.mem_singleton.1 hm]
      exact ⟨_, by simp, L.ins_vis n x hT, L.ins_key n x hT⟩
  · intro m hm o ho hv he
    exact List.mem_append.2 (.inl (h.left m (by simp [hm]) o ho hv he))
  · intro o hv
    rw [List.mem_append, List.mem_singleton]
    constructor
    · rintro (ho | ho)
      · exact (h.hidden o hv).1 ho
      · rw [ho, L.ins_vis n x hT] at hv; cases hv
    · exact fun ho => .inl ((h.hidden o hv).2 ho)

theorem Inv.update {s : Sync N O K} {vis : O → Bool} {rd : O → O} {ok : O → Nat → Prop} {T : N → Prop}
    (L : Lawful s vis rd ok T) {b : Nat} {l : List O} {done todo : List N} {n : N} {cur : List O} {x : Ctx}
    {o : O} (hT : T n) (hd : ∀ m ∈ done, s.keyN m ≠ s.keyN n) (ht : ∀ m ∈ todo, s.keyN m ≠ s.keyN n)
    (h : Inv s vis rd ok b l done (n :: todo) cur x)
    (ho : o ∈ l) (hv : vis o = true) (he : s.keyO o = s.keyN n) :
    Inv s vis rd ok b l (done ++ [n]) todo (s.modify (s.oid (rd o)) (s.upd n (rd o)) cur x).1
      (s.modify (s.oid (rd o)) (s.upd n (rd o)) cur x).2 := by
  have hc : o ∈ cur := h.left n (by simp) o ho hv he
  obtain ⟨p, q, hpq, hp, hq⟩ := split_of_mem h.ids hc
  have hmod : s.modify (s.oid (rd o)) (s.upd n (rd o)) cur x
      = (p ++ (s.upd n (rd o) o x).1 :: q, (s.upd n (rd o) o x).2) := by
    rw [hpq]
    exact modify_split (by intro o' h'; rw [L.rd_id]; exact hp o' h') (L.rd_id o).symm
  rw [hmod]
  have hok := h.ok o hc
  have hnext := L.upd_next n (rd o) o x
  have hkey := L.upd_key n o x hT he
  have hvis := L.upd_vis n o x hT hv hok he
  have hid := L.upd_id n (rd o) o x
  have hokn := L.upd_ok n o x hT hv hok he
  have hother : ∀ o' ∈ p ++ q, o' ∈ cur ∧ (vis o' = true → s.keyO o' ≠ s.keyN n) := by
    intro o' ho'
    have hmem : o' ∈ cur := by
      rw [hpq]; rcases List.mem_append.1 ho' with h' | h' <;> simp [h']
    refine ⟨hmem, fun hv' e => ?_⟩
    have := nodup_key_find h.keys hmem hc hv' hv (by rw [e, he])
    subst this
    rcases List.mem_append.1 ho' with h' | h'
    · exact hp _ h' rfl
    · exact hq _ h' rfl
  dsimp only
  clear hmod
  generalize hr : s.upd n (rd o) o x = r at *
  have hmem : ∀ o', o' ∈ p ++ r.1 :: q ↔ (o' ∈ p ++ q ∨ o' = r.1) := by
    intro o'; simp only [List.mem_append, List.mem_cons]; grind
  refine ⟨by have := h.next; omega, ?_, ?_, ?_, ?_, ?_, ?_, ?_⟩
  · have := h.ids
    rw [hpq] at this
    simpa [hid] using this
  · have := h.keys
    rw [hpq] at this
    simp only [vkeys, List.filter_append, List.filter_cons, hv, if_true, List.map_append, List.map_cons, he]
      at this
    simp only [vkeys, List.filter_append, List.filter_cons, hvis, if_true, List.map_append, List.map_cons, hkey]
    exact this
  · intro o' ho'
    rcases (hmem o').1 ho' with h' | rfl
    · exact L.mono o' _ _ (h.ok o' (hother o' h').1) hnext
    · exact hokn
  · intro o' ho' hv'
    rcases (hmem o').1 ho' with h' | h'
    · rcases h.orig o' (hother o' h').1 hv' with ⟨m, hm, r⟩ | ⟨hl, m, hm, hem⟩
      · exact .inl ⟨m, by simp [hm], r⟩
      · rcases List.mem_cons.1 hm with rfl | hm
        · exact absurd hem ((hother o' h').2 hv')
        · exact .inr ⟨hl, m, hm, hem⟩
    · exact .inl ⟨n, by simp, by rw [h', hkey], .inr ⟨o, ho, hv, he, x, h.next, by rw [h', hr]⟩⟩
  · intro m hm
    rcases List.mem_append.1 hm with hm | hm
    · obtain ⟨o', ho', hv', he'⟩ := h.made m hm
      by_cases e : o' = o
      · subst e
        exact absurd (he'.symm.trans he) (hd m hm)
      · refine ⟨o', (hmem o').2 (.inl ?_), hv', he'⟩
        rw [hpq] at ho'
        simp only [List.mem_append, List.mem_cons, e, false_or] at ho'
        exact List.mem_append.2 ho'
    · rw [List.mem_singleton.1 hm]
      exact ⟨r.1, (hmem _).2 (.inr rfl), hvis, hkey⟩
  · intro m hm o' ho' hv' he'
    have hc' := h.left m (by simp [hm]) o' ho' hv' he'
    refine (hmem o').2 (.inl ?_)
    rw [hpq] at hc'
    simp only [List.mem_append, List.mem_cons] at hc'
    rcases hc' with h' | rfl | h'
    · exact List.mem_append.2 (.inl h')
    · exact absurd (he'.symm.trans he) (ht m hm)
    · exact List.mem_append.2 (.inr h')
  · intro o' hv'
    rw [← h.hidden o' hv', hmem]
    constructor
    · rintro (h' | rfl)
      · exact (hother o' h').1
      · rw [hvis] at hv'; cases hv'
    · intro h'
      rw [hpq] at h'
      simp only [List.mem_append, List.mem_cons] at h'
      rcases h' with h' | rfl | h'
      · exact .inl (List.mem_append.2 (.inl h'))
      · rw [hv] at hv'; cases hv'
      · exact .inl (List.mem_append.2 (.inr h'))

theorem Inv.apply {s : Sync N O K} {vis : O → Bool} {rd : O → O} {ok : O → Nat → Prop} {T : N → Prop}
    (L : Lawful s vis rd ok T) {b : Nat} {l : List O} : ∀ {todo done : List N} {cur : List O} {x : Ctx},
    (∀ n ∈ todo, T n) → ((done ++ todo).map s.keyN).Nodup →
    Inv s vis rd ok b l done todo cur x →
    Inv s vis rd ok b l (done ++ todo) [] (s.apply (olds vis rd l) todo cur x).1
      (s.apply (olds vis rd l) todo cur x).2
  | [], done, cur, x, _, _, h => by simpa [Sync.apply] using h
  | n :: todo, done, cur, x, hT, hn, h => by
    have hTn := hT n (by simp)
    have hd : ∀ m ∈ done, s.keyN m ≠ s.keyN n := by
      intro m hm e
      simp only [List.map_append, List.nodup_append, List.map_cons, List.mem_map, List.mem_cons] at hn
      exact hn.2.2 _ ⟨m, hm, rfl⟩ _ (.inl rfl) e
    have ht : ∀ m ∈ todo, s.keyN m ≠ s.keyN n := by
      intro m hm e
      simp only [List.map_append, List.nodup_append, List.map_cons, List.nodup_cons, List.mem_map] at hn
      exact hn.2.1.1 ⟨m, hm, e⟩
    have hn' : ((done ++ [n] ++ todo).map s.keyN).Nodup := by simpa using hn
    have hT' : ∀ m ∈ todo, T m := fun m hm => hT m (by simp [hm])
    have happ : done ++ n :: todo = done ++ [n] ++ todo := by simp
    rw [happ]
    simp only [Sync.apply]
    split
    · rename_i hf
      exact Inv.apply L hT' hn' (h.insert L hTn hd ht (find_key_none L.rd_key hf))
    · rename_i d hf
      obtain ⟨o, ho, hv, rfl, he⟩ := find_key_some L.rd_key hf
      exact Inv.apply L hT' hn' (h.update L hTn hd ht ho hv he)

/-- What both loops do to rows in order. -/
theorem run_spec {s : Sync N O K} {vis : O → Bool} {rd : O → O} {ok : O → Nat → Prop} {T : N → Prop}
    (L : Lawful s vis rd ok T) {l : List O} {news : List N} {x : Ctx}
    (hT : ∀ n ∈ news, T n) (hn : (news.map s.keyN).Nodup) (hi : (l.map s.oid).Nodup)
    (hk : (vkeys s vis l).Nodup) (hok : ∀ o ∈ l, ok o x.next) :
    Inv s vis rd ok x.next l news [] (s.run (olds vis rd l) news l x).1 (s.run (olds vis rd l) news l x).2 := by
  have hdel := delete_read (news := news) (vis := vis) L.rd_id L.rd_key hi (fun o (h : o ∈ l) => h)
  have := Inv.apply (todo := news) (done := []) (cur := s.delete (olds vis rd l) news l) (x := x) L hT
    (by simpa using hn) (b := x.next) (l := l) ?_
  · simpa [Sync.run] using this
  · rw [hdel]
    have hsub : List.Sublist (l.filter (fun o => !vis o || news.any (fun n => decide (s.keyN n = s.keyO o)))) l :=
      List.filter_sublist
    refine ⟨Nat.le_refl _, hi.sublist (hsub.map _), hk.sublist ((hsub.filter _).map _), ?_, ?_, ?_, ?_, ?_⟩
    · exact fun o ho => hok o (hsub.subset ho)
    · intro o ho hv
      obtain ⟨ho, h⟩ := List.mem_filter.1 ho
      simp only [hv, Bool.not_true, Bool.false_or, List.any_eq_true, decide_eq_true_eq] at h
      obtain ⟨n, hn, e⟩ := h
      exact .inr ⟨ho, n, hn, e.symm⟩
    · intro n hn; cases hn
    · intro n hn o ho hv he
      refine List.mem_filter.2 ⟨ho, ?_⟩
      simp only [hv, Bool.not_true, Bool.false_or, List.any_eq_true, decide_eq_true_eq]
      exact ⟨n, hn, he.symm⟩
    · intro o hv
      rw [List.mem_filter]
      simp [hv]

/-- Rows that are read after the loops: each has its entry. -/
theorem Inv.row {s : Sync N O K} {vis : O → Bool} {rd : O → O} {ok : O → Nat → Prop} {b : Nat} {l : List O}
    {news : List N} {cur : List O} {x : Ctx} (h : Inv s vis rd ok b l news [] cur x) {o : O} (ho : o ∈ cur)
    (hv : vis o = true) : ∃ n ∈ news, s.keyO o = s.keyN n ∧
      (((∀ o₀ ∈ l, vis o₀ = true → s.keyO o₀ ≠ s.keyN n) ∧ Ins s n o)
        ∨ ∃ o₀ ∈ l, vis o₀ = true ∧ s.keyO o₀ = s.keyN n ∧ Upd s rd b n o₀ o) := by
  rcases h.orig o ho hv with h | ⟨-, n, hn, -⟩
  · exact h
  · cases hn

/-- Each entry has its row after the loops. -/
theorem Inv.entry {s : Sync N O K} {vis : O → Bool} {rd : O → O} {ok : O → Nat → Prop} {b : Nat} {l : List O}
    {news : List N} {cur : List O} {x : Ctx} (h : Inv s vis rd ok b l news [] cur x)
    (hn : (news.map s.keyN).Nodup) {n : N} (hm : n ∈ news) : ∃ o ∈ cur, vis o = true ∧ s.keyO o = s.keyN n ∧
      (((∀ o₀ ∈ l, vis o₀ = true → s.keyO o₀ ≠ s.keyN n) ∧ Ins s n o)
        ∨ ∃ o₀ ∈ l, vis o₀ = true ∧ s.keyO o₀ = s.keyN n ∧ Upd s rd b n o₀ o) := by
  obtain ⟨o, ho, hv, he⟩ := h.made n hm
  obtain ⟨n', hn', he', r⟩ := h.row ho hv
  have := inj_of_nodup hn hm hn' (he.symm.trans he')
  subst this
  exact ⟨o, ho, hv, he, r⟩

/-! ### Inserting all -/

theorem insertAll_next {ins : N → Ctx → O × Ctx} (h : ∀ n x, x.next ≤ (ins n x).2.next) :
    ∀ (ns : List N) (x : Ctx), x.next ≤ (insertAll ins ns x).2.next
  | [], x => Nat.le_refl _
  | n :: ns, x => Nat.le_trans (h n x) (insertAll_next h ns _)

/-- Inserting all entries is the second loop without old rows. -/
theorem insertAll_eq (s : Sync N O K) : ∀ (ns : List N) (cur : List O) (x : Ctx),
    s.apply [] ns cur x = (cur ++ (insertAll s.ins ns x).1, (insertAll s.ins ns x).2)
  | [], cur, x => by simp [Sync.apply, insertAll]
  | n :: ns, cur, x => by
    simp only [Sync.apply, List.find?_nil, insertAll]
    rw [insertAll_eq s ns]
    simp

theorem insertAll_run (s : Sync N O K) (ns : List N) (x : Ctx) :
    insertAll s.ins ns x = s.run [] ns [] x := by
  unfold Sync.run
  rw [insertAll_eq]
  simp [Sync.delete]

/-- What inserting all does. -/
theorem insertAll_spec {s : Sync N O K} {vis : O → Bool} {rd : O → O} {ok : O → Nat → Prop} {T : N → Prop}
    (L : Lawful s vis rd ok T) {news : List N} {x : Ctx} (hT : ∀ n ∈ news, T n) (hn : (news.map s.keyN).Nodup) :
    Inv s vis rd ok x.next [] news [] (insertAll s.ins news x).1 (insertAll s.ins news x).2 := by
  rw [insertAll_run]
  exact run_spec (l := []) L hT hn (by simp) (by simp [vkeys]) (by simp)

/-! ### Nothing to do -/

/-- The entry would leave the row as it is. -/
def Fixed (s : Sync N O K) (rd : O → O) (n : N) (o : O) : Prop := ∀ x, s.upd n (rd o) o x = (o, x)

theorem modify_fixed {s : Sync N O K} {i : Nat} {f : O → Ctx → O × Ctx} {x : Ctx} : ∀ {l : List O},
    (∀ o ∈ l, s.oid o = i → f o x = (o, x)) → s.modify i f l x = (l, x)
  | [], _ => rfl
  | o :: r, h => by
    simp only [Sync.modify]
    split
    · rename_i e
      rw [h o (by simp) e]
    · rw [modify_fixed (fun o' h' => h o' (by simp [h']))]

/-- If every entry has a row and leaves it as it is, and every row that is read has an entry, the loops do
nothing. -/
theorem run_fixed {s : Sync N O K} {vis : O → Bool} {rd : O → O} {l : List O} {news : List N} {x : Ctx}
    (hrid : ∀ o, s.oid (rd o) = s.oid o) (hrkey : ∀ o, s.keyO (rd o) = s.keyO o)
    (hi : (l.map s.oid).Nodup) (hk : (vkeys s vis l).Nodup)
    (h1 : ∀ o ∈ l, vis o = true → ∃ n ∈ news, s.keyN n = s.keyO o)
    (h2 : ∀ n ∈ news, ∃ o ∈ l, vis o = true ∧ s.keyO o = s.keyN n ∧ Fixed s rd n o) :
    s.run (olds vis rd l) news l x = (l, x) := by
  unfold Sync.run
  rw [delete_read hrid hrkey hi (fun o h => h)]
  have : l.filter (fun o => !vis o || news.any (fun n => decide (s.keyN n = s.keyO o))) = l := by
    rw [List.filter_eq_self]
    intro o ho
    cases hv : vis o with
    | false => rfl
    | true =>
      obtain ⟨n, hn, e⟩ := h1 o ho hv
      simp only [Bool.not_true, Bool.false_or, List.any_eq_true, decide_eq_true_eq]
      exact ⟨n, hn, e⟩
  rw [this]
  have : ∀ ns : List N, (∀ n ∈ ns, n ∈ news) → s.apply (olds vis rd l) ns l x = (l, x) := by
    intro ns
    induction ns with
    | nil => intro _; rfl
    | cons n ns ih =>
      intro hns
      obtain ⟨o, ho, hv, he, hf⟩ := h2 n (hns n (by simp))
      simp only [Sync.apply]
      split
      · rename_i hnone
        exact absurd he (find_key_none hrkey hnone o ho hv)
      · rename_i d hsome
        obtain ⟨o', ho', hv', rfl, he'⟩ := find_key_some hrkey hsome
        have := nodup_key_find hk ho' ho hv' hv (by rw [he, he'])
        subst this
        have hm : s.modify (s.oid (rd o')) (s.upd n (rd o')) l x = (l, x) := by
          apply modify_fixed
          intro o'' ho'' e
          rw [hrid] at e
          have := inj_of_nodup hi ho'' ho' e
          subst this
          exact hf x
        rw [hm]
        exact ih (fun m hm => hns m (by simp [hm]))
  exact this news (fun n h => h)

end Verif.InitDb
