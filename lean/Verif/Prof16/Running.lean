import Verif.Prof16.Persist

/-!
C120, C125: which transaction the store takes to run at a connector.
-/

namespace Verif.Prof16

/-- The transaction at connector `c` as the history tells: it starts, gets its id, ends; after a restart there is none. `none`: no transaction;
`some none`: one without an id. -/
def told (c : Nat) (t : Option (Option Int)) : Op → Option (Option Int)
  | .txStart c' => if c' = c then some none else t
  | .txId c' i => if c' = c then t.map (fun _ => some i) else t
  | .txEnd c' => if c' = c then none else t
  | .restart _ => none
  | _ => t

theorem set_txs (cfg : Cfg) (s : S) (now c : Int) (p : Profile) : (setProfile cfg s now c p).1.txs = s.txs := by
  unfold setProfile
  split
  · rfl
  · split <;> rfl

theorem remote_txs (cfg : Cfg) (s : S) (now : Int) (c : Option Int) (p : Profile) : (remoteProfile cfg s now c p).1.txs = s.txs := by
  unfold remoteProfile
  split
  · rfl
  · split
    · rfl
    · split <;> rfl

theorem clear_txs (s : S) (i c l : Option Int) (p : Option Purpose) : (clearProfile s i c l p).1.txs = s.txs := by
  unfold clearProfile
  split <;> rfl

theorem restart_txs (cfg : Cfg) (s : S) (now : Int) : (restart cfg s now).txs = [] := by
  have key : ∀ (l : List Profile) (s : S), (l.foldl (loadOne cfg now) s).txs = s.txs := by
    intro l
    induction l with
    | nil => intro s; rfl
    | cons p l ih =>
      intro s
      rw [List.foldl_cons, ih]
      unfold loadOne
      repeat' split
      all_goals rfl
  exact key _ _

theorem find_other (l : List (Nat × Option Int)) {c c' : Nat} (h : c' ≠ c) :
    (l.filter (fun t => t.1 != c')).find? (fun t => t.1 == c) = l.find? (fun t => t.1 == c) := by
  induction l with
  | nil => rfl
  | cons t l ih =>
    by_cases h1 : t.1 = c'
    · have h2 : (t.1 == c) = false := by simp [h1, h]
      rw [List.filter_cons_of_neg (by simp [h1]), ih, List.find?_cons, h2]
    · rw [List.filter_cons_of_pos (by simp [h1]), List.find?_cons, List.find?_cons, ih]

theorem find_same (l : List (Nat × Option Int)) (c : Nat) : (l.filter (fun t => t.1 != c)).find? (fun t => t.1 == c) = none := by
  rw [List.find?_eq_none]
  intro t ht
  have := (List.mem_filter.mp ht).2
  simpa using this

theorem find_map (l : List (Nat × Option Int)) (c c' : Nat) (i : Int) :
    ((l.map (fun t => if t.1 = c' then (c', some i) else t)).find? (fun t => t.1 == c)).map (·.2) =
      if c' = c then ((l.find? (fun t => t.1 == c)).map (·.2)).map (fun _ => some i) else (l.find? (fun t => t.1 == c)).map (·.2) := by
  induction l with
  | nil => split <;> rfl
  | cons t l ih =>
    rw [List.map_cons, List.find?_cons, List.find?_cons]
    by_cases h1 : t.1 = c'
    · rw [if_pos h1]
      by_cases h2 : c' = c
      · have h3 : t.1 = c := h1.trans h2
        simp [h2, h3]
      · have h3 : ¬ t.1 = c := by rw [h1]; exact h2
        have h4 : (c' == c) = false := by simp [h2]
        have h5 : (t.1 == c) = false := by simp [h3]
        rw [h4, h5]
        exact ih
    · rw [if_neg h1]
      by_cases h3 : t.1 = c
      · have h2 : ¬ c' = c := fun h => h1 (h3.trans h.symm)
        simp [h3, h2]
      · have h4 : (t.1 == c) = false := by simp [h3]
        rw [h4]
        exact ih

/-- **C120, C125**: after any history, the transaction that TxProfiles are compared with at a connector is the one the history tells. -/
theorem C125_running (cfg : Cfg) (ops : List Op) (c : Nat) : (run cfg {} ops).tx c = ops.foldl (told c) none := by
  have key : ∀ (ops : List Op) (s : S), (run cfg s ops).tx c = ops.foldl (told c) (s.tx c) := by
    intro ops
    induction ops with
    | nil => intro s; rfl
    | cons op ops ih =>
      intro s
      show (run cfg (step cfg s op) ops).tx c = _
      rw [ih, List.foldl_cons]
      congr 1
      cases op with
      | set now c' p => simp only [step, S.tx, set_txs, told]
      | remote now c' p => simp only [step, S.tx, remote_txs, told]
      | clear i c' l p => simp only [step, S.tx, clear_txs, told]
      | expire now => rfl
      | txStart c' =>
        simp only [step, S.tx, txStart, told, List.find?_cons]
        by_cases h : c' = c
        · simp [h]
        · have h1 : (c' == c) = false := by simp [h]
          rw [h1, if_neg h]
          simp only
          rw [find_other _ h]
      | txId c' i => exact find_map _ _ _ _
      | txEnd c' =>
        show ((s.txs.filter (fun t => t.1 != c')).find? (fun t => t.1 == c)).map (·.2) = told c (s.tx c) (.txEnd c')
        unfold told
        dsimp only
        by_cases h : c' = c
        · subst h
          rw [find_same, if_pos rfl]; rfl
        · rw [find_other _ h, if_neg h]; rfl
      | restart now => simp only [step, S.tx, restart_txs, told]; rfl
  exact key ops {}

/-- Transactions at two connectors, one of which ended, and a restart. -/
example : [Op.txStart 1, .txStart 2, .txId 1 7, .txEnd 2].foldl (told 1) none = some (some 7) ∧
    [Op.txStart 1, .txStart 2, .txId 1 7, .txEnd 2].foldl (told 2) none = none ∧
    [Op.txStart 1, .restart 0].foldl (told 1) none = none := by decide

end Verif.Prof16
