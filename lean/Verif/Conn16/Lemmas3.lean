import Verif.Conn16.Lemmas2

set_option linter.constructorNameAsVariable false

/-! # Availability requests and firmware updates -/

namespace Verif.Conn16

theorem mem_named {n k c : Nat} : c ∈ named n k ↔ (k = 0 ∧ 1 ≤ c ∧ c ≤ n) ∨ (k ≠ 0 ∧ c = k) := by
  unfold named
  split
  · rename_i h; subst h; rw [mem_connectors]; simp
  · rename_i h; simp [h]

theorem mustWait_iff (s : State) (c : Nat) :
    mustWait s c = true ↔ s.tx c = true ∨ getState s c = .preparing := by
  simp [mustWait]

theorem names_named {n c : Nat} {ci : Int} (h : Names n ci c) (hc : 1 ≤ c) : c ∈ named n ci.toNat := by
  obtain ⟨⟨h1, h2⟩, h3, h4⟩ := h
  rw [mem_named]
  rcases h4 with h4 | h4
  · right; omega
  · left; omega

theorem named_names {n c : Nat} {ci : Int} (he : Exists n ci) (h : c ∈ named n ci.toNat) :
    Names n ci c ∧ 1 ≤ c := by
  obtain ⟨h1, h2⟩ := he
  rw [mem_named] at h
  refine ⟨⟨⟨h1, h2⟩, ?_, ?_⟩, ?_⟩ <;> rcases h with h | h <;> omega

/-- the connectors changed at once -/
def nowList (s : State) (ci : Int) : List Nat :=
  (if ci.toNat = 0 then [0] else []) ++ (named s.n ci.toNat).filter (fun x => !mustWait s x)

theorem mem_nowList {s : State} {ci : Int} {c : Nat} (he : Exists s.n ci) :
    c ∈ nowList s ci ↔ Names s.n ci c ∧ ¬ Waits s c := by
  unfold nowList Waits
  simp only [List.mem_append, List.mem_filter, Bool.not_eq_true']
  constructor
  · rintro (h | ⟨h1, h2⟩)
    · split at h
      · simp at h; subst h
        rename_i h0
        have : ci = 0 := by have := he.1; omega
        exact ⟨⟨he, by omega, Or.inr this⟩, by simp⟩
      · simp at h
    · refine ⟨(named_names he h1).1, ?_⟩
      rintro ⟨_, h3⟩
      rw [(mustWait_iff s c).2 h3] at h2
      simp at h2
  · rintro ⟨h1, h2⟩
    by_cases hc : 1 ≤ c
    · right
      refine ⟨names_named h1 hc, ?_⟩
      cases hm : mustWait s c with
      | false => rfl
      | true => exact absurd ⟨hc, (mustWait_iff s c).1 hm⟩ h2
    · left
      have h0 : c = 0 := by omega
      subst h0
      have : ci = 0 := by rcases h1.2.2 with h | h <;> simpa using h
      simp [this]

theorem mem_wait {s : State} {ci : Int} {c : Nat} (he : Exists s.n ci) :
    c ∈ (named s.n ci.toNat).filter (mustWait s) ↔ Names s.n ci c ∧ Waits s c := by
  rw [List.mem_filter, mustWait_iff]
  constructor
  · rintro ⟨h1, h2⟩
    obtain ⟨h3, h4⟩ := named_names he h1
    exact ⟨h3, h4, h2⟩
  · rintro ⟨h1, h2, h3⟩
    exact ⟨names_named h1 h2, h3⟩

theorem change_eq {s : State} {ci : Int} (op : Bool) (he : Exists s.n ci) :
    change ci op s = execute (nowList s ci) op true
      (emit (storeQueue
        { s with
          queue := fun x => if x ∈ (named s.n ci.toNat).filter (mustWait s) then some ⟨op, true⟩
            else s.queue x })
        (.answer (if ((named s.n ci.toNat).filter (mustWait s)).isEmpty then .accepted else .scheduled))) := by
  unfold change
  rw [if_pos ⟨he.2, he.1⟩]
  rfl

theorem change_absent {s : State} {ci : Int} (op : Bool) (he : ¬ Exists s.n ci) :
    change ci op s = emit s (.answer .rejected) := by
  unfold change
  rw [if_neg (fun h => he ⟨h.2, h.1⟩)]

theorem change_queue_names {s : State} {ci : Int} {op : Bool} {c : Nat} (hn : Names s.n ci c)
    (hw : Waits s c) : (change ci op s).queue c = some ⟨op, true⟩ := by
  rw [change_eq op hn.1, (execute_fields _ _ _ _).2.2.2.1]
  show (if c ∈ _ then _ else _) = _
  rw [if_pos ((mem_wait hn.1).2 ⟨hn, hw⟩)]

theorem change_queue_other {s : State} {ci : Int} {op : Bool} {c : Nat}
    (h : ¬ (Names s.n ci c ∧ Waits s c)) : (change ci op s).queue c = s.queue c := by
  by_cases he : Exists s.n ci
  · rw [change_eq op he, (execute_fields _ _ _ _).2.2.2.1]
    show (if c ∈ _ then _ else _) = _
    rw [if_neg (fun hm => h ((mem_wait he).1 hm))]
  · rw [change_absent op he]; rfl

theorem change_db_names {s : State} {ci : Int} {op : Bool} {c : Nat} (hn : Names s.n ci c) :
    (change ci op s).db c = op := by
  rw [change_eq op hn.1, execute_db]
  by_cases hw : Waits s c
  · rw [if_neg (fun h => ((mem_nowList hn.1).1 h.2).2 hw)]
    simp only [emit, storeQueue]
    rw [if_pos ((mem_wait hn.1).2 ⟨hn, hw⟩)]
  · rw [if_pos ⟨rfl, (mem_nowList hn.1).2 ⟨hn, hw⟩⟩]

theorem change_db_other {s : State} {ci : Int} {op : Bool} {c : Nat} (hn : ¬ Names s.n ci c) :
    (change ci op s).db c = s.db c ∨ ∃ q, s.queue c = some q ∧ (change ci op s).db c = q.operative := by
  by_cases he : Exists s.n ci
  · rw [change_eq op he, execute_db, if_neg (fun h => hn ((mem_nowList he).1 h.2).1)]
    simp only [emit, storeQueue]
    rw [if_neg (fun h => hn ((mem_wait he).1 h).1)]
    cases hq : s.queue c with
    | none => exact Or.inl rfl
    | some q => exact Or.inr ⟨q, rfl, rfl⟩
  · rw [change_absent op he]; exact Or.inl rfl

theorem change_told {s : State} {ci : Int} {op : Bool} {c : Nat} (hn : Names s.n ci c)
    (hw : ¬ Waits s c) : told (change ci op s) c = some op := by
  rw [change_eq op hn.1, execute_told, if_pos ((mem_nowList hn.1).2 ⟨hn, hw⟩)]

theorem calls_answer (out : List Out) (a : Answer) (c : Nat) : calls (out ++ [.answer a]) c = calls out c := by
  rw [calls_append]; simp [calls]

theorem change_calls {s : State} {ci : Int} {op : Bool} {c : Nat}
    (h : ¬ (Names s.n ci c ∧ ¬ Waits s c)) : calls (change ci op s).out c = calls s.out c := by
  by_cases he : Exists s.n ci
  · rw [change_eq op he, execute_calls_absent _ _ _ _ _ (fun hm => h ((mem_nowList he).1 hm))]
    exact calls_answer _ _ _
  · rw [change_absent op he]; exact calls_answer _ _ _

/-! ## Operations that do not concern the availability of a connector -/

theorem calls_of_out {s s' : State} (h : s'.out = s.out) (c : Nat) : calls s'.out c = calls s.out c := by
  rw [h]

/-- executing a queued change of another connector -/
theorem executeQueued_other {c x : Nat} (h : c ≠ x) (s : State) :
    (executeQueued x s).db c = s.db c ∧ calls (executeQueued x s).out c = calls s.out c := by
  unfold executeQueued
  split
  · exact ⟨rfl, rfl⟩
  · rename_i q hq
    have hm : c ∉ [x] := by simpa using h
    refine ⟨?_, execute_calls_absent _ _ _ _ _ hm⟩
    rw [execute_db, if_neg (fun h => hm h.2)]

theorem executeQueued_some {c : Nat} {s : State} {q : Queued} (h : s.queue c = some q) :
    told (executeQueued c s) c = some q.operative ∧
    (executeQueued c s).db c = if q.persist then q.operative else s.db c := by
  unfold executeQueued
  rw [h]
  simp only
  constructor
  · rw [execute_told, if_pos (by simp)]
  · rw [execute_db]; simp

/-- The operation concerns the availability of the connector. -/
def Concerns (n c : Nat) (o : Op) : Prop :=
  match o with
  | .change ci _ => Names n ci c
  | .firmware _ => True
  | .stopConf x => x = c
  | .sessionStopped x => x = c
  | .restart => True
  | _ => False

theorem quiet_step {s : State} {o : Op} {c : Nat} (hf : s.fwPending = false)
    (h : ¬ Concerns s.n c o) :
    (step s o).queue c = s.queue c ∧ calls (step s o).out c = calls s.out c ∧
    (step s o).fwPending = false ∧
    ((step s o).db c = s.db c ∨ ∃ q, s.queue c = some q ∧ (step s o).db c = q.operative) := by
  have sub : ∀ (c' : Nat) (fo : FOp) (s1 : State), s1.queue c = s.queue c →
      calls s1.out c = calls s.out c → s1.fwPending = false → s1.db c = s.db c →
      (submit c' fo s1).queue c = s.queue c ∧ calls (submit c' fo s1).out c = calls s.out c ∧
      (submit c' fo s1).fwPending = false ∧
      ((submit c' fo s1).db c = s.db c ∨
        ∃ q, s.queue c = some q ∧ (submit c' fo s1).db c = q.operative) := by
    intro c' fo s1 h1 h2 h3 h4
    obtain ⟨_, _, _, g4, g5, g6, g7⟩ := submit_fields c' fo s1
    rw [g4, g5, g6, g7]
    exact ⟨h1, h2, h3, Or.inl h4⟩
  have same : ∀ s' : State, s'.queue c = s.queue c → calls s'.out c = calls s.out c →
      s'.fwPending = false → s'.db c = s.db c →
      s'.queue c = s.queue c ∧ calls s'.out c = calls s.out c ∧ s'.fwPending = false ∧
      (s'.db c = s.db c ∨ ∃ q, s.queue c = some q ∧ s'.db c = q.operative) :=
    fun s' h1 h2 h3 h4 => ⟨h1, h2, h3, Or.inl h4⟩
  cases o with
  | restart => exact absurd trivial h
  | firmware st => exact absurd trivial h
  | timer x =>
    simp only [step]
    split
    · exact same _ rfl rfl hf rfl
    · exact same _ rfl (by simp [emit, calls]) hf rfl
  | trigger x =>
    simp only [step]
    split
    · exact same _ rfl (by simp [emit, calls]) hf rfl
    · exact same _ rfl rfl hf rfl
  | sessionStarted x a =>
    simp only [step]
    split
    · exact sub _ _ _ rfl rfl hf rfl
    · exact same _ rfl rfl hf rfl
  | sessionStopped x =>
    have hx : c ≠ x := fun e => h e.symm
    obtain ⟨_, _, _, h4, _, h6⟩ := executeQueued_fields x s
    obtain ⟨h7, h8⟩ := executeQueued_other hx s
    have h6' := h6 c
    rw [if_neg hx] at h6'
    simp only [step]
    split
    · exact sub _ _ _ h6' h8 (h4.trans hf) h7
    · exact same _ h6' h8 (h4.trans hf) h7
  | txStarted x =>
    simp only [step]
    split
    · unfold useReserved
      split
      · exact sub _ _ { s with tx := upd s.tx x true } rfl rfl hf rfl
      · exact same _ rfl rfl hf rfl
    · exact same _ rfl rfl hf rfl
  | txStopped x b =>
    simp only [step]
    split
    · unfold finish
      split
      · exact same _ rfl rfl hf rfl
      · exact sub _ _ { s with waiting := s.waiting ++ [x], tx := upd s.tx x false } rfl rfl hf rfl
    · exact same _ rfl rfl hf rfl
  | stopConf x =>
    have hx : c ≠ x := fun e => h e.symm
    have hq : (confirmed x s).queue c = s.queue c ∧ calls (confirmed x s).out c = calls s.out c ∧
        (confirmed x s).fwPending = false ∧ (confirmed x s).db c = s.db c := by
      unfold confirmed
      split
      · obtain ⟨_, _, _, h4, _, h6⟩ := executeQueued_fields x { s with waiting := s.waiting.erase x }
        obtain ⟨h7, h8⟩ := executeQueued_other hx { s with waiting := s.waiting.erase x }
        have h6' := h6 c
        rw [if_neg hx] at h6'
        exact ⟨h6', h8, h4.trans hf, h7⟩
      · exact ⟨rfl, rfl, hf, rfl⟩
    have e : step s (.stopConf x) = confirmed x s := by simp [step, hq.2.2.1]
    rw [e]
    exact same _ hq.1 hq.2.1 hq.2.2.1 hq.2.2.2
  | suspendEV x => exact sub _ _ _ rfl rfl hf rfl
  | suspendEVSE x => exact sub _ _ _ rfl rfl hf rfl
  | resume x => exact sub _ _ _ rfl rfl hf rfl
  | error x e => exact sub _ _ _ rfl rfl hf rfl
  | clear x u => exact sub _ _ _ rfl rfl hf rfl
  | clearAll x => exact sub _ _ _ rfl rfl hf rfl
  | reservationStart x => exact sub _ _ _ rfl rfl hf rfl
  | reservationEnd x => exact sub _ _ _ rfl rfl hf rfl
  | enabled x => exact sub _ _ _ rfl rfl hf rfl
  | disabled x => exact sub _ _ _ rfl rfl hf rfl
  | plugTimeout x => exact sub _ _ _ rfl rfl hf rfl
  | change ci op =>
    have hn : ¬ Names s.n ci c := h
    refine ⟨change_queue_other (fun e => hn e.1), change_calls (fun e => hn e.1),
      (change_fields ci op s).2.2.1.trans hf, change_db_other hn⟩
  | remote r =>
    obtain ⟨_, _, h3, h4, h5, _, h7, _⟩ := remote_fields r s
    show (remoteStart r s).queue c = s.queue c ∧ _
    exact same _ (by rw [h3]) (h7 c) (h5.trans hf) (by rw [h4])
  | reportAll =>
    have key : ∀ (l : List Nat) (s : State),
        let r := l.foldl (fun s c => submit c .trigger s) s
        r.queue = s.queue ∧ r.out = s.out ∧ r.fwPending = s.fwPending ∧ r.db = s.db := by
      intro l
      induction l with
      | nil => intro s; simp
      | cons a l ih =>
        intro s
        obtain ⟨_, _, _, g4, g5, g6, g7⟩ := submit_fields a .trigger s
        obtain ⟨i1, i2, i3, i4⟩ := ih (submit a .trigger s)
        exact ⟨i1.trans g4, i2.trans g7, i3.trans g6, i4.trans g5⟩
    obtain ⟨h1, h2, h3, h4⟩ := key (List.range (s.n + 1)) s
    show (triggerAll s).queue c = s.queue c ∧ _
    exact same _ (congrFun h1 c) (calls_of_out h2 c) (h3.trans hf) (congrFun h4 c)

theorem quiet_run {c : Nat} (ops : List Op) : ∀ s : State, s.fwPending = false →
    (∀ o ∈ ops, ¬ Concerns s.n c o) →
    (run s ops).queue c = s.queue c ∧ calls (run s ops).out c = calls s.out c ∧
    (run s ops).fwPending = false := by
  induction ops with
  | nil => intro s hf _; exact ⟨rfl, rfl, hf⟩
  | cons o ops ih =>
    intro s hf h
    obtain ⟨h1, h2, h3, _⟩ := quiet_step hf (h o (by simp))
    obtain ⟨g1, g2, g3⟩ := ih (step s o) h3 (fun o' ho' => by rw [step_n]; exact h o' (by simp [ho']))
    exact ⟨g1.trans h1, g2.trans h2, g3⟩

theorem told_boot (s : State) (c : Nat) (h : c ≤ s.n) : told (boot s) c = some (s.db c) := by
  have key : ∀ (l : List Nat), c ∈ l →
      (calls (l.map (fun c => if s.db c then Out.enable c else .disable c)) c).getLast? = some (s.db c) := by
    intro l
    induction l with
    | nil => intro h; simp at h
    | cons a l ih =>
      intro h
      have e : (a :: l).map (fun c => if s.db c then Out.enable c else .disable c)
          = [if s.db a then Out.enable a else .disable a]
            ++ l.map (fun c => if s.db c then Out.enable c else .disable c) := rfl
      rw [e, calls_append]
      by_cases hl : c ∈ l
      · rw [List.getLast?_append, ih hl]; rfl
      · have ha : c = a := by
          rcases List.mem_cons.1 h with h | h
          · exact h
          · exact absurd h hl
        have h0 : calls (l.map (fun c => if s.db c then Out.enable c else .disable c)) c = [] := by
          clear ih h e
          induction l with
          | nil => rfl
          | cons b l ih2 =>
            simp only [List.mem_cons, not_or] at hl
            have h1 := ih2 hl.2
            have h2 : ¬ b = c := fun e => hl.1 e.symm
            cases hb : s.db b <;> simp [calls, h2, hb] at h1 ⊢ <;> exact h1
        rw [h0]
        subst ha
        cases hd : s.db c <;> simp [calls]
  unfold told
  rw [(boot_fields s).2.2.2.2.2.2.2.2, calls_append, List.getLast?_append,
    key _ (by simp; omega)]
  rfl

/-! ## The last request wins -/

/-- What is scheduled for the connector, and what is stored, is what was last asked for. -/
def Last (c : Nat) (w : Bool) (s : State) : Prop :=
  s.fwPending = false ∧ s.db c = w ∧ ∀ q, s.queue c = some q → q.operative = w

theorem last_keep {c : Nat} {w : Bool} {s : State} {o : Op} (h : Last c w s)
    (hf : isFirmware o = false) (hn : ∀ ci op, o = .change ci op → ¬ Names s.n ci c) :
    Last c w (step s o) := by
  obtain ⟨h1, h2, h3⟩ := h
  by_cases hc : Concerns s.n c o
  · cases o with
    | change ci op => exact absurd hc (hn ci op rfl)
    | firmware st => simp [isFirmware] at hf
    | stopConf x =>
      have hx : x = c := hc
      subst hx
      have hq : Last x w (confirmed x s) := by
        unfold confirmed
        split
        · obtain ⟨_, _, _, g4, _, g6⟩ := executeQueued_fields x { s with waiting := s.waiting.erase x }
          refine ⟨g4.trans h1, ?_, fun q hq => ?_⟩
          · cases hq : s.queue x with
            | none =>
              rw [executeQueued_none (s := { s with waiting := s.waiting.erase x }) hq]; exact h2
            | some q =>
              rw [(executeQueued_some (s := { s with waiting := s.waiting.erase x }) hq).2]
              split
              · exact h3 q hq
              · exact h2
          · rw [g6, if_pos rfl] at hq; simp at hq
        · exact ⟨h1, h2, h3⟩
      simp only [step, hq.1, if_false, Bool.false_eq_true]
      exact hq
    | sessionStopped x =>
      have hx : x = c := hc
      subst hx
      have hq : Last x w (executeQueued x s) := by
        obtain ⟨_, _, _, g4, _, g6⟩ := executeQueued_fields x s
        refine ⟨g4.trans h1, ?_, fun q hq => ?_⟩
        · cases hq : s.queue x with
          | none => rw [executeQueued_none hq]; exact h2
          | some q =>
            rw [(executeQueued_some hq).2]
            split
            · exact h3 q hq
            · exact h2
        · rw [g6, if_pos rfl] at hq; simp at hq
      simp only [step]
      split
      · obtain ⟨_, _, _, g4, g5, g6, _⟩ := submit_fields x (.event .becomeAvailable) (executeQueued x s)
        exact ⟨g6.trans hq.1, (congrFun g5 x).trans hq.2.1, fun q hh => hq.2.2 q (by rw [← g4]; exact hh)⟩
      · exact hq
    | restart =>
      obtain ⟨_, g2, _, _, _, g6, _, g8, _⟩ := boot_fields s
      exact ⟨g8, (congrFun g2 c).trans h2, fun q hq => by
        rw [show step s .restart = boot s from rfl, g6] at hq; simp at hq⟩
    | _ => exact absurd hc (by simp [Concerns])
  · obtain ⟨g1, _, g3, g4⟩ := quiet_step h1 hc
    refine ⟨g3, ?_, fun q hq => h3 q (by rw [← g1]; exact hq)⟩
    rcases g4 with g4 | ⟨q, hq, g4⟩
    · exact g4.trans h2
    · exact g4.trans (h3 q hq)

theorem last_change {c : Nat} {w : Bool} {s : State} {ci : Int} {op : Bool} (h : Last c w s)
    (hn : Names s.n ci c) (hw : Waits s c ∨ s.queue c = none) : Last c op (step s (.change ci op)) := by
  refine ⟨(change_fields ci op s).2.2.1.trans h.1, change_db_names hn, fun q hq => ?_⟩
  rw [show step s (.change ci op) = change ci op s from rfl] at hq
  by_cases hw' : Waits s c
  · rw [change_queue_names hn hw'] at hq
    simp only [Option.some.injEq] at hq; subst hq; rfl
  · rw [change_queue_other (fun e => hw' e.2)] at hq
    rcases hw with hw | hw
    · exact absurd hw hw'
    · rw [hw] at hq; simp at hq

theorem wanted_snoc (n c : Nat) (ops : List Op) (o : Op) : wanted n c (ops ++ [o]) =
    match o with
    | .change ci op => if (0 ≤ ci ∧ ci ≤ n) ∧ c ≤ n ∧ (ci = c ∨ ci = 0) then op else wanted n c ops
    | _ => wanted n c ops := by
  simp [wanted, List.foldl_append]
  cases o <;> rfl

/-! ## Firmware updates -/

theorem calls_disable_last (c : Nat) (l : List Nat) (h : c ∈ l) :
    (calls (l.map Out.disable) c).getLast? = some false := calls_map_last false c l h

theorem firmwarePrepare_told (s : State) (c : Nat) (h1 : 1 ≤ c) (h2 : c ≤ s.n) (h : s.tx c = false) :
    told (firmwarePrepare s) c = some false := by
  unfold told
  rw [firmwarePrepare_out, calls_append, calls_append]
  have e : calls (if ((connectors s.n).filter s.tx).isEmpty then [Out.allUnavailable] else []) c = [] := by
    split <;> simp [calls]
  rw [e, List.append_nil, List.getLast?_append,
    calls_disable_last c _ (List.mem_filter.2 ⟨mem_connectors.2 ⟨h1, h2⟩, by simp [h]⟩)]
  rfl

end Verif.Conn16
