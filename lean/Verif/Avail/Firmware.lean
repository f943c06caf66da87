import Verif.Avail.Lemmas3

/- Helper lemmas about availability during firmware updates. -/
set_option linter.constructorNameAsVariable false

namespace Verif.Avail

/-! ## Rows of the table -/

/-- Every existing connector has a row. -/
def DbFull (s : State) : Prop := ∀ e c, (e, c) ∈ allConns s.conns → (s.db e c).isSome = true

theorem DbFull.mono {s s' : State} (h : DbFull s) (h1 : s'.conns = s.conns)
    (h2 : ∀ e c, (s.db e c).isSome = true → (s'.db e c).isSome = true) : DbFull s' := by
  intro e c hp
  rw [h1] at hp
  exact h2 e c (h e c hp)

theorem execute_db_mono (t : Target) (op p : Bool) (s : State) (e c : Nat) (h : (s.db e c).isSome = true) :
    ((execute t op p s).db e c).isSome = true := by
  rw [execute_db]
  split
  · simp only [upd2]
    split
    · rfl
    · exact h
  · exact h

theorem runScheduled_db_mono (k : Nat) (s : State) (e c : Nat) (h : (s.db e c).isSome = true) :
    ((runScheduled k s).db e c).isSome = true := by
  unfold runScheduled
  split
  · exact h
  · split
    · split
      · exact h
      · rw [(notifyAll_fields _).2.2.2.2.2.2.1]
        exact execute_db_mono _ _ _ s e c h
    · exact h

theorem step_db_mono (s : State) (o : Op) (e c : Nat) (h : (s.db e c).isSome = true) :
    ((step s o).db e c).isSome = true := by
  cases o with
  | change r =>
    simp only [step]
    unfold change
    split
    · exact h
    · exact h
    · split
      · dsimp only
        split
        · exact h
        · exact execute_db_mono _ _ _ _ e c h
      · rw [(Temp.blockIdle _ _).db]; exact h
  | txStart e c => simp only [step]; split <;> exact h
  | txEnd e =>
    simp only [step]
    split
    · exact h
    · split
      · exact runScheduled_db_mono _ _ _ _ (runScheduled_db_mono _ _ _ _ h)
      · exact h
  | event e' c' ev => rw [(quiet_step s _ (by simp)).2.2.2.2.1]; exact h
  | firmwarePrepare => simp only [step]; rw [(firmwarePrepare_fields s).2.2.2.1]; exact h
  | firmwareRestore => simp only [step]; rw [(Temp.firmwareRestore s).db]; exact h
  | block e' =>
    simp only [step]
    split
    · rw [(Temp.blockEvse s e').db]; exact h
    · exact h
  | offline => exact h
  | accepted => rw [(quiet_step s _ (by simp)).2.2.2.2.1]; exact h
  | reconnect b => rw [(quiet_step s _ (by simp)).2.2.2.2.1]; exact h
  | triggerStatus e' c' => rw [(quiet_step s _ (by simp)).2.2.2.2.1]; exact h
  | start => rw [(quiet_step s _ (by simp)).2.2.2.2.1]; exact h
  | boot conns r =>
    simp only [step, boot]
    split
    · rfl
    · exact h

theorem DbFull.boot (conns : List Nat) (r : Nat → Option Nat) (s : State) : DbFull (boot conns r s) := by
  intro e c hp
  simp only [Avail.boot] at hp ⊢
  rw [if_pos (Or.inr (Or.inr hp))]
  rfl

theorem DbFull.step {s : State} (h : DbFull s) (o : Op) : DbFull (step s o) := by
  by_cases hb : isBoot o = true
  · cases o <;> first | exact DbFull.boot _ _ s | cases hb
  · exact h.mono (step_conns' s o (by simpa using hb)) (fun e c he => step_db_mono s o e c he)

theorem DbFull.run {s : State} (h : DbFull s) (ops : List Op) : DbFull (run s ops) := by
  induction ops generalizing s with
  | nil => exact h
  | cons o ops ih => exact ih (h.step o)

theorem DbFull.clean (conns : List Nat) : DbFull (clean conns) := DbFull.boot _ _ _

/-! ## The end of the update -/

theorem fold_restore (l : List (Nat × Nat)) (s : State) :
    (∀ e c, (l.foldl (fun s p => restoreConn p.1 p.2 s) s).conn e c =
      if (e, c) ∈ l then (s.db e c).getD (s.conn e c) else s.conn e c) ∧
    (l.foldl (fun s p => restoreConn p.1 p.2 s) s).evse = s.evse ∧
    (l.foldl (fun s p => restoreConn p.1 p.2 s) s).cs = s.cs := by
  induction l generalizing s with
  | nil => simp
  | cons p l ih =>
    obtain ⟨i1, i2, i3⟩ := ih (restoreConn p.1 p.2 s)
    have hr : (∀ e c, (restoreConn p.1 p.2 s).conn e c =
        if (e, c) = p then (s.db e c).getD (s.conn e c) else s.conn e c) ∧
        (restoreConn p.1 p.2 s).evse = s.evse ∧ (restoreConn p.1 p.2 s).cs = s.cs ∧
        (restoreConn p.1 p.2 s).db = s.db := by
      obtain ⟨a, b⟩ := p
      cases hdb : s.db a b with
      | none =>
        have hno : restoreConn a b s = s := by unfold restoreConn; rw [hdb]
        dsimp only
        rw [hno]
        refine ⟨?_, rfl, rfl, rfl⟩
        intro e c
        split
        · rename_i hh
          obtain ⟨rfl, rfl⟩ := Prod.mk.inj hh
          rw [hdb]; rfl
        · rfl
      | some op =>
        have hyes : restoreConn a b s = setConn a b op false s := by unfold restoreConn; rw [hdb]
        dsimp only
        rw [hyes]
        obtain ⟨_, f2, f3, f4, _, _, f7, _⟩ := setConn_fields a b op false s
        refine ⟨?_, f3, f2, f7⟩
        intro e c
        rw [f4]
        simp only [upd2]
        by_cases hh : e = a ∧ c = b
        · obtain ⟨rfl, rfl⟩ := hh
          simp [hdb]
        · rw [if_neg hh, if_neg (fun h => hh (Prod.mk.inj h))]
    obtain ⟨r1, r2, r3, r4⟩ := hr
    refine ⟨?_, by rw [List.foldl_cons, i2, r2], by rw [List.foldl_cons, i3, r3]⟩
    intro e c
    rw [List.foldl_cons, i1, r1, r4]
    by_cases h1 : (e, c) = p
    · by_cases h2 : (e, c) ∈ l
      · rw [if_pos h2, if_pos h1, if_pos (by simp [h2])]
        cases s.db e c <;> rfl
      · rw [if_neg h2, if_pos h1, if_pos (by simp [h1])]
    · by_cases h2 : (e, c) ∈ l
      · rw [if_pos h2, if_neg h1, if_pos (by simp [h2])]
      · rw [if_neg h2, if_neg h1, if_neg (by simp [h1, h2])]

/-- After the update every connector has its persisted status, EVSEs and station are untouched. -/
theorem restore_facts {s : State} (hf : DbFull s) (t : Target) :
    (∀ e c, t = .conn e c → Exists s.conns t → individual (firmwareRestore s) t = persisted s t) ∧
    ((∀ e c, t ≠ .conn e c) → individual (firmwareRestore s) t = individual s t) := by
  obtain ⟨h1, h2, h3⟩ := fold_restore (allConns s.conns) s
  constructor
  · rintro e c rfl he
    have hp := (mem_allConns s.conns e c).mpr he
    show (firmwareRestore s).conn e c = _
    unfold firmwareRestore
    rw [h1, if_pos hp]
    have := hf e c hp
    unfold persisted
    show (s.db e c).getD (s.conn e c) = (s.db e c).getD true
    cases hdb : s.db e c with
    | none => rw [hdb] at this; cases this
    | some b => rfl
  · intro hne
    cases t with
    | station => exact h3
    | evse e => exact congrFun h2 e
    | conn e c => exact absurd rfl (hne e c)

/-! ## Everything blocked -/

theorem allInoperative_iff (s : State) :
    allInoperative s = true ↔ ∀ e c, (e, c) ∈ allConns s.conns → effConn s e c = false := by
  unfold allInoperative
  rw [List.all_eq_true]
  constructor
  · intro h e c hp
    simpa using h (e, c) hp
  · rintro h ⟨e, c⟩ hp
    simpa using h e c hp

theorem blockEvse_conn (s : State) (e : Nat) :
    (∀ e' c', (blockEvse s e).conn e' c' = if e' = e ∧ c' ∈ connIds s.conns e then false else s.conn e' c') ∧
    (blockEvse s e).evse = s.evse ∧ (blockEvse s e).cs = s.cs := by
  have key : ∀ (l : List Nat) (s : State),
      (∀ e' c', (l.foldl (fun s c => setConn e c false false s) s).conn e' c' =
        if e' = e ∧ c' ∈ l then false else s.conn e' c') ∧
      (l.foldl (fun s c => setConn e c false false s) s).evse = s.evse ∧
      (l.foldl (fun s c => setConn e c false false s) s).cs = s.cs := by
    intro l
    induction l with
    | nil => intro s; simp
    | cons a l ih =>
      intro s
      obtain ⟨i1, i2, i3⟩ := ih (setConn e a false false s)
      obtain ⟨_, f2, f3, f4, _⟩ := setConn_fields e a false false s
      refine ⟨?_, by rw [List.foldl_cons, i2, f3], by rw [List.foldl_cons, i3, f2]⟩
      intro e' c'
      rw [List.foldl_cons, i1, f4]
      simp only [upd2]
      by_cases h1 : e' = e
      · by_cases h2 : c' = a
        · subst h1; subst h2; simp
        · subst h1; simp [h2]
      · simp [h1]
  exact key (connIds s.conns e) s

/-- EVSE `e` is blocked: it is Inoperative or all its connectors are. -/
def Blocked (s : State) (e : Nat) : Prop := s.evse e = false ∨ ∀ c ∈ connIds s.conns e, s.conn e c = false

theorem allInoperative_of_blocked {s : State} (h : ∀ e ∈ evseIds s.conns, Blocked s e) : allInoperative s = true := by
  rw [allInoperative_iff]
  intro e c hp
  obtain ⟨h1, h2⟩ := (mem_all _ _ _).mp hp
  rw [effConn_eq, effEvse_eq]
  rcases h e h1 with hb | hb
  · rw [hb]; simp
  · rw [hb c h2]; simp

/-- While a firmware update waits for transactions: every EVSE is blocked or will be at the end of its
transaction; and the callback was called if all are blocked. -/
structure FInv (n : Nat) (s : State) : Prop where
  ok : SOk s
  le : n ≤ s.out.length
  wait : ∀ e ∈ evseIds s.conns, Blocked s e ∨ ((s.tx e).isSome = true ∧ s.sched e = some (firmwareSched e))
  told : (∃ e ∈ evseIds s.conns, (s.tx e).isSome = true ∧ s.sched e = some (firmwareSched e)) ∨
    Out.allUnavailable ∈ s.out.drop n

theorem FInv.congr {n : Nat} {s s' : State} (h : FInv n s) (h1 : s'.conns = s.conns) (h2 : s'.evse = s.evse)
    (h3 : s'.conn = s.conn) (h4 : s'.tx = s.tx) (h5 : s'.sched = s.sched) (h6 : ∃ l, s'.out = s.out ++ l) : FInv n s' := by
  obtain ⟨l, hl⟩ := h6
  refine ⟨h.ok.congr h1 h5, by rw [hl, List.length_append]; have := h.le; omega, ?_, ?_⟩
  · intro e he
    rw [h1] at he
    simp only [Blocked, h1, h2, h3, h4, h5]
    exact h.wait e he
  · rw [h1, h4, h5]
    refine h.told.imp id ?_
    intro hm
    rw [hl, List.drop_append_of_le_length h.le]
    exact List.mem_append_left _ hm

theorem FInv.quiet {n : Nat} {s : State} (h : FInv n s) (o : Op)
    (ho : (∃ e c ev, o = .event e c ev) ∨ o = .offline ∨ o = .accepted ∨ (∃ b, o = .reconnect b) ∨
      (∃ e c, o = .triggerStatus e c) ∨ o = .start) : FInv n (step s o) := by
  obtain ⟨h1, _, h3, h4, _, h6, h7⟩ := quiet_step s o ho
  obtain ⟨l, hl, _⟩ := notes_current s o
  exact h.congr h1 h3 h4 h6 h7 ⟨l, hl⟩

/-- Pending requests for an EVSE with key `k` are executed: what else changes. -/
theorem FInv.runOther {n : Nat} {s : State} (h : FInv n s) (k : Nat)
    (hk : ∀ e ∈ evseIds s.conns, s.sched e = some (firmwareSched e) → (s.tx e).isSome = true → e ≠ k)
    (hno : s.sched k = none ∨ k = 0) : FInv n (runScheduled k s) := by
  rcases hno with hno | hk0
  · rw [runScheduled_none hno]; exact h
  · subst hk0
    cases hk1 : s.sched 0 with
    | none => rw [runScheduled_none hk1]; exact h
    | some sc =>
      obtain ⟨t, ht, hkey, _⟩ := h.ok 0 sc hk1
      have hst : t = .station := (keyOf_zero (target_naming ht).2).mp hkey
      subst hst
      by_cases hb : Busy s .station
      · rw [runScheduled_busy hk1 ht hb]; exact h
      · rw [runScheduled_idle hk1 ht hb]
        -- no transaction runs, so that all were blocked
        have hall : ∀ e ∈ evseIds s.conns, Blocked s e := by
          intro e he
          rcases h.wait e he with hw | ⟨hw, _⟩
          · exact hw
          · exact absurd ⟨e, ((mem_evseIds _ _).mp he).1, ((mem_evseIds _ _).mp he).2, hw⟩ hb
        have htold : Out.allUnavailable ∈ s.out.drop n := by
          rcases h.told with ⟨e, he, hw, _⟩ | hm
          · exact absurd ⟨e, ((mem_evseIds _ _).mp he).1, ((mem_evseIds _ _).mp he).2, hw⟩ hb
          · exact hm
        obtain ⟨n1, _, n3, n4, _, _, _, _, n9, n10⟩ := notifyAll_fields (setSched (execute .station sc.req.op sc.persist s) 0 none)
        obtain ⟨f1, _, f3, f4, _⟩ := setCs_fields sc.req.op sc.persist s
        obtain ⟨e1, _, _, _, e5, e6, l, hl, _⟩ := execute_fields .station sc.req.op sc.persist s
        have hout : ∃ l', (notifyAll (setSched (execute .station sc.req.op sc.persist s) 0 none)).out = s.out ++ l' := by
          obtain ⟨l2, hl2, _⟩ := (Silent.notifyAll (setSched (execute .station sc.req.op sc.persist s) 0 none)).out
          refine ⟨l ++ l2, ?_⟩
          rw [hl2]
          show (execute .station sc.req.op sc.persist s).out ++ l2 = _
          rw [hl, List.append_assoc]
        obtain ⟨l', hl'⟩ := hout
        refine ⟨((h.ok.execute .station _ _).erase 0).notifyAll, by rw [hl', List.length_append]; have := h.le; omega, ?_, ?_⟩
        · intro e he
          rw [n1] at he
          have he' : e ∈ evseIds s.conns := by rw [← e1]; exact he
          refine Or.inl ?_
          have hb1 := hall e he'
          simp only [Blocked, n1, n3, n4]
          show (setCs sc.req.op sc.persist s).evse e = false ∨ ∀ c ∈ connIds (setCs sc.req.op sc.persist s).conns e, (setCs sc.req.op sc.persist s).conn e c = false
          rw [f1, f3, f4]
          exact hb1
        · refine Or.inr ?_
          rw [hl', List.drop_append_of_le_length h.le]
          exact List.mem_append_left _ htold

/-- The pending block of EVSE `k` is executed when its transaction has ended. -/
theorem FInv.runBlock {n : Nat} {s : State} (hok : SOk s) (hle : n ≤ s.out.length) (k : Nat) (hk : k ∈ evseIds s.conns)
    (hsc : s.sched k = some (firmwareSched k)) (htx : s.tx k = none)
    (hw : ∀ e ∈ evseIds s.conns, e ≠ k → Blocked s e ∨ ((s.tx e).isSome = true ∧ s.sched e = some (firmwareSched e))) :
    FInv n (runScheduled k s) := by
  have ht := firmwareSched_target hk
  have hidle : ¬ Busy s (.evse k) := by simp [Busy, htx]
  rw [runScheduled_idle hsc ht hidle]
  have hk1 := (mem_evseIds _ _).mp hk
  obtain ⟨f1, f2, f3, f4, _, _, _, _, f9, f10⟩ := setEvse_fields k false false s
  obtain ⟨n1, _, n3, n4, _, _, _, _, n9, n10⟩ := notifyAll_fields (setSched (execute (.evse k) false false s) k none)
  obtain ⟨l, hl, _⟩ := setEvse_out k false false s
  have hso : SOk (notifyAll (setSched (execute (.evse k) false false s) k none)) :=
    ((hok.execute (.evse k) false false).erase k).notifyAll
  -- the state before the check
  have hw' : ∀ e ∈ evseIds s.conns, Blocked (setSched (execute (.evse k) false false s) k none) e ∨
      (((setSched (execute (.evse k) false false s) k none).tx e).isSome = true ∧
        (setSched (execute (.evse k) false false s) k none).sched e = some (firmwareSched e)) := by
    intro e he
    by_cases hek : e = k
    · refine Or.inl (Or.inl ?_)
      show (setEvse k false false s).evse e = false
      rw [f3]; simp [upd, hek]
    · rcases hw e he hek with hb | ⟨h1, h2⟩
      · refine Or.inl ?_
        show (setEvse k false false s).evse e = false ∨ ∀ c ∈ connIds (setEvse k false false s).conns e, (setEvse k false false s).conn e c = false
        rw [f1, f3, f4]
        simp only [upd, if_neg hek]
        exact hb
      · refine Or.inr ⟨?_, ?_⟩
        · show ((setEvse k false false s).tx e).isSome = true
          rw [f9]; exact h1
        · show (if e = k then none else (setEvse k false false s).sched e) = _
          rw [if_neg hek, f10]; exact h2
  have hconns : (setSched (execute (.evse k) false false s) k none).conns = s.conns := f1
  have hout1 : (setSched (execute (.evse k) false false s) k none).out = s.out ++ l := hl
  show FInv n (notifyAll (setSched (execute (.evse k) false false s) k none))
  generalize hs1 : setSched (execute (.evse k) false false s) k none = s1 at *
  obtain ⟨l2, hl2, _⟩ := (Silent.notifyAll s1).out
  refine ⟨hso, by rw [hl2, hout1]; simp only [List.length_append]; omega, ?_, ?_⟩
  · intro e he
    rw [n1, hconns] at he
    simp only [Blocked, n1, n3, n4, n9, n10]
    exact hw' e he
  · rw [n1, n9, n10, hconns]
    by_cases hex : ∃ e ∈ evseIds s.conns, (s1.tx e).isSome = true ∧ s1.sched e = some (firmwareSched e)
    · exact Or.inl hex
    · refine Or.inr ?_
      have hall : allInoperative s1 = true := by
        apply allInoperative_of_blocked
        rw [hconns]
        intro e he
        rcases hw' e he with h | h
        · exact h
        · exact absurd ⟨e, he, h⟩ hex
      unfold notifyAll
      rw [if_pos hall]
      simp only [emit]
      rw [List.drop_append_of_le_length (by rw [hout1, List.length_append]; omega)]
      exact List.mem_append_right _ (by simp)

/-- Nothing but blocks is pending for an EVSE. -/
def OnlyBlocks (s : State) : Prop := ∀ e ∈ evseIds s.conns, ∀ sc, s.sched e = some sc → sc = firmwareSched e

/-- Other changes that make nothing operative. -/
theorem Blocked.block {s : State} {e : Nat} (h : Blocked s e) (e' : Nat) : Blocked (blockEvse s e') e := by
  obtain ⟨b1, b2, _⟩ := blockEvse_conn s e'
  unfold Blocked
  rw [(Temp.blockEvse s e').conns, b2]
  refine h.imp id ?_
  intro hc c hm
  rw [b1]
  split
  · rfl
  · exact hc c hm

theorem FInv.step {n : Nat} {s : State} (h : FInv n s) (o : Op) (ho : ordinary o = true) (hob : OnlyBlocks s) :
    FInv n (step s o) ∧ OnlyBlocks (step s o) := by
  have quiet : ∀ o', ((∃ e c ev, o' = .event e c ev) ∨ o' = .offline ∨ o' = .accepted ∨ (∃ b, o' = .reconnect b) ∨
      (∃ e c, o' = .triggerStatus e c) ∨ o' = .start) → FInv n (Avail.step s o') ∧ OnlyBlocks (Avail.step s o') := by
    intro o' ho'
    refine ⟨h.quiet o' ho', ?_⟩
    obtain ⟨h1, _, _, _, _, _, h7⟩ := quiet_step s o' ho'
    intro e he sc hsc
    rw [h1] at he
    rw [h7] at hsc
    exact hob e he sc hsc
  cases o with
  | change r => cases ho
  | firmwarePrepare => cases ho
  | firmwareRestore => cases ho
  | boot c r => cases ho
  | event e c ev => exact quiet _ (by simp)
  | offline => exact quiet _ (by simp)
  | accepted => exact quiet _ (by simp)
  | reconnect b => exact quiet _ (by simp)
  | triggerStatus e c => exact quiet _ (by simp)
  | start => exact quiet _ (by simp)
  | block e =>
    simp only [Avail.step]
    split
    · have hT := Temp.blockEvse s e
      obtain ⟨l, hl, _⟩ := hT.out
      refine ⟨⟨h.ok.temp hT, by rw [hl, List.length_append]; have := h.le; omega, ?_, ?_⟩, ?_⟩
      · intro e' he'
        rw [hT.conns] at he'
        rw [hT.tx, hT.sched]
        exact (h.wait e' he').imp (fun hb => hb.block e) id
      · rw [hT.conns, hT.tx, hT.sched]
        refine h.told.imp id ?_
        intro hm
        rw [hl, List.drop_append_of_le_length h.le]
        exact List.mem_append_left _ hm
      · intro e' he' sc hsc
        rw [hT.conns] at he'
        rw [hT.sched] at hsc
        exact hob e' he' sc hsc
    · exact ⟨h.congr rfl rfl rfl rfl rfl ⟨[.threw], rfl⟩, hob⟩
  | txStart e c =>
    simp only [Avail.step]
    split
    · refine ⟨⟨h.ok, h.le, ?_, ?_⟩, hob⟩
      · intro e' he'
        refine (h.wait e' he').imp id ?_
        rintro ⟨h1, h2⟩
        refine ⟨?_, h2⟩
        dsimp only
        split
        · rfl
        · exact h1
      · refine h.told.imp ?_ id
        rintro ⟨e', he', h1, h2⟩
        refine ⟨e', he', ?_, h2⟩
        dsimp only
        split
        · rfl
        · exact h1
    · exact ⟨h.congr rfl rfl rfl rfl rfl ⟨[.threw], rfl⟩, hob⟩
  | txEnd e =>
    simp only [Avail.step]
    split
    · exact ⟨h.congr rfl rfl rfl rfl rfl ⟨[.threw], rfl⟩, hob⟩
    · rename_i hin
      have hin' : e ∈ evseIds s.conns := by simpa using hin
      have he1 : e ≠ 0 := by have := (mem_evseIds _ _).mp hin'; omega
      split
      · have hok0 : SOk { s with tx := fun i => if i = e then none else s.tx i } := h.ok
        -- after the request of the EVSE
        have hfirst : FInv n (runScheduled e { s with tx := fun i => if i = e then none else s.tx i }) := by
          cases hsc : s.sched e with
          | none =>
            rw [runScheduled_none (s := { s with tx := fun i => if i = e then none else s.tx i }) hsc]
            refine ⟨hok0, h.le, ?_, ?_⟩
            · intro e' he'
              have he'' : e' ∈ evseIds s.conns := he'
              rcases h.wait e' he'' with hb | ⟨h1, h2⟩
              · exact Or.inl hb
              · refine Or.inr ⟨?_, h2⟩
                dsimp only
                rw [if_neg]
                · exact h1
                · rintro rfl
                  rw [hsc] at h2; cases h2
            · refine h.told.imp ?_ id
              rintro ⟨e', he', h1, h2⟩
              refine ⟨e', he', ?_, h2⟩
              dsimp only
              rw [if_neg]
              · exact h1
              · rintro rfl
                rw [hsc] at h2; cases h2
          | some sc =>
            have := hob e hin' sc hsc
            subst this
            refine FInv.runBlock (s := { s with tx := fun i => if i = e then none else s.tx i }) hok0 h.le e hin' hsc
              (by simp) ?_
            intro e' he' hne
            rcases h.wait e' he' with hb | ⟨h1, h2⟩
            · exact Or.inl hb
            · refine Or.inr ⟨?_, h2⟩
              dsimp only
              rw [if_neg hne]
              exact h1
        have hfr := runScheduled_frame hok0 e
        have hob1 : OnlyBlocks (runScheduled e { s with tx := fun i => if i = e then none else s.tx i }) := by
          intro e' he' sc hsc
          rw [hfr.1] at he'
          by_cases hee : e' = e
          · subst hee
            -- it was executed or there was none
            cases hsc0 : s.sched e' with
            | none =>
              rw [runScheduled_none (s := { s with tx := fun i => if i = e' then none else s.tx i }) hsc0] at hsc
              have hsc' : s.sched e' = some sc := hsc
              rw [hsc0] at hsc'; cases hsc'
            | some sc0 =>
              have := hob e' hin' sc0 hsc0
              subst this
              rw [runScheduled_idle (s := { s with tx := fun i => if i = e' then none else s.tx i }) hsc0
                (firmwareSched_target hin') (by simp [Busy]), (notifyAll_fields _).2.2.2.2.2.2.2.2.2] at hsc
              simp [Avail.setSched] at hsc
          · rw [hfr.2.2.1 e' hee] at hsc
            exact hob e' he' sc hsc
        generalize runScheduled e { s with tx := fun i => if i = e then none else s.tx i } = s1 at *
        have hfr0 := runScheduled_frame hfirst.ok 0
        refine ⟨hfirst.runOther 0 ?_ (Or.inr rfl), ?_⟩
        · intro e' he' _ _
          have := (mem_evseIds _ _).mp he'; omega
        · intro e' he' sc hsc
          rw [hfr0.1] at he'
          have : e' ≠ 0 := by have := (mem_evseIds _ _).mp he'; omega
          rw [hfr0.2.2.1 e' this] at hsc
          exact hob1 e' he' sc hsc
      · exact ⟨h, hob⟩

theorem FInv.run {n : Nat} (ops : List Op) (s : State) (h : FInv n s) (hob : OnlyBlocks s)
    (ho : ∀ o ∈ ops, ordinary o = true) : FInv n (run s ops) ∧ OnlyBlocks (run s ops) := by
  induction ops generalizing s with
  | nil => exact ⟨h, hob⟩
  | cons o ops ih =>
    obtain ⟨h1, h2⟩ := h.step o (ho o (by simp)) hob
    exact ih (Avail.step s o) h1 h2 (fun o' ho' => ho o' (List.mem_cons_of_mem _ ho'))

/-- A request is pending for an EVSE only while its transaction runs. -/
def PendActive (s : State) : Prop := ∀ e ∈ evseIds s.conns, (s.sched e).isSome = true → (s.tx e).isSome = true

theorem PendActive.congr {s s' : State} (h : PendActive s) (h1 : s'.conns = s.conns) (h2 : s'.sched = s.sched)
    (h3 : s'.tx = s.tx) : PendActive s' := by
  intro e he hs
  rw [h1] at he
  rw [h2] at hs
  rw [h3]
  exact h e he hs

theorem PendActive.step {s : State} (hok : SOk s) (h : PendActive s) (o : Op) : PendActive (step s o) := by
  have quiet : ∀ o', ((∃ e c ev, o' = .event e c ev) ∨ o' = .offline ∨ o' = .accepted ∨ (∃ b, o' = .reconnect b) ∨
      (∃ e c, o' = .triggerStatus e c) ∨ o' = .start) → PendActive (Avail.step s o') := by
    intro o' ho'
    obtain ⟨h1, _, _, _, _, h6, h7⟩ := quiet_step s o' ho'
    exact h.congr h1 h7 h6
  cases o with
  | change r =>
    have erase : ∀ k, PendActive (setSched s k none) := by
      intro k e he hs
      simp only [setSched] at hs
      split at hs
      · cases hs
      · exact h e he hs
    simp only [Avail.step]
    unfold Avail.change
    split
    · exact h
    · exact h
    · rename_i t ht
      split
      · dsimp only
        split
        · exact erase (keyOf t)
        · obtain ⟨e1, _, _, _, e5, e6, _⟩ := execute_fields t r.op true (emit (setSched s (keyOf t) none) (.answer .accepted))
          exact (erase (keyOf t)).congr e1 e6 e5
      · rename_i hacc
        have hT := Temp.blockIdle t (emit (setSched s (keyOf t) (some { req := r, persist := true })) (.answer .scheduled))
        refine PendActive.congr (s := setSched s (keyOf t) (some { req := r, persist := true })) ?_ hT.conns hT.sched hT.tx
        intro e he hs
        simp only [setSched] at hs
        split at hs
        · rename_i hek
          have hact : anyActive s (evseOf t) = true := by
            cases ha : anyActive s (evseOf t) with
            | true => rfl
            | false => exact absurd (by simp [accepts, ha]) hacc
          have hb := (anyActive_iff s t).mp hact
          have he1 := (mem_evseIds _ _).mp he
          cases t with
          | station => simp [keyOf, evseOf] at hek; omega
          | evse e' => simp [keyOf, evseOf] at hek; rw [hek]; exact hb
          | conn e' c' => simp [keyOf, evseOf] at hek; rw [hek]; exact hb
        · exact h e he hs
  | txStart e c =>
    simp only [Avail.step]
    split
    · intro e' he' hs
      dsimp only
      split
      · rfl
      · exact h e' he' hs
    · exact h
  | txEnd e =>
    simp only [Avail.step]
    split
    · exact h
    · rename_i hin
      have hin' : e ∈ evseIds s.conns := by simpa using hin
      split
      · have hok0 : SOk { s with tx := fun i => if i = e then none else s.tx i } := hok
        obtain ⟨a1, a2, a3, _⟩ := runScheduled_frame hok0 e
        obtain ⟨b1, b2, b3, _⟩ := runScheduled_frame (hok0.runScheduled e) 0
        intro e' he' hs
        rw [b1, a1] at he'
        have he1 : e' ≠ 0 := by have := (mem_evseIds _ _).mp he'; omega
        rw [b2, a2]
        rw [b3 e' he1] at hs
        by_cases hee : e' = e
        · subst hee
          exfalso
          cases hsc : s.sched e' with
          | none =>
            rw [runScheduled_none (s := { s with tx := fun i => if i = e' then none else s.tx i }) hsc] at hs
            have hs' : (s.sched e').isSome = true := hs
            rw [hsc] at hs'; cases hs'
          | some sc =>
            obtain ⟨t, ht, hkt, _⟩ := hok0 e' sc hsc
            have hidle : ¬ Busy { s with tx := fun i => if i = e' then none else s.tx i } t := by
              cases t with
              | station => simp [keyOf, evseOf] at hkt; omega
              | evse x => simp [keyOf, evseOf] at hkt; simp [Busy, hkt]
              | conn x y => simp [keyOf, evseOf] at hkt; simp [Busy, hkt]
            rw [runScheduled_idle (s := { s with tx := fun i => if i = e' then none else s.tx i }) hsc ht hidle,
              (notifyAll_fields _).2.2.2.2.2.2.2.2.2] at hs
            simp [Avail.setSched] at hs
        · rw [a3 e' hee] at hs
          dsimp only
          rw [if_neg hee]
          exact h e' he' hs
      · exact h
  | event e c ev => exact quiet _ (by simp)
  | firmwarePrepare =>
    obtain ⟨h1, _, _, _, h5, _, _, _, h9⟩ := firmwarePrepare_fields s
    intro e he hs
    have he' : e ∈ evseIds s.conns := by rw [← h1]; exact he
    show ((firmwarePrepare s).tx e).isSome = true
    rw [h5]
    rcases h9 e with hh | ⟨_, ha, _⟩
    · refine h e he' ?_
      rw [← hh]; exact hs
    · exact ha
  | firmwareRestore =>
    have hT := Temp.firmwareRestore s
    exact h.congr hT.conns hT.sched hT.tx
  | block e =>
    simp only [Avail.step]
    split
    · have hT := Temp.blockEvse s e
      exact h.congr hT.conns hT.sched hT.tx
    · exact h
  | offline => exact quiet _ (by simp)
  | accepted => exact quiet _ (by simp)
  | reconnect b => exact quiet _ (by simp)
  | triggerStatus e c => exact quiet _ (by simp)
  | start => exact quiet _ (by simp)
  | boot conns r =>
    intro e he hs
    simp only [Avail.step, Avail.boot] at hs
    cases hs

theorem PendActive.run {s : State} (hok : SOk s) (h : PendActive s) (ops : List Op) : PendActive (run s ops) := by
  induction ops generalizing s with
  | nil => exact h
  | cons o ops ih => exact ih (hok.step o) (h.step hok o)

theorem PendActive.clean (conns : List Nat) : PendActive (clean conns) := by
  intro e he hs
  simp only [Avail.clean, Avail.boot] at hs
  cases hs

/-- A request is pending for the station only while some transaction runs. -/
def PendStation (s : State) : Prop := (s.sched 0).isSome = true → Busy s .station

theorem busy_congr {s s' : State} (h1 : s'.conns = s.conns) (h2 : s'.tx = s.tx) (t : Target) : Busy s' t ↔ Busy s t := by
  cases t <;> simp only [Busy, h1, h2]

theorem PendStation.congr {s s' : State} (h : PendStation s) (h1 : s'.conns = s.conns) (h2 : s'.sched 0 = s.sched 0)
    (h3 : s'.tx = s.tx) : PendStation s' := by
  intro hs
  rw [h2] at hs
  exact (busy_congr h1 h3 .station).mpr (h hs)

theorem PendStation.step {s : State} (hok : SOk s) (h : PendStation s) (o : Op) : PendStation (step s o) := by
  have quiet : ∀ o', ((∃ e c ev, o' = .event e c ev) ∨ o' = .offline ∨ o' = .accepted ∨ (∃ b, o' = .reconnect b) ∨
      (∃ e c, o' = .triggerStatus e c) ∨ o' = .start) → PendStation (Avail.step s o') := by
    intro o' ho'
    obtain ⟨h1, _, _, _, _, h6, h7⟩ := quiet_step s o' ho'
    exact h.congr h1 (by rw [h7]) h6
  cases o with
  | change r =>
    have erase : ∀ k, PendStation (setSched s k none) := by
      intro k hs
      simp only [setSched] at hs
      split at hs
      · cases hs
      · exact h hs
    simp only [Avail.step]
    unfold Avail.change
    split
    · exact h
    · exact h
    · rename_i t ht
      split
      · dsimp only
        split
        · exact erase (keyOf t)
        · obtain ⟨e1, _, _, _, e5, e6, _⟩ := execute_fields t r.op true (emit (setSched s (keyOf t) none) (.answer .accepted))
          exact (erase (keyOf t)).congr e1 (by rw [e6]; rfl) e5
      · rename_i hacc
        have hT := Temp.blockIdle t (emit (setSched s (keyOf t) (some { req := r, persist := true })) (.answer .scheduled))
        refine PendStation.congr (s := setSched s (keyOf t) (some { req := r, persist := true })) ?_ hT.conns
          (by rw [hT.sched]; rfl) hT.tx
        intro hs
        simp only [setSched] at hs
        split at hs
        · rename_i hek
          have hact : anyActive s (evseOf t) = true := by
            cases ha : anyActive s (evseOf t) with
            | true => rfl
            | false => exact absurd (by simp [accepts, ha]) hacc
          have hst : t = .station := (keyOf_zero (target_naming ht).2).mp hek.symm
          subst hst
          exact (anyActive_iff s .station).mp hact
        · exact h hs
  | txStart e c =>
    simp only [Avail.step]
    split
    · intro hs
      obtain ⟨e', h1, h2, h3⟩ := h hs
      refine ⟨e', h1, h2, ?_⟩
      dsimp only
      split
      · rfl
      · exact h3
    · exact h
  | txEnd e =>
    simp only [Avail.step]
    split
    · exact h
    · rename_i hin
      have hin' : e ∈ evseIds s.conns := by simpa using hin
      split
      · have hok0 : SOk { s with tx := fun i => if i = e then none else s.tx i } := hok
        have hso1 := hok0.runScheduled e
        generalize runScheduled e { s with tx := fun i => if i = e then none else s.tx i } = s1 at *
        intro hs
        cases hk : s1.sched 0 with
        | none =>
          rw [runScheduled_none hk, hk] at hs
          cases hs
        | some sc =>
          obtain ⟨t, ht, hkey, _⟩ := hso1 0 sc hk
          have hst : t = .station := (keyOf_zero (target_naming ht).2).mp hkey
          subst hst
          by_cases hb : Busy s1 .station
          · rw [runScheduled_busy hk ht hb]; exact hb
          · rw [runScheduled_idle hk ht hb, (notifyAll_fields _).2.2.2.2.2.2.2.2.2] at hs
            simp [Avail.setSched] at hs
      · exact h
  | event e c ev => exact quiet _ (by simp)
  | firmwarePrepare =>
    obtain ⟨h1, _, _, _, h5, _, _, _, h9⟩ := firmwarePrepare_fields s
    refine h.congr h1 ?_ h5
    rcases h9 0 with hh | ⟨hh, _⟩
    · exact hh
    · have := (mem_evseIds _ _).mp hh; omega
  | firmwareRestore =>
    have hT := Temp.firmwareRestore s
    exact h.congr hT.conns (congrFun hT.sched 0) hT.tx
  | block e =>
    simp only [Avail.step]
    split
    · have hT := Temp.blockEvse s e
      exact h.congr hT.conns (congrFun hT.sched 0) hT.tx
    · exact h
  | offline => exact quiet _ (by simp)
  | accepted => exact quiet _ (by simp)
  | reconnect b => exact quiet _ (by simp)
  | triggerStatus e c => exact quiet _ (by simp)
  | start => exact quiet _ (by simp)
  | boot conns r =>
    intro hs
    simp only [Avail.step, Avail.boot] at hs
    cases hs

theorem PendStation.run {s : State} (hok : SOk s) (h : PendStation s) (ops : List Op) : PendStation (run s ops) := by
  induction ops generalizing s with
  | nil => exact h
  | cons o ops ih => exact ih (hok.step o) (h.step hok o)

theorem PendStation.clean (conns : List Nat) : PendStation (clean conns) := by
  intro hs
  simp only [Avail.clean, Avail.boot] at hs
  cases hs

/-- Nothing is pending when no transaction runs. -/
theorem none_pending {s : State} (hok : SOk s) (h1 : PendActive s) (h2 : PendStation s) (hb : ¬ Busy s .station)
    (k : Nat) : s.sched k = none := by
  cases hk : s.sched k with
  | none => rfl
  | some sc =>
    exfalso
    obtain ⟨t, ht, hkey, _⟩ := hok k sc hk
    have hex := (target_naming ht).2
    by_cases h0 : k = 0
    · subst h0
      exact hb (h2 (by rw [hk]; rfl))
    · have hm : k ∈ evseIds s.conns := by
        rw [mem_evseIds]
        cases t with
        | station => simp [keyOf, evseOf] at hkey; exact absurd hkey.symm h0
        | evse e => simp [keyOf, evseOf] at hkey; subst hkey; exact hex
        | conn e c => simp [keyOf, evseOf] at hkey; subst hkey; exact ⟨hex.1, hex.2.1⟩
      have := h1 k hm (by rw [hk]; rfl)
      exact hb ⟨k, ((mem_evseIds _ _).mp hm).1, ((mem_evseIds _ _).mp hm).2, this⟩

/-- With nothing pending, operations other than requests, updates and restarts change connectors at most. -/
theorem ordinary_keep (ops : List Op) (s : State) (hn : ∀ k, s.sched k = none) (ho : ∀ o ∈ ops, ordinary o = true) :
    (run s ops).conns = s.conns ∧ (run s ops).cs = s.cs ∧ (run s ops).evse = s.evse ∧ (run s ops).db = s.db := by
  induction ops generalizing s with
  | nil => exact ⟨rfl, rfl, rfl, rfl⟩
  | cons o ops ih =>
    have hstep : (step s o).conns = s.conns ∧ (step s o).cs = s.cs ∧ (step s o).evse = s.evse ∧ (step s o).db = s.db ∧
        ∀ k, (step s o).sched k = none := by
      have quiet : ∀ o', ((∃ e c ev, o' = .event e c ev) ∨ o' = .offline ∨ o' = .accepted ∨ (∃ b, o' = .reconnect b) ∨
          (∃ e c, o' = .triggerStatus e c) ∨ o' = .start) → (step s o').conns = s.conns ∧ (step s o').cs = s.cs ∧
          (step s o').evse = s.evse ∧ (step s o').db = s.db ∧ ∀ k, (step s o').sched k = none := by
        intro o' ho'
        obtain ⟨h1, h2, h3, _, h5, _, h7⟩ := quiet_step s o' ho'
        exact ⟨h1, h2, h3, h5, fun k => by rw [h7]; exact hn k⟩
      have hord := ho o (by simp)
      cases o with
      | change r => cases hord
      | firmwarePrepare => cases hord
      | firmwareRestore => cases hord
      | boot c r => cases hord
      | event e c ev => exact quiet _ (by simp)
      | offline => exact quiet _ (by simp)
      | accepted => exact quiet _ (by simp)
      | reconnect b => exact quiet _ (by simp)
      | triggerStatus e c => exact quiet _ (by simp)
      | start => exact quiet _ (by simp)
      | block e =>
        simp only [step]
        split
        · have hT := Temp.blockEvse s e
          obtain ⟨_, b2, b3⟩ := blockEvse_conn s e
          exact ⟨hT.conns, b3, b2, hT.db, fun k => by rw [hT.sched]; exact hn k⟩
        · exact ⟨rfl, rfl, rfl, rfl, hn⟩
      | txStart e c =>
        simp only [step]
        split <;> exact ⟨rfl, rfl, rfl, rfl, hn⟩
      | txEnd e =>
        simp only [step]
        split
        · exact ⟨rfl, rfl, rfl, rfl, hn⟩
        · split
          · rw [runScheduled_none (s := { s with tx := fun i => if i = e then none else s.tx i }) (hn e),
              runScheduled_none (s := { s with tx := fun i => if i = e then none else s.tx i }) (hn 0)]
            exact ⟨rfl, rfl, rfl, rfl, hn⟩
          · exact ⟨rfl, rfl, rfl, rfl, hn⟩
    obtain ⟨a1, a2, a3, a4, a5⟩ := hstep
    obtain ⟨b1, b2, b3, b4⟩ := ih (step s o) a5 (fun o' ho' => ho o' (List.mem_cons_of_mem _ ho'))
    exact ⟨b1.trans a1, b2.trans a2, b3.trans a3, b4.trans a4⟩

/-- The preparation while a transaction runs. -/
theorem FInv.prepare {s : State} (hok : SOk s) (hb : Busy s .station) (hpa : PendActive s) :
    FInv s.out.length (firmwarePrepare s) ∧ OnlyBlocks (firmwarePrepare s) := by
  have hany : anyActive s none = true := (anyActive_iff s .station).mpr hb
  have hsok : SOk (firmwarePrepare s) := hok.step .firmwarePrepare
  obtain ⟨p1, _, _, _, p5, _, _, _, p9⟩ := firmwarePrepare_fields s
  have hsil := Silent.step s .firmwarePrepare rfl
  obtain ⟨l, hl, _⟩ := hsil.out
  have hl' : (firmwarePrepare s).out = s.out ++ l := hl
  -- every EVSE is treated
  have key : ∀ (l : List Nat) (x : State), x.conns = s.conns → x.tx = s.tx →
      (∀ e ∈ l, Blocked (l.foldl (fun s e => if !active s e then blockEvse s e else setSched s e (some (firmwareSched e))) x) e ∨
        ((s.tx e).isSome = true ∧ (l.foldl (fun s e => if !active s e then blockEvse s e else setSched s e (some (firmwareSched e))) x).sched e = some (firmwareSched e))) ∧
      (∀ e, (Blocked x e ∨ ((s.tx e).isSome = true ∧ x.sched e = some (firmwareSched e))) →
        Blocked (l.foldl (fun s e => if !active s e then blockEvse s e else setSched s e (some (firmwareSched e))) x) e ∨
        ((s.tx e).isSome = true ∧ (l.foldl (fun s e => if !active s e then blockEvse s e else setSched s e (some (firmwareSched e))) x).sched e = some (firmwareSched e))) ∧
      (∀ e, (s.tx e).isSome = true → (x.sched e = some (firmwareSched e) ∨ e ∈ l) →
        (l.foldl (fun s e => if !active s e then blockEvse s e else setSched s e (some (firmwareSched e))) x).sched e = some (firmwareSched e)) := by
    intro l
    induction l with
    | nil =>
      intro x _ _
      refine ⟨by simp, fun e h => h, ?_⟩
      intro e _ h
      rcases h with h | h
      · exact h
      · cases h
    | cons a l ih =>
      intro x hx1 hx2
      rw [List.foldl_cons]
      by_cases hact : active x a = true
      · have hstep : (if !active x a then blockEvse x a else setSched x a (some (firmwareSched a))) =
            setSched x a (some (firmwareSched a)) := by rw [if_neg (by simp [hact])]
        rw [hstep]
        obtain ⟨i1, i2, i3⟩ := ih (setSched x a (some (firmwareSched a))) hx1 hx2
        have hacts : (s.tx a).isSome = true := by rw [← hx2]; exact hact
        refine ⟨?_, ?_, ?_⟩
        · intro e he
          rcases List.mem_cons.mp he with rfl | he
          · exact i2 e (Or.inr ⟨hacts, by simp [setSched]⟩)
          · exact i1 e he
        · intro e he
          refine i2 e ?_
          rcases he with he | ⟨h1, h2⟩
          · exact Or.inl he
          · refine Or.inr ⟨h1, ?_⟩
            simp only [setSched]
            split
            · rename_i hh; rw [hh]
            · exact h2
        · intro e h1 h2
          refine i3 e h1 ?_
          rcases h2 with h2 | h2
          · refine Or.inl ?_
            simp only [setSched]
            split
            · rename_i hh; rw [hh]
            · exact h2
          · rcases List.mem_cons.mp h2 with rfl | h2
            · exact Or.inl (by simp [setSched])
            · exact Or.inr h2
      · have hstep : (if !active x a then blockEvse x a else setSched x a (some (firmwareSched a))) = blockEvse x a := by
          rw [if_pos (by simpa using hact)]
        rw [hstep]
        have hT := Temp.blockEvse x a
        obtain ⟨i1, i2, i3⟩ := ih (blockEvse x a) (by rw [hT.conns, hx1]) (by rw [hT.tx, hx2])
        refine ⟨?_, ?_, ?_⟩
        · intro e he
          rcases List.mem_cons.mp he with rfl | he
          · refine i2 e (Or.inl (Or.inr ?_))
            intro c hc
            rw [hT.conns] at hc
            rw [(blockEvse_conn x e).1, if_pos ⟨rfl, hc⟩]
          · exact i1 e he
        · intro e he
          refine i2 e ?_
          rw [hT.sched]
          exact he.imp (fun hb => hb.block a) id
        · intro e h1 h2
          refine i3 e h1 ?_
          rw [hT.sched]
          rcases h2 with h2 | h2
          · exact Or.inl h2
          · rcases List.mem_cons.mp h2 with rfl | h2
            · rw [← hx2] at h1
              exact absurd h1 hact
            · exact Or.inr h2
  have hprep : firmwarePrepare s = (evseIds s.conns).foldl
      (fun s e => if !active s e then blockEvse s e else setSched s e (some (firmwareSched e))) s := by
    unfold firmwarePrepare
    rw [if_neg (by simp [hany])]
  obtain ⟨k1, _, k3⟩ := key (evseIds s.conns) s rfl rfl
  rw [← hprep] at k1 k3
  refine ⟨⟨hsok, by rw [hl', List.length_append]; omega, ?_, ?_⟩, ?_⟩
  · intro e he
    rw [p1] at he
    rw [p5]
    exact k1 e he
  · obtain ⟨e, h1, h2, h3⟩ := hb
    refine Or.inl ⟨e, by rw [p1]; exact (mem_evseIds _ _).mpr ⟨h1, h2⟩, by rw [p5]; exact h3, ?_⟩
    exact k3 e h3 (Or.inr ((mem_evseIds _ _).mpr ⟨h1, h2⟩))
  · intro e he sc hsc
    rw [p1] at he
    rcases p9 e with hh | ⟨_, _, hh⟩
    · have hact : (s.tx e).isSome = true := hpa e he (by rw [← hh, hsc]; rfl)
      have := k3 e hact (Or.inr he)
      rw [this] at hsc
      exact (Option.some.inj hsc).symm
    · rw [hh] at hsc
      exact (Option.some.inj hsc).symm

end Verif.Avail
