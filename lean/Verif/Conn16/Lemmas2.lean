import Verif.Conn16.Lemmas

set_option linter.constructorNameAsVariable false

/-! # Status reports, availability requests, firmware updates: invariants -/

namespace Verif.Conn16

/-! ## Status reports -/

/-- A report waiting to be sent has the current status. -/
def Truth (s : State) : Prop := ∀ c note, s.timer c = some note → note.status = visible (s.fsm c)

/-- A report is waiting to be sent, or the last one sent has the current status. -/
def UpTo (s : State) : Prop := ∀ c, c ≤ s.n → (s.timer c).isSome = true ∨
  (sent s.out c).getLast?.map (·.status) = some (visible (s.fsm c))

theorem truth_submit (c : Nat) (o : FOp) (s : State) (h : Truth s) : Truth (submit c o s) := by
  intro c' note hn
  by_cases hc : c' = c
  · subst hc
    by_cases hle : c' ≤ s.n
    · rw [submit_timer_self o s hle] at hn
      rw [submit_fsm_self o s hle]
      split at hn
      · rename_i h2
        rw [silent_visible _ _ h2]; exact h _ _ hn
      · rename_i n' h2
        simp only [Option.some.injEq] at hn; subst hn
        exact note_visible _ _ _ h2
    · rw [submit_absent o s hle] at hn ⊢; exact h _ _ hn
  · obtain ⟨h1, h2⟩ := submit_fsm_ne o s hc
    rw [h2] at hn; rw [h1]; exact h _ _ hn

theorem closed_truth : Closed (fun _ _ => True) Truth :=
  { up := trivial, down := trivial, trig := fun _ => trivial
    submit := fun c o s _ h => truth_submit c o s h
    emit := fun _ _ _ h => h
    fields := fun s s' _ h2 h3 _ h => by
      intro c note hn; rw [h3] at hn; rw [h2]; exact h c note hn }

theorem truth_step (s : State) (o : Op) (h : Truth s) : Truth (step s o) := by
  by_cases h1 : ∃ c, o = .timer c
  · obtain ⟨c, rfl⟩ := h1
    simp only [step]
    split
    · exact h
    · intro c' note hn
      simp only [emit, upd] at hn
      split at hn
      · simp at hn
      · exact h _ _ hn
  by_cases h2 : ∃ c, o = .trigger c
  · obtain ⟨c, rfl⟩ := h2; simp only [step]; split <;> exact h
  by_cases h3 : o = .restart
  · subst h3
    intro c note hn
    rw [show step s .restart = boot s from rfl, (boot_fields s).2.2.2.2.2.2.1] at hn
    simp at hn
  exact closed_truth.step o s h (fun _ _ => trivial) (fun c e => h1 ⟨c, e⟩) (fun c e => h2 ⟨c, e⟩) h3

theorem truth_run (ops : List Op) : ∀ s, Truth s → Truth (run s ops) := by
  induction ops with
  | nil => intro s h; exact h
  | cons o ops ih => intro s h; exact ih _ (truth_step s o h)

theorem truth_clean (n : Nat) : Truth (clean n) := by
  intro c note h; simp [clean] at h

theorem sent_other (out : List Out) (o : Out) (c : Nat) (h : ∀ n, o ≠ .status c n) :
    sent (out ++ [o]) c = sent out c := by
  rw [sent_append]
  cases o with
  | status x n =>
    have : ¬ x = c := fun e => h n (by rw [e])
    simp [sent, this]
  | _ => simp [sent]

theorem closed_upTo : Closed (fun _ _ => True) UpTo :=
  { up := trivial, down := trivial, trig := fun _ => trivial
    submit := fun c o s _ h => by
      obtain ⟨g1, _, _, _, _, _, g7⟩ := submit_fields c o s
      intro c' hc'
      rw [g1] at hc'
      rw [g7]
      by_cases hc : c' = c
      · subst hc
        rw [submit_timer_self o s hc', submit_fsm_self o s hc']
        cases h2 : (fstep (s.fsm c') o).2 with
        | none => rw [silent_visible _ _ h2]; exact h c' hc'
        | some n' => left; rfl
      · obtain ⟨h1, h2⟩ := submit_fsm_ne o s hc
        rw [h1, h2]; exact h c' hc'
    emit := fun o s ho h => by
      intro c hc
      rcases h c hc with h1 | h1
      · exact Or.inl h1
      · right
        show ((sent (s.out ++ [o]) c).getLast?.map _) = _
        rw [sent_other _ _ _ (ho c)]; exact h1
    fields := fun s s' h1 h2 h3 h4 h => by
      intro c hc; rw [h1] at hc; rw [h2, h3, h4]; exact h c hc }

theorem upTo_step (s : State) (o : Op) (ht : Truth s) (h : UpTo s) (hr : o ≠ .restart) :
    UpTo (step s o) := by
  by_cases h1 : ∃ c, o = .timer c
  · obtain ⟨c, rfl⟩ := h1
    simp only [step]
    split
    · exact h
    · rename_i note hn
      intro c' hc'
      by_cases hc : c' = c
      · subst hc
        right
        show ((sent (s.out ++ [.status c' note]) c').getLast?.map _) = _
        rw [sent_append]
        have : sent [Out.status c' note] c' = [note] := by simp [sent]
        rw [this]
        simp only [List.getLast?_append, List.getLast?_singleton, Option.some_or, Option.map_some,
          Option.some.injEq]
        exact ht c' note hn
      · rcases h c' hc' with h2 | h2
        · left; simpa [emit, upd, hc] using h2
        · right
          show ((sent (s.out ++ [.status c note]) c').getLast?.map _) = _
          rw [sent_other _ _ _ (by intro n e; simp at e; exact hc e.1.symm)]; exact h2
  by_cases h2 : ∃ c, o = .trigger c
  · obtain ⟨c, rfl⟩ := h2
    simp only [step]
    split
    · intro c' hc'
      by_cases hc : c' = c
      · subst hc
        right
        show ((sent (s.out ++ [.status c' ⟨visible (s.fsm c'), latestCode (s.fsm c')⟩]) c').getLast?.map _) = _
        rw [sent_append]
        have : sent [Out.status c' ⟨visible (s.fsm c'), latestCode (s.fsm c')⟩] c'
            = [⟨visible (s.fsm c'), latestCode (s.fsm c')⟩] := by simp [sent]
        rw [this]
        simp only [List.getLast?_append, List.getLast?_singleton, Option.some_or, Option.map_some,
          Option.some.injEq]
        rfl
      · rcases h c' hc' with h2 | h2
        · left; exact h2
        · right
          show ((sent (s.out ++ [.status c _]) c').getLast?.map _) = _
          rw [sent_other _ _ _ (by intro n e; simp at e; exact hc e.1.symm)]; exact h2
    · exact h
  exact closed_upTo.step o s h (fun _ _ => trivial) (fun c e => h1 ⟨c, e⟩) (fun c e => h2 ⟨c, e⟩) hr

theorem upTo_run (ops : List Op) : ∀ s, Truth s → UpTo s → .restart ∉ ops → UpTo (run s ops) := by
  induction ops with
  | nil => intro s _ h _; exact h
  | cons o ops ih =>
    intro s ht h hr
    simp only [List.mem_cons, not_or] at hr
    exact ih _ (truth_step s o ht) (upTo_step s o ht h (fun e => hr.1 e.symm)) hr.2

theorem triggerAll_timer (s : State) (c : Nat) (h : c ≤ s.n) : ((triggerAll s).timer c).isSome = true := by
  have key : ∀ (l : List Nat) (s : State), c ≤ s.n → (c ∈ l ∨ (s.timer c).isSome = true) →
      ((l.foldl (fun s c => submit c .trigger s) s).timer c).isSome = true := by
    intro l
    induction l with
    | nil => intro s _ h; simpa using h
    | cons a l ih =>
      intro s hn h
      simp only [List.foldl_cons]
      apply ih
      · rw [(submit_fields a .trigger s).1]; exact hn
      · by_cases ha : c = a
        · right
          subst ha
          rw [submit_timer_self _ _ hn]; rfl
        · rcases h with h | h
          · left
            rcases List.mem_cons.1 h with h | h
            · exact absurd h ha
            · exact h
          · right
            rw [(submit_fsm_ne .trigger s ha).2]; exact h
  exact key _ s h (Or.inl (by simp; omega))

/-! ## The state machine of a connector during one operation -/

theorem fold_trigger_fsm : ∀ (l : List Nat) (s : State),
    (l.foldl (fun s c => submit c .trigger s) s).fsm = s.fsm := by
  intro l
  induction l with
  | nil => intro s; rfl
  | cons a l ih => intro s; simp only [List.foldl_cons]; rw [ih, trigger_fsm]

theorem change_fields (ci : Int) (op : Bool) (s : State) :
    (change ci op s).tx = s.tx ∧ (change ci op s).waiting = s.waiting ∧
    (change ci op s).fwPending = s.fwPending ∧ ∀ c, 1 ≤ c → (change ci op s).fsm c = s.fsm c := by
  unfold change
  split
  · simp only
    generalize ((if ci.toNat = 0 then [0] else []) ++
      List.filter (fun x => !mustWait s x) (named s.n ci.toNat)) = cs
    generalize (if (List.filter (mustWait s) (named s.n ci.toNat)).isEmpty = true then Answer.accepted
      else Answer.scheduled) = a
    generalize hs1 : emit (storeQueue _) (Out.answer a) = s1
    obtain ⟨_, h2, h3, _, h5, h6⟩ := execute_fields cs op true s1
    subst hs1
    exact ⟨h2, h3, h5, h6⟩
  · exact ⟨rfl, rfl, rfl, fun _ _ => rfl⟩

theorem fold_enable_fields : ∀ (l : List Nat) (s : State),
    let r := l.foldl (fun s c => emit (if c = 0 then submit 0 (.event .becomeAvailable) s else s) (.enable c)) s
    r.n = s.n ∧ r.tx = s.tx ∧ r.waiting = s.waiting ∧ r.queue = s.queue ∧ r.fwPending = s.fwPending ∧
    (∀ c, 1 ≤ c → r.fsm c = s.fsm c) ∧ r.db = s.db ∧ r.out = s.out ++ l.map .enable := by
  intro l
  induction l with
  | nil => intro s; simp
  | cons a l ih =>
    intro s
    simp only [List.foldl_cons]
    obtain ⟨h1, h2, h3, h4, h5, h6, h7, h8⟩ :=
      ih (emit (if a = 0 then submit 0 (.event .becomeAvailable) s else s) (.enable a))
    have g : ∀ s' : State, s' = (if a = 0 then submit 0 (.event .becomeAvailable) s else s) →
        s'.n = s.n ∧ s'.tx = s.tx ∧ s'.waiting = s.waiting ∧ s'.queue = s.queue ∧
        s'.fwPending = s.fwPending ∧ (∀ c, 1 ≤ c → s'.fsm c = s.fsm c) ∧ s'.db = s.db ∧ s'.out = s.out := by
      intro s' hs'
      subst hs'
      split
      · obtain ⟨i1, i2, i3, i4, i5, i6⟩ := submit_zero_fields (.event .becomeAvailable) s
        obtain ⟨_, _, _, _, j5, _, j7⟩ := submit_fields 0 (.event .becomeAvailable) s
        exact ⟨i1, i2, i3, i4, i5, i6, j5, j7⟩
      · simp
    obtain ⟨g1, g2, g3, g4, g5, g6, g7, g8⟩ := g _ rfl
    refine ⟨h1.trans g1, h2.trans g2, h3.trans g3, h4.trans g4, h5.trans g5,
      fun c hc => (h6 c hc).trans (g6 c hc), h7.trans g7, h8.trans ?_⟩
    simp only [emit, g8, List.map_cons, List.append_assoc, List.singleton_append]

theorem firmware_fields (st : Firmware) (s : State) :
    (firmware st s).tx = s.tx ∧ (firmware st s).waiting = s.waiting ∧
    (∀ c, 1 ≤ c → (firmware st s).fsm c = s.fsm c) ∧ (firmware st s).db = s.db := by
  have hp : ∀ s1 : State, let s2 := (if s1.fwPending then firmwarePrepare s1 else s1)
      s2.tx = s1.tx ∧ s2.waiting = s1.waiting ∧ (∀ c, 1 ≤ c → s2.fsm c = s1.fsm c) ∧ s2.db = s1.db := by
    intro s1
    simp only
    split
    · obtain ⟨h1, h2, h3, h4, h5, h6, h7, h8⟩ := firmwarePrepare_fields s1
      exact ⟨h2, h3, fun c _ => by rw [h5], h7⟩
    · simp
  have hr : ∀ s2 : State, let r := (((List.range (s2.n + 1)).filter s2.db).foldl
      (fun s c => emit (if c = 0 then submit 0 (.event .becomeAvailable) s else s) (.enable c)) s2)
      r.tx = s2.tx ∧ r.waiting = s2.waiting ∧ (∀ c, 1 ≤ c → r.fsm c = s2.fsm c) ∧ r.db = s2.db := by
    intro s2
    obtain ⟨h1, h2, h3, h4, h5, h6, h7, h8⟩ := fold_enable_fields ((List.range (s2.n + 1)).filter s2.db) s2
    exact ⟨h2, h3, h6, h7⟩
  have tr : ∀ {a b c : State}, (a.tx = b.tx ∧ a.waiting = b.waiting ∧ (∀ x, 1 ≤ x → a.fsm x = b.fsm x) ∧ a.db = b.db) →
      (b.tx = c.tx ∧ b.waiting = c.waiting ∧ (∀ x, 1 ≤ x → b.fsm x = c.fsm x) ∧ b.db = c.db) →
      (a.tx = c.tx ∧ a.waiting = c.waiting ∧ (∀ x, 1 ≤ x → a.fsm x = c.fsm x) ∧ a.db = c.db) :=
    fun ⟨a1, a2, a3, a4⟩ ⟨b1, b2, b3, b4⟩ => ⟨a1.trans b1, a2.trans b2,
      fun x hx => (a3 x hx).trans (b3 x hx), a4.trans b4⟩
  cases st with
  | ready => exact hp { s with fwPending := true }
  | failed => exact hp { s with fwPending := false }
  | installFailed => exact tr (hr _) (hp { s with fwPending := false })
  | installed => exact tr (hr _) (hp s)
  | other => exact hp s

theorem remote_fields (r : Remote) (s : State) :
    (remoteStart r s).tx = s.tx ∧ (remoteStart r s).waiting = s.waiting ∧
    (remoteStart r s).queue = s.queue ∧ (remoteStart r s).db = s.db ∧
    (remoteStart r s).fwPending = s.fwPending ∧ (remoteStart r s).fsm = s.fsm ∧
    (∀ c, calls (remoteStart r s).out c = calls s.out c) ∧
    (.allUnavailable ∈ (remoteStart r s).out → .allUnavailable ∈ s.out) := by
  have hp : ∀ cs, (remoteProfile cs r s).tx = s.tx ∧ (remoteProfile cs r s).waiting = s.waiting ∧
    (remoteProfile cs r s).queue = s.queue ∧ (remoteProfile cs r s).db = s.db ∧
    (remoteProfile cs r s).fwPending = s.fwPending ∧ (remoteProfile cs r s).fsm = s.fsm ∧
    (∀ c, calls (remoteProfile cs r s).out c = calls s.out c) ∧
    (.allUnavailable ∈ (remoteProfile cs r s).out → .allUnavailable ∈ s.out) := by
    intro cs
    unfold remoteProfile remoteAccept
    split
    · simp [emit, calls]
    · split
      · simp [emit, calls]
      · split <;> simp [emit, calls]
  unfold remoteStart
  split
  · split
    · simp [emit, calls]
    · split
      · simp [emit, calls]
      · exact hp _
  · split
    · simp [emit, calls]
    · exact hp _

/-- one operation other than a restart gives a connector at most one input -/
theorem step_fsm (s : State) (o : Op) (c : Nat) (hc : 1 ≤ c) (hr : o ≠ .restart) :
    (step s o).fsm c = s.fsm c ∨ ∃ fo, (step s o).fsm c = (fstep (s.fsm c) fo).1 := by
  have sub : ∀ (c' : Nat) (fo : FOp) (s1 : State), s1.fsm c = s.fsm c →
      (submit c' fo s1).fsm c = s.fsm c ∨ ∃ f', (submit c' fo s1).fsm c = (fstep (s.fsm c) f').1 := by
    intro c' fo s1 h
    rcases submit_fsm c' c fo s1 with h1 | h1
    · exact Or.inl (h1.trans h)
    · right; exact ⟨fo, by rw [h1, h]⟩
  cases o with
  | restart => exact absurd rfl hr
  | timer x => left; simp only [step]; split <;> rfl
  | trigger x => left; simp only [step]; split <;> rfl
  | sessionStarted x a =>
    simp only [step]
    split
    · exact sub _ _ _ rfl
    · exact Or.inl rfl
  | sessionStopped x =>
    have h1 := (executeQueued_fields x s).2.2.2.2.1 c hc
    simp only [step]
    split
    · exact sub _ _ _ h1
    · exact Or.inl h1
  | txStarted x =>
    simp only [step]
    split
    · unfold useReserved
      split
      · exact sub _ _ _ rfl
      · exact Or.inl rfl
    · exact Or.inl rfl
  | txStopped x b =>
    simp only [step]
    split
    · unfold finish
      split
      · exact Or.inl rfl
      · exact sub _ _ _ rfl
    · exact Or.inl rfl
  | stopConf x =>
    left
    simp only [step]
    have h1 : (confirmed x s).fsm c = s.fsm c := by
      unfold confirmed
      split
      · exact (executeQueued_fields x { s with waiting := s.waiting.erase x }).2.2.2.2.1 c hc
      · rfl
    split
    · rw [(firmwarePrepare_fields _).2.2.2.2.1]; exact h1
    · exact h1
  | suspendEV x => exact sub _ _ _ rfl
  | suspendEVSE x => exact sub _ _ _ rfl
  | resume x => exact sub _ _ _ rfl
  | error x e => exact sub _ _ _ rfl
  | clear x u => exact sub _ _ _ rfl
  | clearAll x => exact sub _ _ _ rfl
  | reservationStart x => exact sub _ _ _ rfl
  | reservationEnd x => exact sub _ _ _ rfl
  | enabled x => exact sub _ _ _ rfl
  | disabled x => exact sub _ _ _ rfl
  | plugTimeout x => exact sub _ _ _ rfl
  | change ci op => exact Or.inl ((change_fields ci op s).2.2.2 c hc)
  | remote r => exact Or.inl (by rw [show step s (.remote r) = remoteStart r s from rfl,
      (remote_fields r s).2.2.2.2.2.1])
  | firmware st => exact Or.inl ((firmware_fields st s).2.2.1 c hc)
  | reportAll => exact Or.inl (by rw [show step s .reportAll = triggerAll s from rfl]; unfold triggerAll; rw [fold_trigger_fsm])

/-! ## Connector 0 -/

/-- The inputs an application gives connector 0. -/
def ZeroInput (c : Nat) (o : FOp) : Prop :=
  c ≠ 0 ∨ ∀ e, o = .event e → e = .becomeAvailable ∨ e = .changeToUnavailable

theorem closed_zero : Closed ZeroInput
    (fun s => (s.fsm 0).state = .available ∨ (s.fsm 0).state = .unavailable) :=
  { up := Or.inr (by simp), down := Or.inr (by simp), trig := fun _ => Or.inr (by simp)
    submit := fun c o s hq h => by
      rcases submit_fsm c 0 o s with h1 | h1
      · rw [h1]; exact h
      · by_cases hc : c = 0
        · subst hc
          rw [h1]
          rcases hq with hq | hq
          · exact absurd rfl hq
          cases o with
          | event e =>
            rcases hq e rfl with rfl | rfl <;> rcases h with h | h <;> simp [fstep, h, next]
          | error e => simp only [fstep]; split <;> exact h
          | clear u => simp only [fstep]; split <;> exact h
          | clearAll => exact h
          | trigger => exact h
        · rw [(submit_fsm_ne o s (fun e => hc e.symm)).1]; exact h
    emit := fun _ _ _ h => h
    fields := fun s s' _ h2 _ _ h => by rw [h2]; exact h }

end Verif.Conn16
