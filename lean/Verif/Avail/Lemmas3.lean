import Verif.Avail.Lemmas2

/- Helper lemmas about availability: pending requests, status notifications, firmware updates. -/
set_option linter.constructorNameAsVariable false

namespace Verif.Avail

/-! ## Execution of pending requests -/

theorem runScheduled_none {s : State} {k : Nat} (hk : s.sched k = none) : runScheduled k s = s := by
  unfold runScheduled; rw [hk]

theorem runScheduled_busy {s : State} {k : Nat} {sc : Sched} {t : Target} (hk : s.sched k = some sc)
    (ht : target s.conns sc.req = some (some t)) (hb : Busy s t) : runScheduled k s = s := by
  unfold runScheduled
  rw [hk]
  dsimp only
  rw [ht]
  dsimp only
  rw [if_pos ((anyActive_iff s t).mpr hb)]

theorem runScheduled_idle {s : State} {k : Nat} {sc : Sched} {t : Target} (hk : s.sched k = some sc)
    (ht : target s.conns sc.req = some (some t)) (hb : ¬ Busy s t) :
    runScheduled k s = notifyAll (setSched (execute t sc.req.op sc.persist s) k none) := by
  unfold runScheduled
  rw [hk]
  dsimp only
  rw [ht]
  dsimp only
  rw [if_neg (fun h => hb ((anyActive_iff s t).mp h))]

theorem individual_congr {s s' : State} (h2 : s'.cs = s.cs) (h3 : s'.evse = s.evse) (h4 : s'.conn = s.conn)
    (t : Target) : individual s' t = individual s t := by
  cases t <;> simp only [individual, h2, h3, h4]

/-- What the execution of the request with key `k` may change. -/
theorem runScheduled_frame {s : State} (hs : SOk s) (k : Nat) :
    (runScheduled k s).conns = s.conns ∧ (runScheduled k s).tx = s.tx ∧
    (∀ k', k' ≠ k → (runScheduled k s).sched k' = s.sched k') ∧
    (∀ t, keyOf t ≠ k → individual (runScheduled k s) t = individual s t) := by
  cases hk : s.sched k with
  | none => rw [runScheduled_none hk]; exact ⟨rfl, rfl, fun _ _ => rfl, fun _ _ => rfl⟩
  | some sc =>
    obtain ⟨t, ht, hkt, _⟩ := hs k sc hk
    by_cases hb : Busy s t
    · rw [runScheduled_busy hk ht hb]; exact ⟨rfl, rfl, fun _ _ => rfl, fun _ _ => rfl⟩
    · rw [runScheduled_idle hk ht hb]
      obtain ⟨n1, n2, n3, n4, _, _, _, _, n9, n10⟩ := notifyAll_fields (setSched (execute t sc.req.op sc.persist s) k none)
      obtain ⟨e1, _, _, _, e5, e6, _⟩ := execute_fields t sc.req.op sc.persist s
      refine ⟨by rw [n1]; exact e1, by rw [n9]; exact e5, ?_, ?_⟩
      · intro k' hk'
        rw [n10]
        simp only [setSched]
        rw [if_neg hk', e6]
      · intro t' ht'
        rw [individual_congr n2 n3 n4]
        show individual (execute t sc.req.op sc.persist s) t' = _
        rw [execute_individual, if_neg]
        rintro rfl
        exact ht' hkt

/-- What a request leaves alone. -/
theorem change_frame (s : State) (r : Req) :
    (change r s).conns = s.conns ∧ (change r s).tx = s.tx ∧
    (∀ k, (∀ t, Exists s.conns t → r.evse = naming t → keyOf t ≠ k) → (change r s).sched k = s.sched k) ∧
    (r.evse ≠ none → (change r s).cs = s.cs) := by
  have hbi : ∀ t x, (blockIdle t x).cs = x.cs := by
    intro t x
    unfold blockIdle
    split
    · refine foldl_keep (fun y => y.cs = x.cs) _ _ ?_ x rfl
      intro y e _ hy
      split
      · exact hy
      · rw [(setEvse_fields e false false y).2.1]; exact hy
    · refine foldl_keep (fun y => y.cs = x.cs) _ _ ?_ x rfl
      intro y c _ hy
      split
      · exact hy
      · rw [(setConn_fields _ c false false y).2.1]; exact hy
  unfold change
  split
  · exact ⟨rfl, rfl, fun _ _ => rfl, fun _ => rfl⟩
  · exact ⟨rfl, rfl, fun _ _ => rfl, fun _ => rfl⟩
  · rename_i t ht
    obtain ⟨hname, hex⟩ := target_naming ht
    split
    · dsimp only
      split
      · refine ⟨rfl, rfl, ?_, fun _ => rfl⟩
        intro k hk
        simp only [emit, setSched]
        rw [if_neg (fun h => hk t hex hname h.symm)]
      · obtain ⟨e1, _, _, _, e5, e6, _⟩ := execute_fields t r.op true (emit (setSched s (keyOf t) none) (.answer .accepted))
        refine ⟨e1, e5, ?_, ?_⟩
        · intro k hk
          rw [e6]
          simp only [emit, setSched]
          rw [if_neg (fun h => hk t hex hname h.symm)]
        · intro hne
          have := execute_individual t r.op true (emit (setSched s (keyOf t) none) (.answer .accepted)) .station
          rw [if_neg (by rintro rfl; exact hne hname)] at this
          exact this
    · have hT := Temp.blockIdle t (emit (setSched s (keyOf t) (some { req := r, persist := true })) (.answer .scheduled))
      refine ⟨hT.conns, hT.tx, ?_, fun _ => hbi _ _⟩
      intro k hk
      rw [hT.sched]
      simp only [emit, setSched]
      rw [if_neg (fun h => hk t hex hname h.symm)]

/-- Operations during which the number of connectors cannot change keep it. -/
theorem step_conns {s : State} (hs : SOk s) (o : Op) (hb : isBoot o = false) : (step s o).conns = s.conns := by
  cases o with
  | change r => exact (change_frame s r).1
  | txStart e c => simp only [step]; split <;> rfl
  | txEnd e =>
    simp only [step]
    split
    · rfl
    · split
      · have h0 : SOk { s with tx := fun i => if i = e then none else s.tx i } := hs
        rw [(runScheduled_frame (h0.runScheduled e) 0).1, (runScheduled_frame h0 e).1]
      · rfl
  | event e c ev => exact (quiet_step s _ (by simp)).1
  | firmwarePrepare => exact (firmwarePrepare_fields s).1
  | firmwareRestore => exact (Temp.firmwareRestore s).conns
  | block e =>
    simp only [step]
    split
    · exact (Temp.blockEvse s e).conns
    · rfl
  | offline => rfl
  | accepted => exact (quiet_step s _ (by simp)).1
  | reconnect b => exact (quiet_step s _ (by simp)).1
  | triggerStatus e c => exact (quiet_step s _ (by simp)).1
  | start => exact (quiet_step s _ (by simp)).1
  | boot conns r => exact absurd hb (by simp [isBoot])

/-- A pending request of EVSE `k` stays pending, and the transaction runs, as long as that transaction
does not end, the EVSE is not named in a request, and no firmware update is prepared. -/
theorem pending_step {s : State} (hs : SOk s) {k : Nat} (hk0 : k ∈ evseIds s.conns) {sc : Sched}
    (hk : s.sched k = some sc)
    (hact : (s.tx k).isSome = true) (o : Op) (hb : isBoot o = false) (hfw : o ≠ .firmwarePrepare)
    (hr : ∀ r, o = .change r → ∀ t, Exists s.conns t → r.evse = naming t → keyOf t ≠ k) (he : o ≠ .txEnd k) :
    (step s o).sched k = some sc ∧ ((step s o).tx k).isSome = true := by
  cases o with
  | change r =>
    obtain ⟨_, h2, h3, _⟩ := change_frame s r
    exact ⟨(h3 k (hr r rfl)).trans hk, (congrArg (fun f => (f k).isSome) h2).trans hact⟩
  | txStart e c =>
    simp only [step]
    split
    · refine ⟨hk, ?_⟩
      dsimp only
      split
      · rfl
      · exact hact
    · exact ⟨hk, hact⟩
  | txEnd e =>
    have hne : k ≠ e := fun h => he (by rw [h])
    simp only [step]
    split
    · exact ⟨hk, hact⟩
    · split
      · have h0 : SOk { s with tx := fun i => if i = e then none else s.tx i } := hs
        obtain ⟨_, a2, a3, _⟩ := runScheduled_frame h0 e
        obtain ⟨_, b2, b3, _⟩ := runScheduled_frame (h0.runScheduled e) 0
        have hk1 : k ≠ 0 := by have := (mem_evseIds _ _).mp hk0; omega
        refine ⟨by rw [b3 k hk1, a3 k hne]; exact hk, ?_⟩
        rw [b2, a2]
        dsimp only
        rw [if_neg hne]
        exact hact
      · exact ⟨hk, hact⟩
  | event e c ev =>
    obtain ⟨_, _, _, _, _, h6, h7⟩ := quiet_step s (.event e c ev) (by simp)
    exact ⟨by rw [h7]; exact hk, by rw [h6]; exact hact⟩
  | firmwarePrepare => exact absurd rfl hfw
  | firmwareRestore =>
    have hT := Temp.firmwareRestore s
    exact ⟨(congrFun hT.sched k).trans hk, (congrArg (fun f => (f k).isSome) hT.tx).trans hact⟩
  | block e =>
    simp only [step]
    split
    · have hT := Temp.blockEvse s e
      exact ⟨(congrFun hT.sched k).trans hk, (congrArg (fun f => (f k).isSome) hT.tx).trans hact⟩
    · exact ⟨hk, hact⟩
  | offline => exact ⟨hk, hact⟩
  | accepted =>
    obtain ⟨_, _, _, _, _, h6, h7⟩ := quiet_step s .accepted (by simp)
    exact ⟨by rw [h7]; exact hk, by rw [h6]; exact hact⟩
  | reconnect b =>
    obtain ⟨_, _, _, _, _, h6, h7⟩ := quiet_step s (.reconnect b) (by simp)
    exact ⟨by rw [h7]; exact hk, by rw [h6]; exact hact⟩
  | triggerStatus e c =>
    obtain ⟨_, _, _, _, _, h6, h7⟩ := quiet_step s (.triggerStatus e c) (by simp)
    exact ⟨by rw [h7]; exact hk, by rw [h6]; exact hact⟩
  | start =>
    obtain ⟨_, _, _, _, _, h6, h7⟩ := quiet_step s .start (by simp)
    exact ⟨by rw [h7]; exact hk, by rw [h6]; exact hact⟩
  | boot conns r => exact absurd hb (by simp [isBoot])

/-- The end of the transaction executes the pending request. -/
theorem pending_end {s : State} (hs : SOk s) {k : Nat} (hk0 : k ∈ evseIds s.conns) {r : Req}
    (hk : s.sched k = some { req := r, persist := true }) (hact : (s.tx k).isSome = true) {t : Target}
    (hr : r.evse = naming t) (het : Exists s.conns t) (hkey : keyOf t = k) :
    individual (step s (.txEnd k)) t = r.op ∧ persisted (step s (.txEnd k)) t = r.op ∧
    NoneFor t (step s (.txEnd k)) := by
  have hk1 : k ≠ 0 := by have := (mem_evseIds _ _).mp hk0; omega
  have h0 : SOk { s with tx := fun i => if i = k then none else s.tx i } := hs
  simp only [step]
  rw [if_neg (by simp [hk0]), if_pos (show active s k = true from hact)]
  generalize hs0 : { s with tx := fun i => if i = k then none else s.tx i } = s0 at *
  have hk' : s0.sched k = some { req := r, persist := true } := by rw [← hs0]; exact hk
  have hconns : s0.conns = s.conns := by rw [← hs0]
  have ht : target s0.conns r = some (some t) := target_of_naming hr (by rw [hconns]; exact het)
  have hidle : ¬ Busy s0 t := by
    have htx : s0.tx k = none := by rw [← hs0]; simp
    cases t with
    | station => simp [keyOf, evseOf] at hkey; omega
    | evse e => simp [keyOf, evseOf] at hkey; simp [Busy, hkey, htx]
    | conn e c => simp [keyOf, evseOf] at hkey; simp [Busy, hkey, htx]
  obtain ⟨_, _, _, i4⟩ := runScheduled_frame (h0.runScheduled k) 0
  have hi1 : individual (runScheduled k s0) t = r.op ∧ persisted (runScheduled k s0) t = r.op ∧
      NoneFor t (runScheduled k s0) := by
    have hrun := runScheduled_idle (sc := { req := r, persist := true }) hk' ht hidle
    rw [hrun]
    obtain ⟨_, n2, n3, n4, _, _, n7, _, _, n10⟩ := notifyAll_fields (setSched (execute t r.op true s0) k none)
    refine ⟨?_, ?_, ?_⟩
    · rw [individual_congr n2 n3 n4]
      show individual (execute t r.op true s0) t = r.op
      rw [execute_individual, if_pos rfl]
    · rw [persisted_congr n7]
      unfold persisted
      show ((execute t r.op true s0).db _ _).getD true = r.op
      rw [execute_db]
      simp [upd2]
    · have hso : SOk (execute t r.op true s0) := h0.execute t r.op true
      have hex : Exists (execute t r.op true s0).conns t := by
        rw [(execute_fields t r.op true s0).1, hconns]; exact het
      have hnf := noneFor_erased hso t hex
      rw [hkey] at hnf
      exact hnf.congr n10
  refine ⟨?_, ?_⟩
  · rw [i4 t (by rw [hkey]; exact hk1)]
    exact hi1.1
  · obtain ⟨p1, p2⟩ := runScheduled_keep s.conns het hi1.2.2 0
    exact ⟨by rw [p1]; exact hi1.2.1, p2⟩

/-! ## The station itself -/

/-- A pending request for the station is executed as soon as no transaction runs. -/
theorem station_step {s : State} (hs : SOk s) {r : Req} (hr : r.evse = none)
    (h : (Busy s .station ∧ s.sched 0 = some { req := r, persist := true }) ∨
      (s.cs = r.op ∧ persisted s .station = r.op ∧ s.sched 0 = none)) (o : Op) (hb : isBoot o = false)
    (hno : ¬ Requests .station o) :
    (Busy (step s o) .station ∧ (step s o).sched 0 = some { req := r, persist := true }) ∨
      ((step s o).cs = r.op ∧ persisted (step s o) .station = r.op ∧ (step s o).sched 0 = none) := by
  -- nothing that matters changes
  have same : ∀ s' : State, s'.conns = s.conns → s'.tx = s.tx → s'.sched 0 = s.sched 0 → s'.cs = s.cs →
      persisted s' .station = persisted s .station →
      (Busy s' .station ∧ s'.sched 0 = some { req := r, persist := true }) ∨
      (s'.cs = r.op ∧ persisted s' .station = r.op ∧ s'.sched 0 = none) := by
    intro s' e1 e2 e3 e4 e5
    rw [e3, e4, e5]
    rcases h with ⟨a, b⟩ | c
    · refine Or.inl ⟨?_, b⟩
      simp only [Busy, e1, e2]
      exact a
    · exact Or.inr c
  cases o with
  | change r' =>
    have hne : r'.evse ≠ none := hno
    obtain ⟨c1, c2, c3, c4⟩ := change_frame s r'
    refine same _ c1 c2 (c3 0 ?_) (c4 hne) ?_
    · intro t ht hname h0
      have := (keyOf_zero ht).mp h0
      subst this
      exact hne hname
    · -- what is persisted for the station
      simp only [step]
      unfold change
      split
      · rfl
      · rfl
      · rename_i t ht
        obtain ⟨hname, hex⟩ := target_naming ht
        split
        · dsimp only
          split
          · rfl
          · refine persisted_execute (s := emit (setSched s (keyOf t) none) (.answer .accepted)) s.conns
              (t := .station) trivial hex _ _ ?_
            rintro _ rfl
            exact hne hname
        · exact persisted_congr (Temp.blockIdle t _).db _
  | txStart e c =>
    simp only [step]
    split
    · rename_i hex
      rcases h with ⟨a, b⟩ | c
      · refine Or.inl ⟨?_, b⟩
        obtain ⟨e', h1, h2, h3⟩ := a
        refine ⟨e', h1, h2, ?_⟩
        dsimp only
        split
        · rfl
        · exact h3
      · exact Or.inr c
    · exact h
  | txEnd e =>
    simp only [step]
    split
    · exact h
    · rename_i he
      have he' : e ∈ evseIds s.conns := by simpa using he
      have he1 : e ≠ 0 := by have := (mem_evseIds _ _).mp he'; omega
      split
      · have h0 : SOk { s with tx := fun i => if i = e then none else s.tx i } := hs
        obtain ⟨a1, a2, a3, a4⟩ := runScheduled_frame h0 e
        have hcs : (runScheduled e { s with tx := fun i => if i = e then none else s.tx i }).cs = s.cs :=
          a4 .station (by simpa [keyOf, evseOf] using fun h => he1 h.symm)
        have hsched : (runScheduled e { s with tx := fun i => if i = e then none else s.tx i }).sched 0 = s.sched 0 :=
          a3 0 (fun h => he1 h.symm)
        have hso := h0.runScheduled e
        have hper : persisted (runScheduled e { s with tx := fun i => if i = e then none else s.tx i }) .station =
            persisted s .station := by
          cases hk : s.sched e with
          | none => rw [runScheduled_none (s := { s with tx := fun i => if i = e then none else s.tx i }) hk]; rfl
          | some sc =>
            obtain ⟨t, ht, hkt, _⟩ := h0 e sc hk
            by_cases hbz : Busy { s with tx := fun i => if i = e then none else s.tx i } t
            · rw [runScheduled_busy (s := { s with tx := fun i => if i = e then none else s.tx i }) hk ht hbz]; rfl
            · rw [runScheduled_idle (s := { s with tx := fun i => if i = e then none else s.tx i }) hk ht hbz]
              rw [persisted_congr (notifyAll_fields _).2.2.2.2.2.2.1]
              refine persisted_execute (s := { s with tx := fun i => if i = e then none else s.tx i }) s.conns
                (t := .station) trivial (target_naming ht).2 _ _ ?_
              rintro _ rfl
              simp [keyOf, evseOf] at hkt
              exact he1 hkt.symm
        generalize runScheduled e { s with tx := fun i => if i = e then none else s.tx i } = s1 at *
        rcases h with ⟨a, b⟩ | ⟨c1, c2, c3⟩
        · have hk1 : s1.sched 0 = some { req := r, persist := true } := by rw [hsched]; exact b
          have ht : target s1.conns r = some (some .station) := target_of_naming hr trivial
          by_cases hbz : Busy s1 .station
          · rw [runScheduled_busy hk1 ht hbz]
            exact Or.inl ⟨hbz, hk1⟩
          · rw [runScheduled_idle hk1 ht hbz]
            obtain ⟨_, n2, _, _, _, _, n7, _, _, n10⟩ := notifyAll_fields (setSched (execute .station r.op true s1) 0 none)
            refine Or.inr ⟨?_, ?_, ?_⟩
            · rw [n2]; exact (setCs_fields r.op true s1).2.1
            · rw [persisted_congr n7]
              unfold persisted
              show ((execute .station r.op true s1).db _ _).getD true = r.op
              rw [execute_db]
              simp [upd2]
            · rw [n10]; simp [setSched]
        · have hk1 : s1.sched 0 = none := by rw [hsched]; exact c3
          rw [runScheduled_none hk1]
          exact Or.inr ⟨by rw [hcs]; exact c1, by rw [hper]; exact c2, hk1⟩
      · exact h
  | event e c ev =>
    obtain ⟨h1, h2, _, _, h5, h6, h7⟩ := quiet_step s (.event e c ev) (by simp)
    exact same _ h1 h6 (by rw [h7]) h2 (persisted_congr h5 _)
  | firmwarePrepare =>
    obtain ⟨h1, h2, _, h4, h5, _, _, _, h9⟩ := firmwarePrepare_fields s
    refine same _ h1 h5 ?_ h2 (persisted_congr h4 _)
    rcases h9 0 with hh | ⟨hh, _⟩
    · exact hh
    · have := (mem_evseIds _ _).mp hh; omega
  | firmwareRestore =>
    have hT := Temp.firmwareRestore s
    refine same _ hT.conns hT.tx (congrFun hT.sched 0) ?_ (persisted_congr hT.db _)
    refine foldl_keep (fun x => x.cs = s.cs) _ _ ?_ s rfl
    intro x p _ hx
    unfold restoreConn
    split
    · rw [(setConn_fields _ _ _ _ x).2.1]; exact hx
    · exact hx
  | block e =>
    simp only [step]
    split
    · have hT := Temp.blockEvse s e
      refine same _ hT.conns hT.tx (congrFun hT.sched 0) ?_ (persisted_congr hT.db _)
      refine foldl_keep (fun x => x.cs = s.cs) _ _ ?_ s rfl
      intro x c _ hx
      rw [(setConn_fields _ _ _ _ x).2.1]; exact hx
    · exact h
  | offline => exact h
  | accepted =>
    obtain ⟨h1, h2, _, _, h5, h6, h7⟩ := quiet_step s .accepted (by simp)
    exact same _ h1 h6 (by rw [h7]) h2 (persisted_congr h5 _)
  | reconnect b =>
    obtain ⟨h1, h2, _, _, h5, h6, h7⟩ := quiet_step s (.reconnect b) (by simp)
    exact same _ h1 h6 (by rw [h7]) h2 (persisted_congr h5 _)
  | triggerStatus e c =>
    obtain ⟨h1, h2, _, _, h5, h6, h7⟩ := quiet_step s (.triggerStatus e c) (by simp)
    exact same _ h1 h6 (by rw [h7]) h2 (persisted_congr h5 _)
  | start =>
    obtain ⟨h1, h2, _, _, h5, h6, h7⟩ := quiet_step s .start (by simp)
    exact same _ h1 h6 (by rw [h7]) h2 (persisted_congr h5 _)
  | boot conns r => exact absurd hb (by simp [isBoot])

/-! ## Status notifications -/

def isNote : Out → Bool
  | .status _ _ _ => true
  | _ => false

/-- Nothing about reported statuses changes and nothing is reported. -/
structure Silent (s s' : State) : Prop where
  conns : s'.conns = s.conns
  flags : s'.flags = s.flags
  lastReported : s'.lastReported = s.lastReported
  online : s'.online = s.online
  out : ∃ l, s'.out = s.out ++ l ∧ ∀ o ∈ l, isNote o = false

theorem Silent.refl (s : State) : Silent s s := ⟨rfl, rfl, rfl, rfl, [], by simp, by simp⟩

theorem Silent.trans {s1 s2 s3 : State} (h : Silent s1 s2) (h' : Silent s2 s3) : Silent s1 s3 := by
  obtain ⟨l, h1, h2⟩ := h.out
  obtain ⟨l', h1', h2'⟩ := h'.out
  refine ⟨by rw [h'.conns, h.conns], by rw [h'.flags, h.flags], by rw [h'.lastReported, h.lastReported],
    by rw [h'.online, h.online], l ++ l', by rw [h1', h1, List.append_assoc], ?_⟩
  intro o ho
  rcases List.mem_append.mp ho with ho | ho
  · exact h2 o ho
  · exact h2' o ho

theorem note_of_call {o : Out} (h : isCall o = true) : isNote o = false := by
  cases o <;> first | rfl | cases h

theorem Silent.temp {s s' : State} (h : Temp s s') : Silent s s' := by
  obtain ⟨l, h1, h2⟩ := h.out
  exact ⟨h.conns, h.flags, h.lastReported, h.online, l, h1, fun o ho => note_of_call (h2 o ho)⟩

theorem Silent.execute (t : Target) (op p : Bool) (s : State) : Silent s (execute t op p s) := by
  obtain ⟨e1, e2, e3, e4, _, _, l, h1, h2⟩ := execute_fields t op p s
  exact ⟨e1, e2, e3, e4, l, h1, fun o ho => note_of_call (h2 o ho)⟩

theorem Silent.emit (s : State) (o : Out) (h : isNote o = false) : Silent s (emit s o) :=
  ⟨rfl, rfl, rfl, rfl, [o], rfl, by simpa using h⟩

theorem Silent.setSched (s : State) (k : Nat) (v : Option Sched) : Silent s (setSched s k v) :=
  ⟨rfl, rfl, rfl, rfl, [], by simp [Avail.setSched], by simp⟩

theorem Silent.notifyAll (s : State) : Silent s (notifyAll s) := by
  unfold Avail.notifyAll
  split
  · exact Silent.emit s _ rfl
  · exact Silent.refl s

theorem Silent.runScheduled (k : Nat) (s : State) : Silent s (runScheduled k s) := by
  unfold Avail.runScheduled
  split
  · exact Silent.refl s
  · split
    · split
      · exact Silent.refl s
      · exact ((Silent.execute _ _ _ s).trans (Silent.setSched _ _ _)).trans (Silent.notifyAll _)
    · exact Silent.emit s _ rfl

theorem Silent.foldl {α : Type} (f : State → α → State) (hf : ∀ s a, Silent s (f s a)) (l : List α) (s : State) :
    Silent s (l.foldl f s) := by
  induction l generalizing s with
  | nil => exact Silent.refl s
  | cons a l ih => exact (hf s a).trans (ih _)

/-- Operations that report connector statuses, or set the flags of connectors. -/
def isReporting : Op → Bool
  | .event _ _ _ => true
  | .offline => true
  | .accepted => true
  | .reconnect _ => true
  | .triggerStatus _ _ => true
  | .boot _ _ => true
  | _ => false

theorem Silent.step (s : State) (o : Op) (h : isReporting o = false) : Silent s (step s o) := by
  cases o with
  | change r =>
    simp only [Avail.step]
    unfold Avail.change
    split
    · exact Silent.emit s _ rfl
    · exact Silent.emit s _ rfl
    · split
      · dsimp only
        split
        · exact (Silent.setSched s _ _).trans (Silent.emit _ _ rfl)
        · exact ((Silent.setSched s _ _).trans (Silent.emit _ _ rfl)).trans (Silent.execute _ _ _ _)
      · exact ((Silent.setSched s _ _).trans (Silent.emit _ _ rfl)).trans (Silent.temp (Temp.blockIdle _ _))
  | txStart e c =>
    simp only [Avail.step]
    split
    · exact ⟨rfl, rfl, rfl, rfl, [], by simp, by simp⟩
    · exact Silent.emit s _ rfl
  | txEnd e =>
    simp only [Avail.step]
    split
    · exact Silent.emit s _ rfl
    · split
      · refine Silent.trans ?_ (Silent.runScheduled 0 _)
        refine Silent.trans (s2 := { s with tx := fun i => if i = e then none else s.tx i }) ?_ (Silent.runScheduled e _)
        exact ⟨rfl, rfl, rfl, rfl, [], by simp, by simp⟩
      · exact Silent.refl s
  | firmwarePrepare =>
    simp only [Avail.step]
    unfold Avail.firmwarePrepare
    split
    · exact (Silent.foldl _ (fun s e => Silent.temp (Temp.blockEvse s e)) _ s).trans (Silent.notifyAll _)
    · refine Silent.foldl _ ?_ _ s
      intro s e
      split
      · exact Silent.temp (Temp.blockEvse s e)
      · exact Silent.setSched s _ _
  | firmwareRestore => exact Silent.temp (Temp.firmwareRestore s)
  | block e =>
    simp only [Avail.step]
    split
    · exact Silent.temp (Temp.blockEvse s e)
    · exact Silent.emit s _ rfl
  | start =>
    exact Silent.temp (Temp.of_calls (Calls.trigCs false s) (Temp.refl s))
  | event e c ev => cases h
  | offline => cases h
  | accepted => cases h
  | reconnect b => cases h
  | triggerStatus e c => cases h
  | boot c r => cases h

theorem notes_silent (l : List Out) (h : ∀ o ∈ l, isNote o = false) (e c : Nat) : notes l e c = [] := by
  unfold notes
  rw [List.filterMap_eq_nil_iff]
  intro o ho
  have := h o ho
  cases o <;> simp [isNote] at this ⊢

/-- What `report` does, seen from one connector. -/
theorem report_cases (only : Bool) (e c : Nat) (s : State) :
    ((report only e c s = s) ∧ (s.online = false ∨ (only = true ∧ s.lastReported e c = toStatus (s.flags e c)))) ∨
    (s.online = true ∧ (only = true → s.lastReported e c ≠ toStatus (s.flags e c)) ∧
      report only e c s = { emit s (.status e c (toStatus (s.flags e c))) with
        lastReported := upd2 s.lastReported e c (toStatus (s.flags e c)) }) := by
  unfold report
  dsimp only
  by_cases h1 : (!only || s.lastReported e c != toStatus (s.flags e c)) = true
  · rw [if_pos h1]
    by_cases h2 : s.online = true
    · rw [if_pos h2]
      refine Or.inr ⟨h2, ?_, rfl⟩
      rintro rfl
      simpa using h1
    · rw [if_neg h2]
      exact Or.inl ⟨rfl, Or.inl (by simpa using h2)⟩
  · rw [if_neg h1]
    refine Or.inl ⟨rfl, Or.inr ?_⟩
    simpa using h1

/-- For one connector: the last notification carried the status last reported, which is the current one
when online. -/
structure NInv (e c : Nat) (s : State) : Prop where
  last : (notes s.out e c).getLast? = some (s.lastReported e c)
  cur : s.online = true → s.lastReported e c = toStatus (s.flags e c)

theorem notes_status (e c e' c' : Nat) (st : Status) :
    notes [Out.status e' c' st] e c = if e' = e ∧ c' = c then [st] else [] := by
  simp only [notes, List.filterMap_cons, List.filterMap_nil]
  by_cases h : e' = e ∧ c' = c
  · simp [h]
  · simp [h]

theorem last_report {e c : Nat} {s : State} (h : (notes s.out e c).getLast? = some (s.lastReported e c))
    (only : Bool) (e' c' : Nat) :
    (notes (report only e' c' s).out e c).getLast? = some ((report only e' c' s).lastReported e c) := by
  rcases report_cases only e' c' s with ⟨h1, _⟩ | ⟨_, _, h1⟩
  · rw [h1]; exact h
  · rw [h1]
    simp only [emit, notes_append, notes_status, upd2]
    by_cases hec : e' = e ∧ c' = c
    · obtain ⟨rfl, rfl⟩ := hec; simp
    · rw [if_neg hec, List.append_nil, if_neg (fun hh => hec ⟨hh.1.symm, hh.2.symm⟩)]
      exact h

/-- Online, after a report the status last reported is the current one. -/
theorem cur_report {s : State} (only : Bool) (e c : Nat) (ho : s.online = true) :
    (report only e c s).lastReported e c = toStatus ((report only e c s).flags e c) := by
  rw [(report_fields only e c s).2.2.2.2.1]
  rcases report_cases only e c s with ⟨h1, h2⟩ | ⟨_, _, h1⟩
  · rw [h1]
    rcases h2 with h2 | h2
    · rw [ho] at h2; cases h2
    · exact h2.2
  · rw [h1]; simp [emit, upd2]

theorem NInv.report {e c : Nat} {s : State} (h : NInv e c s) (only : Bool) (e' c' : Nat) : NInv e c (report only e' c' s) := by
  refine ⟨last_report h.last only e' c', ?_⟩
  intro ho
  rw [(report_fields only e' c' s).2.2.2.2.2.2.1] at ho
  by_cases hec : e = e' ∧ c = c'
  · obtain ⟨rfl, rfl⟩ := hec
    exact cur_report only e c ho
  · rw [(report_fields only e' c' s).2.2.2.2.1]
    rcases report_cases only e' c' s with ⟨h1, _⟩ | ⟨_, _, h1⟩
    · rw [h1]; exact h.cur ho
    · rw [h1]
      simp only [upd2, emit]
      rw [if_neg hec]
      exact h.cur ho

/-- All connectors reported while online: every one is up to date, if the last notification of each was the
status last reported, or if everything is reported. -/
theorem NInv.fold {e c : Nat} (only : Bool) (l : List (Nat × Nat)) (s : State) (ho : s.online = true)
    (hmem : (e, c) ∈ l) (h : only = false ∨ (notes s.out e c).getLast? = some (s.lastReported e c)) :
    NInv e c (l.foldl (fun s p => Avail.report only p.1 p.2 s) s) := by
  have keep : ∀ (l : List (Nat × Nat)) (s : State), NInv e c s → NInv e c (l.foldl (fun s p => Avail.report only p.1 p.2 s) s) := by
    intro l s hs
    exact foldl_keep (NInv e c) _ _ (fun s p _ hs => hs.report only p.1 p.2) s hs
  induction l generalizing s with
  | nil => cases hmem
  | cons p l ih =>
    rw [List.foldl_cons]
    have ho' : (Avail.report only p.1 p.2 s).online = true := by rw [(report_fields only p.1 p.2 s).2.2.2.2.2.2.1]; exact ho
    by_cases hp : p = (e, c)
    · subst hp
      refine keep l _ ⟨?_, fun _ => cur_report only e c ho⟩
      rcases h with h | h
      · subst h
        rcases report_cases false e c s with ⟨_, h2⟩ | ⟨_, _, h1⟩
        · rcases h2 with h2 | h2
          · rw [ho] at h2; cases h2
          · cases h2.1
        · rw [h1]
          simp [emit, notes_append, notes_status, upd2]
      · exact last_report h only e c
    · rcases List.mem_cons.mp hmem with hm | hm
      · exact absurd hm.symm hp
      · exact ih _ ho' hm (h.imp id (fun h => last_report h only p.1 p.2))

theorem last_silent {e c : Nat} {s s' : State} (hs : Silent s s')
    (h : (notes s.out e c).getLast? = some (s.lastReported e c)) :
    (notes s'.out e c).getLast? = some (s'.lastReported e c) := by
  obtain ⟨l, h1, h2⟩ := hs.out
  rw [h1, notes_append, notes_silent l h2, List.append_nil, hs.lastReported]
  exact h

theorem NInv.silent {e c : Nat} {s s' : State} (hs : Silent s s') (h : NInv e c s) : NInv e c s' :=
  ⟨last_silent hs h.last, fun ho => by rw [hs.lastReported, hs.flags]; exact h.cur (by rw [← hs.online]; exact ho)⟩

theorem NInv.step {e c : Nat} {s : State} (h : NInv e c s) (o : Op) (hb : isBoot o = false)
    (hp : (e, c) ∈ allConns s.conns) (hq : ¬ SilentPlug e c s o) : NInv e c (step s o) := by
  by_cases hr : isReporting o = false
  · exact h.silent (Silent.step s o hr)
  cases o with
  | event e' c' ev =>
    simp only [Avail.step]
    split
    · unfold event
      dsimp only
      split
      · rename_i hcond
        by_cases hec : e = e' ∧ c = c'
        · obtain ⟨rfl, rfl⟩ := hec
          refine absurd ⟨?_, ?_⟩ hq
          · rcases hcond with ⟨h1 | h1, h2⟩ <;> (subst h1; exact h2)
          · rcases hcond with ⟨h1 | h1, _⟩
            · exact Or.inl (by rw [h1])
            · exact Or.inr (by rw [h1])
        · refine ⟨h.last, ?_⟩
          intro ho
          simp only [upd2]
          rw [if_neg hec]
          exact h.cur ho
      · by_cases hec : e = e' ∧ c = c'
        · obtain ⟨rfl, rfl⟩ := hec
          refine ⟨last_report (s := { s with flags := upd2 s.flags e c _ }) h.last true e c, ?_⟩
          intro ho
          rw [(report_fields true e c _).2.2.2.2.2.2.1] at ho
          exact cur_report (s := { s with flags := upd2 s.flags e c _ }) true e c ho
        · refine NInv.report (s := { s with flags := upd2 s.flags e' c' _ }) ⟨h.last, ?_⟩ true e' c'
          intro ho
          simp only [upd2]
          rw [if_neg hec]
          exact h.cur ho
    · exact h.silent (Silent.emit s _ rfl)
  | offline => exact ⟨h.last, fun ho => by cases ho⟩
  | accepted => exact NInv.fold false (allConns s.conns) { s with online := true } rfl hp (Or.inl rfl)
  | reconnect b => exact NInv.fold (!b) (allConns s.conns) { s with online := true } rfl hp (Or.inr h.last)
  | triggerStatus e' c' =>
    simp only [Avail.step]
    split
    · exact h.report false e' c'
    · exact h.silent (Silent.emit s _ rfl)
  | boot conns r => cases hb
  | change r => exact absurd rfl hr
  | txStart _ _ => exact absurd rfl hr
  | txEnd _ => exact absurd rfl hr
  | firmwarePrepare => exact absurd rfl hr
  | firmwareRestore => exact absurd rfl hr
  | block _ => exact absurd rfl hr
  | start => exact absurd rfl hr

/-- Without the hypothesis on plug events, the last notification still is the status last reported. -/
theorem last_step {e c : Nat} {s : State} (h : (notes s.out e c).getLast? = some (s.lastReported e c)) (o : Op)
    (hb : isBoot o = false) :
    (notes (step s o).out e c).getLast? = some ((step s o).lastReported e c) := by
  have all : ∀ (only : Bool) (l : List (Nat × Nat)) (s : State),
      (notes s.out e c).getLast? = some (s.lastReported e c) →
      (notes (l.foldl (fun s p => Avail.report only p.1 p.2 s) s).out e c).getLast? =
        some ((l.foldl (fun s p => Avail.report only p.1 p.2 s) s).lastReported e c) := by
    intro only l s hs
    exact foldl_keep (fun s => (notes s.out e c).getLast? = some (s.lastReported e c)) _ _
      (fun s p _ hs => last_report hs only p.1 p.2) s hs
  by_cases hr : isReporting o = false
  · exact last_silent (Silent.step s o hr) h
  cases o with
  | event e' c' ev =>
    simp only [step]
    split
    · unfold event
      dsimp only
      split
      · exact h
      · exact last_report (s := { s with flags := upd2 s.flags e' c' _ }) h true e' c'
    · exact last_silent (Silent.emit s _ rfl) h
  | offline => exact h
  | accepted => exact all false _ { s with online := true } h
  | reconnect b => exact all (!b) _ { s with online := true } h
  | triggerStatus e' c' =>
    simp only [step]
    split
    · exact last_report h false e' c'
    · exact last_silent (Silent.emit s _ rfl) h
  | boot conns r => cases hb
  | change r => exact absurd rfl hr
  | txStart _ _ => exact absurd rfl hr
  | txEnd _ => exact absurd rfl hr
  | firmwarePrepare => exact absurd rfl hr
  | firmwareRestore => exact absurd rfl hr
  | block _ => exact absurd rfl hr
  | start => exact absurd rfl hr

theorem step_conns' (s : State) (o : Op) (hb : isBoot o = false) : (step s o).conns = s.conns := by
  by_cases hr : isReporting o = false
  · exact (Silent.step s o hr).conns
  cases o with
  | event e' c' ev => exact (quiet_step s _ (by simp)).1
  | offline => rfl
  | accepted => exact (quiet_step s _ (by simp)).1
  | reconnect b => exact (quiet_step s _ (by simp)).1
  | triggerStatus e' c' => exact (quiet_step s _ (by simp)).1
  | boot conns r => cases hb
  | change r => exact absurd rfl hr
  | txStart _ _ => exact absurd rfl hr
  | txEnd _ => exact absurd rfl hr
  | firmwarePrepare => exact absurd rfl hr
  | firmwareRestore => exact absurd rfl hr
  | block _ => exact absurd rfl hr
  | start => exact absurd rfl hr

theorem run_conns (s : State) (h : List Op) (hh : ∀ o ∈ h, isBoot o = false) : (run s h).conns = s.conns := by
  induction h generalizing s with
  | nil => rfl
  | cons o h ih =>
    have := ih (step s o) (fun o' ho' => hh o' (List.mem_cons_of_mem _ ho'))
    exact this.trans (step_conns' s o (hh o (by simp)))

/-- New outputs carry the current status. -/
theorem notes_current (s : State) (o : Op) :
    ∃ l, (step s o).out = s.out ++ l ∧ ∀ e c st, .status e c st ∈ l → st = toStatus ((step s o).flags e c) := by
  have rep : ∀ (only : Bool) (e' c' : Nat) (s : State), ∃ l, (report only e' c' s).out = s.out ++ l ∧
      ∀ e c st, .status e c st ∈ l → st = toStatus (s.flags e c) := by
    intro only e' c' s
    rcases report_cases only e' c' s with ⟨h1, _⟩ | ⟨_, _, h1⟩
    · exact ⟨[], by rw [h1, List.append_nil], by simp⟩
    · refine ⟨[.status e' c' (toStatus (s.flags e' c'))], by rw [h1]; rfl, ?_⟩
      intro e c st hm
      simp at hm
      obtain ⟨rfl, rfl, rfl⟩ := hm
      rfl
  have all : ∀ (only : Bool) (l : List (Nat × Nat)) (s : State),
      ∃ l', (l.foldl (fun s p => report only p.1 p.2 s) s).out = s.out ++ l' ∧
        ∀ e c st, .status e c st ∈ l' → st = toStatus (s.flags e c) := by
    intro only l
    induction l with
    | nil => intro s; exact ⟨[], by simp, by simp⟩
    | cons p l ih =>
      intro s
      obtain ⟨l1, a1, a2⟩ := rep only p.1 p.2 s
      obtain ⟨l2, b1, b2⟩ := ih (report only p.1 p.2 s)
      refine ⟨l1 ++ l2, by rw [List.foldl_cons, b1, a1, List.append_assoc], ?_⟩
      intro e c st hm
      rcases List.mem_append.mp hm with hm | hm
      · exact a2 e c st hm
      · have := b2 e c st hm
        rw [(report_fields only p.1 p.2 s).2.2.2.2.1] at this
        exact this
  by_cases hr : isReporting o = false
  · obtain ⟨l, h1, h2⟩ := (Silent.step s o hr).out
    exact ⟨l, h1, fun e c st hm => by have := h2 _ hm; cases this⟩
  cases o with
  | event e' c' ev =>
    simp only [step]
    split
    · unfold event
      dsimp only
      split
      · exact ⟨[], by simp, by simp⟩
      · obtain ⟨l, h1, h2⟩ := rep true e' c' { s with flags := upd2 s.flags e' c' (evFlags ev (s.flags e' c')) }
        refine ⟨l, h1, ?_⟩
        rw [(report_fields true e' c' _).2.2.2.2.1]
        exact h2
    · exact ⟨[.threw], rfl, by simp⟩
  | offline => exact ⟨[], by simp [step], by simp⟩
  | accepted =>
    obtain ⟨l, h1, h2⟩ := all false (allConns s.conns) { s with online := true }
    refine ⟨l, h1, ?_⟩
    have := (reportAll_fields false { s with online := true }).2.2.2.2.1
    simp only [step]
    rw [this]
    exact h2
  | reconnect b =>
    obtain ⟨l, h1, h2⟩ := all (!b) (allConns s.conns) { s with online := true }
    refine ⟨l, h1, ?_⟩
    have := (reportAll_fields (!b) { s with online := true }).2.2.2.2.1
    simp only [step]
    rw [this]
    exact h2
  | triggerStatus e' c' =>
    simp only [step]
    split
    · obtain ⟨l, h1, h2⟩ := rep false e' c' s
      refine ⟨l, h1, ?_⟩
      rw [(report_fields false e' c' s).2.2.2.2.1]
      exact h2
    · exact ⟨[.threw], rfl, by simp⟩
  | boot conns r => exact ⟨[], by simp [step, boot], by simp⟩
  | change r => exact absurd rfl hr
  | txStart _ _ => exact absurd rfl hr
  | txEnd _ => exact absurd rfl hr
  | firmwarePrepare => exact absurd rfl hr
  | firmwareRestore => exact absurd rfl hr
  | block _ => exact absurd rfl hr
  | start => exact absurd rfl hr

end Verif.Avail
