import Verif.Avail.Lemmas

/- Helper lemmas about availability: start of the station, persistence, pending requests. -/
set_option linter.constructorNameAsVariable false

namespace Verif.Avail

/-! ## `start` calls every callback once -/

theorem trigConn_false_out (e : Nat) (s : State) (c : Nat) :
    (trigConn false e s c).out = s.out ++ [.connChanged e c (effConn s e c)] := rfl

theorem foldConn_false_out (e : Nat) (l : List Nat) (s : State) :
    (l.foldl (trigConn false e) s).out = s.out ++ l.map (fun c => .connChanged e c (effConn s e c)) := by
  induction l generalizing s with
  | nil => simp
  | cons c l ih =>
    rw [List.foldl_cons, ih, trigConn_false_out]
    simp only [effConn_calls (Calls.trigConn false e s c), List.map_cons, List.append_assoc, List.singleton_append]

/-- The callbacks called for EVSE `e` at the start. -/
def startCalls (s : State) (e : Nat) : List Out :=
  .evseChanged e (effEvse s e) :: (connIds s.conns e).map (fun c => .connChanged e c (effConn s e c))

theorem trigEvse_false_out (s : State) (e : Nat) : (trigEvse false s e).out = s.out ++ startCalls s e := by
  unfold trigEvse startCalls
  dsimp only
  rw [if_pos (by simp), foldConn_false_out]
  simp only [emit, List.append_assoc, List.singleton_append]
  rfl

theorem startCalls_calls {s s' : State} (h : Calls s s') (e : Nat) : startCalls s' e = startCalls s e := by
  unfold startCalls
  rw [effEvse_calls h, h.same.1]
  congr 1
  refine List.map_congr_left ?_
  intro c _
  rw [effConn_calls h]

theorem foldEvse_false_out (l : List Nat) (s : State) :
    (l.foldl (trigEvse false) s).out = s.out ++ l.flatMap (startCalls s) := by
  induction l generalizing s with
  | nil => simp
  | cons e l ih =>
    rw [List.foldl_cons, ih, trigEvse_false_out]
    simp only [List.flatMap_cons, List.append_assoc]
    congr 2
    have : startCalls (trigEvse false s e) = startCalls s := by
      funext e'
      exact startCalls_calls (Calls.trigEvse false s e) e'
    rw [this]

theorem trigCs_false_out (s : State) :
    (trigCs false s).out = s.out ++ .csChanged s.cs :: (evseIds s.conns).flatMap (startCalls s) := by
  unfold trigCs
  dsimp only
  rw [if_pos (by simp), foldEvse_false_out]
  simp only [emit, List.append_assoc, List.singleton_append]
  rfl

theorem flatMap_single {α β : Type} [DecidableEq α] (l : List α) (hn : l.Nodup) (a : α) (ha : a ∈ l)
    (g : α → List β) (x : List β) (hx : g a = x) (ho : ∀ b, b ≠ a → g b = []) : l.flatMap g = x := by
  induction l with
  | nil => cases ha
  | cons b l ih =>
    rw [List.flatMap_cons]
    obtain ⟨hb, hn'⟩ := List.nodup_cons.mp hn
    by_cases hba : b = a
    · subst hba
      have : l.flatMap g = [] := by
        rw [List.flatMap_eq_nil_iff]
        intro y hy
        exact ho y (fun h => hb (h ▸ hy))
      rw [this, hx, List.append_nil]
    · rw [ho b hba, List.nil_append]
      rcases List.mem_cons.mp ha with h | h
      · exact absurd h.symm hba
      · exact ih hn' h

theorem evseIds_nodup (conns : List Nat) : (evseIds conns).Nodup := by
  unfold evseIds
  rw [List.nodup_iff_pairwise_ne, List.pairwise_map]
  exact (List.nodup_range.imp (by intro a b h; omega))

theorem connIds_nodup (conns : List Nat) (e : Nat) : (connIds conns e).Nodup := by
  unfold connIds
  rw [List.nodup_iff_pairwise_ne, List.pairwise_map]
  exact (List.nodup_range.imp (by intro a b h; omega))

theorem tracks_single (b : Bool) : Tracks [b] b := by
  refine ⟨rfl, ?_⟩
  intro p x y q h
  have := congrArg List.length h
  simp at this
  omega

theorem callsCs_flatMap_start (s : State) (l : List Nat) : callsCs (l.flatMap (startCalls s)) = [] := by
  unfold callsCs
  rw [List.filterMap_eq_nil_iff]
  intro o ho
  obtain ⟨e, _, hoe⟩ := List.mem_flatMap.mp ho
  unfold startCalls at hoe
  rcases List.mem_cons.mp hoe with h | h
  · rw [h]
  · obtain ⟨c, _, rfl⟩ := List.mem_map.mp h
    rfl

theorem callsEvse_start (s : State) (e' e : Nat) :
    callsEvse (startCalls s e') e = if e' = e then [effEvse s e'] else [] := by
  have h0 : callsEvse ((connIds s.conns e').map (fun c => Out.connChanged e' c (effConn s e' c))) e = [] := by
    unfold callsEvse
    rw [List.filterMap_eq_nil_iff]
    intro o ho
    obtain ⟨c, _, rfl⟩ := List.mem_map.mp ho
    rfl
  unfold startCalls
  rw [← List.singleton_append, callsEvse_append, h0, List.append_nil]
  simp only [callsEvse, List.filterMap_cons, List.filterMap_nil]
  by_cases h : e' = e
  · simp [h]
  · simp [h]

theorem filterMap_flatMap_toList {α β : Type} (f : α → Option β) (l : List α) :
    l.filterMap f = l.flatMap (fun a => (f a).toList) := by
  induction l with
  | nil => rfl
  | cons a l ih =>
    rw [List.filterMap_cons, List.flatMap_cons, ih]
    cases f a <;> rfl

theorem callsConn_start (s : State) (e' e c : Nat) (hc : c ∈ connIds s.conns e) :
    callsConn (startCalls s e') e c = if e' = e then [effConn s e c] else [] := by
  unfold startCalls callsConn
  rw [List.filterMap_cons]
  dsimp only
  by_cases he : e' = e
  · subst he
    rw [if_pos rfl, List.filterMap_map, filterMap_flatMap_toList]
    refine flatMap_single _ (connIds_nodup _ _) c hc _ _ ?_ ?_
    · simp
    · intro b hb; simp [hb]
  · rw [if_neg he, List.filterMap_eq_nil_iff]
    intro o ho
    obtain ⟨c', _, rfl⟩ := List.mem_map.mp ho
    simp [he]

theorem callsEvse_flatMap (f : Nat → List Out) (l : List Nat) (e : Nat) :
    callsEvse (l.flatMap f) e = l.flatMap (fun a => callsEvse (f a) e) := by
  unfold callsEvse
  rw [List.filterMap_flatMap]

theorem callsConn_flatMap (f : Nat → List Out) (l : List Nat) (e c : Nat) :
    callsConn (l.flatMap f) e c = l.flatMap (fun a => callsConn (f a) e c) := by
  unfold callsConn
  rw [List.filterMap_flatMap]

theorem CInv.trigConnAny {s : State} (h : CInv s) (only : Bool) (e c : Nat) : CInv (trigConn only e s c) := by
  unfold Avail.trigConn
  dsimp only
  split
  · refine ⟨h.cs, h.ev, ?_⟩
    intro e' c' hp
    show upd2 s.lastConn e c (effConn s e c) e' c' = effConn s e' c'
    simp only [upd2]
    split
    · rename_i hh; rw [hh.1, hh.2]
    · exact h.co e' c' hp
  · exact h

theorem CInv.foldConnAny {s : State} (h : CInv s) (only : Bool) (e : Nat) (l : List Nat) :
    CInv (l.foldl (Avail.trigConn only e) s) := by
  induction l generalizing s with
  | nil => exact h
  | cons c l ih => exact ih (h.trigConnAny only e c)

theorem CInv.trigEvseAny {s : State} (h : CInv s) (only : Bool) (e : Nat) : CInv (trigEvse only s e) := by
  unfold Avail.trigEvse
  dsimp only
  split
  · refine CInv.foldConnAny (s := { emit s (.evseChanged e (effEvse s e)) with lastEvse := upd s.lastEvse e (effEvse s e) }) ?_ only e _
    refine ⟨h.cs, ?_, h.co⟩
    intro e' he'
    show upd s.lastEvse e (effEvse s e) e' = effEvse s e'
    simp only [upd]
    split
    · rename_i hh; rw [hh]
    · exact h.ev e' he'
  · exact h

theorem CInv.foldEvseAny {s : State} (h : CInv s) (only : Bool) (l : List Nat) :
    CInv (l.foldl (Avail.trigEvse only) s) := by
  induction l generalizing s with
  | nil => exact h
  | cons c l ih => exact ih (h.trigEvseAny only c)

theorem CInv.trigCsAny {s : State} (h : CInv s) (only : Bool) : CInv (trigCs only s) := by
  unfold Avail.trigCs
  dsimp only
  split
  · exact CInv.foldEvseAny (s := { emit s (.csChanged s.cs) with lastCs := s.cs }) ⟨rfl, h.ev, h.co⟩ only _
  · exact h

theorem CInv.boot (conns : List Nat) (r : Nat → Option Nat) (s : State) : CInv (boot conns r s) :=
  ⟨rfl, fun _ _ => rfl, fun _ _ _ => rfl⟩

theorem KInv.start {s : State} (h : CInv s) : KInv s.out.length (trigCs false s) := by
  have hc := h.trigCsAny false
  refine ⟨?_, hc⟩
  have hd : (trigCs false s).out.drop s.out.length = .csChanged s.cs :: (evseIds s.conns).flatMap (startCalls s) := by
    rw [trigCs_false_out, List.drop_left]
  have hcalls := Calls.trigCs false s
  have hconns := hcalls.same.1
  refine ⟨by rw [trigCs_false_out, List.length_append]; omega, ?_, ?_, ?_⟩
  · rw [hd, hc.cs, hcalls.same.2.1]
    have : callsCs (Out.csChanged s.cs :: (evseIds s.conns).flatMap (startCalls s)) = [s.cs] := by
      show s.cs :: callsCs ((evseIds s.conns).flatMap (startCalls s)) = [s.cs]
      rw [callsCs_flatMap_start]
    rw [this]
    exact tracks_single _
  · intro e he
    rw [hd, hc.ev e he, effEvse_calls hcalls]
    have : callsEvse (Out.csChanged s.cs :: (evseIds s.conns).flatMap (startCalls s)) e = [effEvse s e] := by
      show callsEvse ((evseIds s.conns).flatMap (startCalls s)) e = _
      rw [callsEvse_flatMap]
      refine flatMap_single _ (evseIds_nodup _) e (by rw [← hconns]; exact he) _ _ ?_ ?_
      · rw [callsEvse_start, if_pos rfl]
      · intro b hb; rw [callsEvse_start, if_neg hb]
    rw [this]
    exact tracks_single _
  · intro e c hp
    rw [hd, hc.co e c hp, effConn_calls hcalls]
    rw [hconns] at hp
    obtain ⟨he, hcc⟩ := (mem_all _ _ _).mp hp
    have : callsConn (Out.csChanged s.cs :: (evseIds s.conns).flatMap (startCalls s)) e c = [effConn s e c] := by
      show callsConn ((evseIds s.conns).flatMap (startCalls s)) e c = _
      rw [callsConn_flatMap]
      refine flatMap_single _ (evseIds_nodup _) e he _ _ ?_ ?_
      · rw [callsConn_start _ _ _ _ hcc, if_pos rfl]
      · intro b hb; rw [callsConn_start _ _ _ _ hcc, if_neg hb]
    rw [this]
    exact tracks_single _

/-! ## Requests in the map -/

/-- Every request in the map names an existing component, and has the key of its EVSE; one for the station
is Inoperative. -/
def SOk (s : State) : Prop :=
  ∀ k sc, s.sched k = some sc → ∃ t, target s.conns sc.req = some (some t) ∧ keyOf t = k ∧
    (t = .station → sc.req.op = false)

theorem SOk.congr {s s' : State} (h : SOk s) (h1 : s'.conns = s.conns) (h2 : s'.sched = s.sched) : SOk s' := by
  intro k sc hk
  rw [h2] at hk
  rw [h1]
  exact h k sc hk

theorem SOk.temp {s s' : State} (h : SOk s) (ht : Temp s s') : SOk s' := h.congr ht.conns ht.sched

theorem SOk.erase {s : State} (h : SOk s) (k : Nat) : SOk (setSched s k none) := by
  intro k' sc hk
  simp only [setSched] at hk
  split at hk
  · cases hk
  · exact h k' sc hk

theorem SOk.put {s : State} (h : SOk s) (k : Nat) (sc : Sched) (t : Target) (ht : target s.conns sc.req = some (some t))
    (hk : keyOf t = k) (ho : t = .station → sc.req.op = false) : SOk (setSched s k (some sc)) := by
  intro k' sc' hk'
  simp only [setSched] at hk'
  split at hk'
  · rename_i hkk
    cases hk'
    exact ⟨t, ht, by rw [hk, hkk], ho⟩
  · exact h k' sc' hk'

theorem SOk.execute {s : State} (h : SOk s) (t : Target) (op p : Bool) : SOk (execute t op p s) :=
  h.congr (execute_fields t op p s).1 (execute_fields t op p s).2.2.2.2.2.1

theorem notifyAll_fields (s : State) : (notifyAll s).conns = s.conns ∧ (notifyAll s).cs = s.cs ∧
    (notifyAll s).evse = s.evse ∧ (notifyAll s).conn = s.conn ∧ (notifyAll s).flags = s.flags ∧
    (notifyAll s).lastReported = s.lastReported ∧ (notifyAll s).db = s.db ∧ (notifyAll s).online = s.online ∧
    (notifyAll s).tx = s.tx ∧ (notifyAll s).sched = s.sched := by
  unfold notifyAll
  split <;> exact ⟨rfl, rfl, rfl, rfl, rfl, rfl, rfl, rfl, rfl, rfl⟩

theorem SOk.notifyAll {s : State} (h : SOk s) : SOk (notifyAll s) :=
  h.congr (notifyAll_fields s).1 (notifyAll_fields s).2.2.2.2.2.2.2.2.2

theorem SOk.runScheduled {s : State} (h : SOk s) (k : Nat) : SOk (runScheduled k s) := by
  unfold Avail.runScheduled
  split
  · exact h
  · split
    · split
      · exact h
      · exact ((h.execute _ _ _).erase k).notifyAll
    · exact h

theorem accepts_station {s : State} {op : Bool} (h : accepts s .station op = false) : op = false := by
  unfold accepts at h
  cases op
  · rfl
  · simp [keyOf, evseOf] at h

theorem SOk.change {s : State} (h : SOk s) (r : Req) : SOk (change r s) := by
  unfold Avail.change
  split
  · exact h
  · exact h
  · rename_i t ht
    split
    · dsimp only
      split
      · exact h.erase _
      · exact SOk.execute (s := emit (setSched s (keyOf t) none) (.answer .accepted)) (h.erase _) _ _ _
    · rename_i hacc
      refine SOk.temp (s := emit (setSched s (keyOf t) (some { req := r, persist := true })) (.answer .scheduled)) ?_
        (Temp.blockIdle t _)
      refine h.put _ _ t ht rfl ?_
      rintro rfl
      exact accepts_station (by simpa using hacc)

/-- Something is kept by a loop whose steps keep it. -/
theorem foldl_keep {α : Type} (P : State → Prop) (f : State → α → State) (l : List α)
    (hf : ∀ s a, a ∈ l → P s → P (f s a)) (s : State) (h : P s) : P (l.foldl f s) := by
  induction l generalizing s with
  | nil => exact h
  | cons a l ih => exact ih (fun s a' ha' => hf s a' (List.mem_cons_of_mem _ ha')) _ (hf s a (by simp) h)

theorem firmwareSched_target {conns : List Nat} {e : Nat} (he : e ∈ evseIds conns) :
    target conns (firmwareSched e).req = some (some (.evse e)) :=
  target_of_naming (t := .evse e) rfl ((mem_evseIds _ _).mp he)

theorem report_fields (only : Bool) (e c : Nat) (s : State) :
    (report only e c s).conns = s.conns ∧ (report only e c s).cs = s.cs ∧ (report only e c s).evse = s.evse ∧
    (report only e c s).conn = s.conn ∧ (report only e c s).flags = s.flags ∧ (report only e c s).db = s.db ∧
    (report only e c s).online = s.online ∧ (report only e c s).tx = s.tx ∧ (report only e c s).sched = s.sched := by
  unfold report
  dsimp only
  split
  · split <;> exact ⟨rfl, rfl, rfl, rfl, rfl, rfl, rfl, rfl, rfl⟩
  · exact ⟨rfl, rfl, rfl, rfl, rfl, rfl, rfl, rfl, rfl⟩

theorem reportAll_fields (only : Bool) (s : State) :
    (reportAll only s).conns = s.conns ∧ (reportAll only s).cs = s.cs ∧ (reportAll only s).evse = s.evse ∧
    (reportAll only s).conn = s.conn ∧ (reportAll only s).flags = s.flags ∧ (reportAll only s).db = s.db ∧
    (reportAll only s).online = s.online ∧ (reportAll only s).tx = s.tx ∧ (reportAll only s).sched = s.sched := by
  unfold reportAll
  refine foldl_keep (fun s' => s'.conns = s.conns ∧ s'.cs = s.cs ∧ s'.evse = s.evse ∧ s'.conn = s.conn ∧
    s'.flags = s.flags ∧ s'.db = s.db ∧ s'.online = s.online ∧ s'.tx = s.tx ∧ s'.sched = s.sched) _ _ ?_ s
    ⟨rfl, rfl, rfl, rfl, rfl, rfl, rfl, rfl, rfl⟩
  intro s' p _ h
  obtain ⟨r1, r2, r3, r4, r5, r6, r7, r8, r9⟩ := report_fields only p.1 p.2 s'
  rw [r1, r2, r3, r4, r5, r6, r7, r8, r9]
  exact h

theorem event_fields (e c : Nat) (ev : Event) (s : State) :
    (event e c ev s).conns = s.conns ∧ (event e c ev s).cs = s.cs ∧ (event e c ev s).evse = s.evse ∧
    (event e c ev s).conn = s.conn ∧ (event e c ev s).flags = upd2 s.flags e c (evFlags ev (s.flags e c)) ∧
    (event e c ev s).db = s.db ∧
    (event e c ev s).online = s.online ∧ (event e c ev s).tx = s.tx ∧ (event e c ev s).sched = s.sched := by
  unfold event
  dsimp only
  split
  · exact ⟨rfl, rfl, rfl, rfl, rfl, rfl, rfl, rfl, rfl⟩
  · exact report_fields true e c _

/-- Operations that only report: nothing of availability changes. -/
theorem quiet_step (s : State) (o : Op)
    (ho : (∃ e c ev, o = .event e c ev) ∨ o = .offline ∨ o = .accepted ∨ (∃ b, o = .reconnect b) ∨
      (∃ e c, o = .triggerStatus e c) ∨ o = .start) :
    (step s o).conns = s.conns ∧ (step s o).cs = s.cs ∧ (step s o).evse = s.evse ∧ (step s o).conn = s.conn ∧
    (step s o).db = s.db ∧ (step s o).tx = s.tx ∧ (step s o).sched = s.sched := by
  rcases ho with ⟨e, c, ev, rfl⟩ | rfl | rfl | ⟨b, rfl⟩ | ⟨e, c, rfl⟩ | rfl
  · simp only [step]
    split
    · obtain ⟨h1, h2, h3, h4, _, h6, _, h8, h9⟩ := event_fields e c ev s
      exact ⟨h1, h2, h3, h4, h6, h8, h9⟩
    · exact ⟨rfl, rfl, rfl, rfl, rfl, rfl, rfl⟩
  · exact ⟨rfl, rfl, rfl, rfl, rfl, rfl, rfl⟩
  · obtain ⟨h1, h2, h3, h4, _, h6, _, h8, h9⟩ := reportAll_fields false { s with online := true }
    exact ⟨h1, h2, h3, h4, h6, h8, h9⟩
  · obtain ⟨h1, h2, h3, h4, _, h6, _, h8, h9⟩ := reportAll_fields (!b) { s with online := true }
    exact ⟨h1, h2, h3, h4, h6, h8, h9⟩
  · simp only [step]
    split
    · obtain ⟨h1, h2, h3, h4, _, h6, _, h8, h9⟩ := report_fields false e c s
      exact ⟨h1, h2, h3, h4, h6, h8, h9⟩
    · exact ⟨rfl, rfl, rfl, rfl, rfl, rfl, rfl⟩
  · obtain ⟨h1, h2, h3, h4, _, _, h7, _, h9, h10⟩ := (Calls.trigCs false s).same
    exact ⟨h1, h2, h3, h4, h7, h9, h10⟩

/-- What the preparation of a firmware update leaves alone, and the requests it stores. -/
theorem firmwarePrepare_fields (s : State) :
    (firmwarePrepare s).conns = s.conns ∧ (firmwarePrepare s).cs = s.cs ∧ (firmwarePrepare s).evse = s.evse ∧
    (firmwarePrepare s).db = s.db ∧ (firmwarePrepare s).tx = s.tx ∧
    (firmwarePrepare s).flags = s.flags ∧ (firmwarePrepare s).lastReported = s.lastReported ∧
    (firmwarePrepare s).online = s.online ∧
    (∀ k, (firmwarePrepare s).sched k = s.sched k ∨
      (k ∈ evseIds s.conns ∧ active s k = true ∧ (firmwarePrepare s).sched k = some (firmwareSched k))) := by
  have hblock : ∀ s' e, (blockEvse s' e).evse = s'.evse ∧ (blockEvse s' e).cs = s'.cs := by
    intro s' e
    refine foldl_keep (fun x => x.evse = s'.evse ∧ x.cs = s'.cs) _ _ ?_ s' ⟨rfl, rfl⟩
    intro x c _ hx
    obtain ⟨_, f2, f3, _⟩ := setConn_fields e c false false x
    rw [f2, f3]; exact hx
  unfold firmwarePrepare
  split
  · obtain ⟨n1, n2, n3, n4, n5, n6, n7, n8, n9, n10⟩ := notifyAll_fields ((evseIds s.conns).foldl blockEvse s)
    rw [n1, n2, n3, n5, n6, n7, n8, n9, n10]
    have hT := Temp.foldl blockEvse Temp.blockEvse (evseIds s.conns) s
    have hE : ((evseIds s.conns).foldl blockEvse s).evse = s.evse ∧ ((evseIds s.conns).foldl blockEvse s).cs = s.cs := by
      refine foldl_keep (fun x => x.evse = s.evse ∧ x.cs = s.cs) _ _ ?_ s ⟨rfl, rfl⟩
      intro x e _ hx
      rw [(hblock x e).1, (hblock x e).2]; exact hx
    exact ⟨hT.conns, hE.2, hE.1, hT.db, hT.tx, hT.flags, hT.lastReported, hT.online,
      fun k => Or.inl (by rw [hT.sched])⟩
  · refine foldl_keep (fun x => x.conns = s.conns ∧ x.cs = s.cs ∧ x.evse = s.evse ∧ x.db = s.db ∧ x.tx = s.tx ∧
      x.flags = s.flags ∧ x.lastReported = s.lastReported ∧ x.online = s.online ∧
      (∀ k, x.sched k = s.sched k ∨
        (k ∈ evseIds s.conns ∧ active s k = true ∧ x.sched k = some (firmwareSched k)))) _ _ ?_ s
      ⟨rfl, rfl, rfl, rfl, rfl, rfl, rfl, rfl, fun k => Or.inl rfl⟩
    rintro x e he ⟨h1, h2, h3, h4, h5, h6, h7, h8, h9⟩
    by_cases hact : active x e = true
    · rw [if_neg (by simp [hact])]
      refine ⟨h1, h2, h3, h4, h5, h6, h7, h8, ?_⟩
      intro k
      simp only [setSched]
      by_cases hk : k = e
      · rw [if_pos hk]
        refine Or.inr ⟨by rw [hk]; exact he, ?_, by rw [hk]⟩
        rw [hk]
        unfold active at hact ⊢
        rw [← h5]; exact hact
      · rw [if_neg hk]; exact h9 k
    · rw [if_pos (by simpa using hact)]
      have hT := Temp.blockEvse x e
      exact ⟨by rw [hT.conns, h1], by rw [(hblock x e).2, h2], by rw [(hblock x e).1, h3], by rw [hT.db, h4],
        by rw [hT.tx, h5], by rw [hT.flags, h6], by rw [hT.lastReported, h7], by rw [hT.online, h8],
        fun k => by rw [hT.sched]; exact h9 k⟩

theorem SOk.step {s : State} (h : SOk s) (o : Op) : SOk (step s o) := by
  cases o with
  | change r => exact h.change r
  | txStart e c =>
    simp only [Avail.step]
    split
    · exact h
    · exact h
  | txEnd e =>
    simp only [Avail.step]
    split
    · exact h
    · split
      · exact SOk.runScheduled (SOk.runScheduled (s := { s with tx := fun i => if i = e then none else s.tx i }) h e) 0
      · exact h
  | event e c ev =>
    obtain ⟨h1, _, _, _, _, _, h7⟩ := quiet_step s (.event e c ev) (Or.inl ⟨e, c, ev, rfl⟩)
    exact h.congr h1 h7
  | firmwarePrepare =>
    obtain ⟨h1, _, _, _, _, _, _, _, h9⟩ := firmwarePrepare_fields s
    intro k sc hk
    show ∃ t, target (Avail.firmwarePrepare s).conns sc.req = _ ∧ _
    rw [h1]
    rcases h9 k with hh | ⟨hk1, _, hh⟩
    · exact h k sc (by rw [← hh]; exact hk)
    · have : sc = firmwareSched k := by
        have hk' : (Avail.firmwarePrepare s).sched k = some sc := hk
        rw [hh] at hk'
        exact (Option.some.inj hk').symm
      subst this
      exact ⟨.evse k, firmwareSched_target hk1, rfl, fun hh => by cases hh⟩
  | firmwareRestore => exact h.temp (Temp.firmwareRestore s)
  | block e =>
    simp only [Avail.step]
    split
    · exact h.temp (Temp.blockEvse s e)
    · exact h
  | offline => exact h
  | accepted =>
    obtain ⟨h1, _, _, _, _, _, h7⟩ := quiet_step s .accepted (by simp)
    exact h.congr h1 h7
  | reconnect b =>
    obtain ⟨h1, _, _, _, _, _, h7⟩ := quiet_step s (.reconnect b) (by simp)
    exact h.congr h1 h7
  | triggerStatus e c =>
    obtain ⟨h1, _, _, _, _, _, h7⟩ := quiet_step s (.triggerStatus e c) (by simp)
    exact h.congr h1 h7
  | start =>
    obtain ⟨h1, _, _, _, _, _, h7⟩ := quiet_step s .start (by simp)
    exact h.congr h1 h7
  | boot conns r =>
    intro k sc hk
    simp only [Avail.step, Avail.boot] at hk
    cases hk

theorem SOk.run {s : State} (h : SOk s) (ops : List Op) : SOk (run s ops) := by
  induction ops generalizing s with
  | nil => exact h
  | cons o ops ih => exact ih (h.step o)

theorem SOk.clean (conns : List Nat) : SOk (clean conns) := by
  intro k sc hk
  simp only [Avail.clean, Avail.boot] at hk
  cases hk

/-! ## Persistence -/

/-- The status of a component a restart would bring. -/
def persisted (s : State) (t : Target) : Bool := (s.db (rowKey t).1 (rowKey t).2).getD true

theorem individual_boot (conns : List Nat) (r : Nat → Option Nat) (s : State) (t : Target) :
    individual (boot conns r s) t = persisted s t := by
  cases t <;> rfl

theorem persisted_boot (conns : List Nat) (r : Nat → Option Nat) (s : State) (t : Target) :
    persisted (boot conns r s) t = persisted s t := by
  unfold persisted
  simp only [Avail.boot]
  split
  · rfl
  · rfl

theorem rowKey_inj {conns conns' : List Nat} {t t' : Target} (he : Exists conns t) (he' : Exists conns' t')
    (h : rowKey t = rowKey t') : t = t' := by
  cases t <;> cases t' <;> simp [rowKey, Exists] at h he he' ⊢ <;> omega

theorem persisted_execute {s : State} {t t' : Target} (conns : List Nat) (he : Exists conns t)
    (he' : Exists s.conns t') (op p : Bool) (hne : p = true → t' ≠ t) :
    persisted (execute t' op p s) t = persisted s t := by
  unfold persisted
  rw [execute_db]
  split
  · rename_i hp
    simp only [upd2]
    rw [if_neg]
    rintro ⟨h1, h2⟩
    exact hne hp (rowKey_inj he' he (Prod.ext h1.symm h2.symm))
  · rfl

theorem persisted_congr {s s' : State} (h : s'.db = s.db) (t : Target) : persisted s' t = persisted s t := by
  unfold persisted; rw [h]

theorem NoneFor.congr {t : Target} {s s' : State} (h : NoneFor t s) (hs : s'.sched = s.sched) : NoneFor t s' := by
  intro k sc hk hp
  rw [hs] at hk
  exact h k sc hk hp

theorem NoneFor.erase {t : Target} {s : State} (h : NoneFor t s) (k : Nat) : NoneFor t (setSched s k none) := by
  intro k' sc hk hp
  simp only [setSched] at hk
  split at hk
  · cases hk
  · exact h k' sc hk hp

theorem runScheduled_keep {s : State} {t : Target} (conns : List Nat) (he : Exists conns t) (hn : NoneFor t s)
    (k : Nat) : persisted (runScheduled k s) t = persisted s t ∧ NoneFor t (runScheduled k s) := by
  unfold runScheduled
  cases hk : s.sched k with
  | none => exact ⟨rfl, hn⟩
  | some sc =>
    dsimp only
    split
    · rename_i t' ht'
      obtain ⟨hname, hex⟩ := target_naming ht'
      split
      · exact ⟨rfl, hn⟩
      · obtain ⟨_, _, _, _, _, _, n7, _, _, n10⟩ := notifyAll_fields (setSched (execute t' sc.req.op sc.persist s) k none)
        refine ⟨?_, ?_⟩
        · rw [persisted_congr n7]
          show persisted (execute t' sc.req.op sc.persist s) t = _
          refine persisted_execute conns he hex _ _ ?_
          rintro hp rfl
          exact hn k sc hk hp hname
        · refine NoneFor.congr (NoneFor.erase ?_ k) n10
          exact hn.congr (execute_fields t' sc.req.op sc.persist s).2.2.2.2.2.1
    · exact ⟨rfl, hn⟩

/-- One operation that does not name the component does not change what is persisted for it. -/
theorem step_keep {s : State} {t : Target} (conns : List Nat) (he : Exists conns t) (hn : NoneFor t s) (o : Op)
    (ho : ¬ Requests t o) : persisted (step s o) t = persisted s t ∧ NoneFor t (step s o) := by
  have temp : ∀ s', Temp s s' → persisted s' t = persisted s t ∧ NoneFor t s' := fun s' hT =>
    ⟨persisted_congr hT.db t, hn.congr hT.sched⟩
  have quiet : ∀ o', ((∃ e c ev, o' = .event e c ev) ∨ o' = .offline ∨ o' = .accepted ∨ (∃ b, o' = .reconnect b) ∨
      (∃ e c, o' = .triggerStatus e c) ∨ o' = .start) →
      persisted (step s o') t = persisted s t ∧ NoneFor t (step s o') := by
    intro o' ho'
    obtain ⟨_, _, _, _, h5, _, h7⟩ := quiet_step s o' ho'
    exact ⟨persisted_congr h5 t, hn.congr h7⟩
  cases o with
  | change r =>
    have hr : r.evse ≠ naming t := ho
    simp only [step]
    unfold change
    split
    · exact ⟨rfl, hn⟩
    · exact ⟨rfl, hn⟩
    · rename_i t' ht'
      obtain ⟨hname, hex⟩ := target_naming ht'
      have hne : t' ≠ t := by rintro rfl; exact hr hname
      split
      · dsimp only
        split
        · exact ⟨rfl, hn.erase _⟩
        · refine ⟨?_, ?_⟩
          · refine Eq.trans (persisted_execute (s := emit (setSched s (keyOf t') none) (.answer .accepted)) conns he hex _ _ (fun _ => hne)) ?_
            rfl
          · refine NoneFor.congr (hn.erase (keyOf t')) ?_
            exact (execute_fields t' r.op true _).2.2.2.2.2.1
      · have hT := Temp.blockIdle t' (emit (setSched s (keyOf t') (some { req := r, persist := true })) (.answer .scheduled))
        refine ⟨persisted_congr hT.db t, NoneFor.congr ?_ hT.sched⟩
        intro k sc hk hp
        simp only [emit, setSched] at hk
        split at hk
        · cases hk; exact hr
        · exact hn k sc hk hp
  | txStart e c =>
    simp only [step]
    split
    · exact ⟨rfl, hn⟩
    · exact ⟨rfl, hn⟩
  | txEnd e =>
    simp only [step]
    split
    · exact ⟨rfl, hn⟩
    · split
      · obtain ⟨a1, a2⟩ := runScheduled_keep (s := { s with tx := fun i => if i = e then none else s.tx i }) conns he hn e
        obtain ⟨b1, b2⟩ := runScheduled_keep conns he a2 0
        exact ⟨by rw [b1, a1]; rfl, b2⟩
      · exact ⟨rfl, hn⟩
  | event e c ev => exact quiet _ (by simp)
  | firmwarePrepare =>
    obtain ⟨_, _, _, h4, _, _, _, _, h9⟩ := firmwarePrepare_fields s
    refine ⟨persisted_congr h4 t, ?_⟩
    intro k sc hk hp
    rcases h9 k with hh | ⟨_, _, hh⟩
    · exact hn k sc (by rw [← hh]; exact hk) hp
    · have hk' : (firmwarePrepare s).sched k = some sc := hk
      rw [hh] at hk'
      cases hk'
      cases hp
  | firmwareRestore => exact temp _ (Temp.firmwareRestore s)
  | block e =>
    simp only [step]
    split
    · exact temp _ (Temp.blockEvse s e)
    · exact ⟨rfl, hn⟩
  | offline => exact quiet _ (by simp)
  | accepted => exact quiet _ (by simp)
  | reconnect b => exact quiet _ (by simp)
  | triggerStatus e c => exact quiet _ (by simp)
  | start => exact quiet _ (by simp)
  | boot conns' r =>
    refine ⟨persisted_boot conns' r s t, ?_⟩
    intro k sc hk
    simp only [step, boot] at hk
    cases hk

theorem run_keep {t : Target} (conns : List Nat) (he : Exists conns t) (h : List Op) (s : State) (hn : NoneFor t s)
    (hh : ∀ o ∈ h, ¬ Requests t o) : persisted (run s h) t = persisted s t ∧ NoneFor t (run s h) := by
  induction h generalizing s with
  | nil => exact ⟨rfl, hn⟩
  | cons o h ih =>
    obtain ⟨a1, a2⟩ := step_keep conns he hn o (hh o (by simp))
    obtain ⟨b1, b2⟩ := ih (step s o) a2 (fun o' ho' => hh o' (List.mem_cons_of_mem _ ho'))
    exact ⟨b1.trans a1, b2⟩

/-- A request executed at once. -/
theorem change_idle {s : State} {r : Req} {t : Target} (hr : r.evse = naming t) (he : Exists s.conns t)
    (hb : ¬ Busy s t) :
    step s (.change r) = execute t r.op true (emit (setSched s (keyOf t) none) (.answer .accepted)) := by
  have hna : anyActive s (evseOf t) = false := by
    rw [← anyActive_iff] at hb
    simpa using hb
  simp only [step]
  unfold change
  rw [target_of_naming hr he]
  dsimp only
  rw [if_pos (by simp [accepts, hna]), if_neg (by simp [hna])]

theorem noneFor_erased {s : State} (h : SOk s) (t : Target) (he : Exists s.conns t) :
    NoneFor t (setSched s (keyOf t) none) := by
  intro k sc hk hp hname
  simp only [setSched] at hk
  split at hk
  · cases hk
  · rename_i hne
    obtain ⟨t', ht', hk', _⟩ := h k sc hk
    obtain ⟨hn', _⟩ := target_naming ht'
    have : t' = t := naming_inj (hn'.symm.trans hname)
    rw [this] at hk'
    exact hne hk'.symm

theorem change_idle_facts {s : State} {r : Req} {t : Target} (hs : SOk s) (hr : r.evse = naming t)
    (he : Exists s.conns t) (hb : ¬ Busy s t) :
    persisted (step s (.change r)) t = r.op ∧ NoneFor t (step s (.change r)) := by
  rw [change_idle hr he hb]
  refine ⟨?_, ?_⟩
  · unfold persisted
    rw [execute_db]
    simp [upd2]
  · refine NoneFor.congr (noneFor_erased hs t he) ?_
    exact (execute_fields t r.op true _).2.2.2.2.2.1

/-! ## A pending request -/

theorem change_busy {s : State} {r : Req} {t : Target} (hr : r.evse = naming t) (he : Exists s.conns t)
    (hb : Busy s t) (hne : individual s t ≠ r.op) (hop : t = .station → r.op = false) :
    step s (.change r) =
      blockIdle t (emit (setSched s (keyOf t) (some { req := r, persist := true })) (.answer .scheduled)) := by
  have ha : anyActive s (evseOf t) = true := (anyActive_iff s t).mpr hb
  have hin : inState s t r.op = false := by
    cases t <;> simpa [inState, individual] using hne
  simp only [step]
  unfold change
  rw [target_of_naming hr he]
  dsimp only
  rw [if_neg]
  simp only [accepts, ha, hin]
  by_cases hst : t = .station
  · simp [hop hst]
  · have : keyOf t ≠ 0 := fun h => hst ((keyOf_zero he).mp h)
    simp [this]

end Verif.Avail
