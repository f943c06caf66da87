import Verif.Monitor.UpdaterTheorems2
/-
C78, C79, C84: base, validation and references, in more detail.  C83 from the write of a variable on.
C91: which monitors are reported.  C92: cleared monitors.  C93: changed thresholds.
-/
set_option linter.constructorNameAsVariable false
set_option linter.unusedSimpArgs false

namespace Verif.Mon

open Verif.DM (Str Comp Vbl DataType Chars exDM exInterval)

/-! ### C78: SetMonitoringBase -/

/-- C78: SetMonitoringBase is Accepted exactly if the base could be stored; FactoryDefault and HardWiredOnly then
remove exactly the monitors set by the CSMS, from memory and database; All, and a request that is refused, change
nothing. -/
theorem C78_base (s : Store) (stored : Bool) (b : MBase) :
    ((setBase s stored b).1 = true ↔ stored = true) ∧
    ((stored = false ∨ b = .all) → step s (.base stored b) = s) ∧
    (stored = true → b ≠ .all → ∀ x,
      (x ∈ (step s (.base stored b)).mem ↔ x ∈ s.mem ∧ x.mon.kind ≠ .custom) ∧
      (x ∈ (step s (.base stored b)).rows ↔ x ∈ s.rows ∧ x.mon.kind ≠ .custom)) := by
  cases stored <;> cases b <;> simp [step, setBase, clearCustom]

/-! ### C79: validation -/

/-- C79: what can be monitored.  Variables that do not support monitoring cannot; deltas must not be negative;
deltas of variables without numbers, and intervals, are not checked further; all other values are checked as if
they were written to the variable. -/
theorem C79_valid (ch : Chars) (zero : Bool) (q : Request) :
    validMonitor ch zero q = true ↔ ch.supportsMonitoring = true ∧ (q.type = .delta → 0 ≤ q.value) ∧
      ((q.type = .delta ∧ ch.dataType ≠ .decimal ∧ ch.dataType ≠ .integer) ∨ q.type = .periodic ∨ q.type = .periodicAligned ∨
        Verif.DM.validateValue ch (floatText q.value) zero = some true) := by
  unfold validMonitor
  cases hs : ch.supportsMonitoring with
  | false => simp
  | true =>
    have hneg : (¬ q.value < 0) ↔ 0 ≤ q.value := not_lt
    by_cases hlt : q.value < 0
    · have hge : ¬ (0 ≤ q.value) := fun h => absurd hlt (not_lt.mpr h)
      cases ht : q.type <;> simp [hlt, hge] <;> (try (split <;> simp_all))
    · have hge : 0 ≤ q.value := not_lt.mp hlt
      cases ht : q.type <;> cases hd : ch.dataType <;> simp [hlt, hge] <;> (try (split <;> simp_all))

/-- Non-vacuity of `C79_valid`. -/
example : validMonitor exInterval.chars false { exQ with type := .periodic } = true ∧
    validMonitor exInterval.chars false { exQ with type := .delta, value := -1 } = false := by decide +kernel

/-- C79: a delta monitor refers to the value the variable has when it is set. -/
theorem C79_reference (s : Store) (hg : Good s) (q : Request) (ho : Own s q) (hd : q.type = .delta)
    (h : (setOne .custom s q).1 = .accepted) (i : Nat) (hi : (setOne .custom s q).2.1 = some i)
    (x : Item) (hx : x ∈ (step s (.set q)).mem) (hxi : x.mon.id = i)
    (e : Verif.DM.Entry) (he : Verif.DM.find s.dm q.comp q.var = some e) (a : Verif.DM.Attr)
    (ha : Verif.DM.attrOf e .actual = some a) : x.mon.ref = a.value ∧ a.value ≠ none := by
  obtain ⟨e', _, _, _, _, h5, h6, h7⟩ := setOne_accepted .custom s q h
  have hval : actualValue s.dm q.comp q.var = a.value := by simp [actualValue, he, ha]
  rw [h6] at hi
  injection hi with hi
  have g' := hg.set .custom q ho
  rw [show (step s (.set q)) = (setOne .custom s q).2.2 from rfl] at hx
  have hx' := (g'.agree x).mp hx
  rw [h7] at hx'
  simp only [List.mem_append, List.mem_filter, List.mem_singleton, bne_iff_ne] at hx'
  rcases hx' with ⟨_, hne⟩ | hx'
  · exact absurd (hxi.trans hi.symm) hne
  · subst hx'
    refine ⟨by simp [newMeta, hd, hval], ?_⟩
    rw [← hval]
    exact h5 hd

/-! ### C84: references of texts -/

/-- C84: when a delta monitor of a variable without numbers reports a change, the new value becomes its reference,
in memory and in the database; all other monitors keep theirs. -/
theorem C84_text (s : Store) (hg : Good s) (x : Item) (hx : x ∈ s.mem) (hd : x.mon.type = .delta)
    (e : Verif.DM.Entry) (he : Verif.DM.find s.dm x.comp x.var = some e)
    (hn : e.chars.dataType ≠ .decimal ∧ e.chars.dataType ≠ .integer) (v : Str) :
    ∀ y, (y ∈ (updateReference s x.mon.id v).mem ↔
        y = { x with mon := { x.mon with ref := some v } } ∨ (y ∈ s.mem ∧ y.mon.id ≠ x.mon.id)) ∧
      (y ∈ (updateReference s x.mon.id v).rows ↔
        y = { x with mon := { x.mon with ref := some v } } ∨ (y ∈ s.rows ∧ y.mon.id ≠ x.mon.id)) := by
  have hrow : x ∈ s.rows := (hg.agree x).mp hx
  have huniq : ∀ y, y ∈ s.mem → y.mon.id = x.mon.id → y = x :=
    fun y hy hi => hg.ids y ((hg.agree y).mp hy) x hrow hi
  have hfind : s.mem.find? (fun y => y.mon.id == x.mon.id) = some x := by
    cases hf : s.mem.find? (fun y => y.mon.id == x.mon.id) with
    | none => exact absurd (List.find?_eq_none.mp hf x hx) (by simp)
    | some z =>
      have h1 := List.mem_of_find?_eq_some hf
      have h2 : z.mon.id = x.mon.id := by simpa using List.find?_some hf
      rw [huniq z h1 h2]
  have htriv : trivialDelta s.dm x = true := by
    simp only [trivialDelta, he]
    cases hdt : e.chars.dataType <;> simp_all
  have hany : s.rows.any (fun r => r.mon.id == x.mon.id) = true := List.any_eq_true.mpr ⟨x, hrow, by simp⟩
  intro y
  unfold updateReference
  rw [hfind]
  simp only [htriv, hany, Bool.and_self, if_true]
  have hset : setRef x.mon.id v x = { x with mon := { x.mon with ref := some v } } := by simp [setRef]
  constructor
  · rw [List.mem_map]
    constructor
    · rintro ⟨z, hz, rfl⟩
      by_cases hzx : z = x
      · subst hzx; left; simp [hset]
      · right
        have hb : (z == x) = false := by simpa using hzx
        rw [hb]
        exact ⟨hz, fun hi => hzx (huniq z hz hi)⟩
    · rintro (rfl | ⟨hy, hi⟩)
      · exact ⟨x, hx, by simp [hset]⟩
      · refine ⟨y, hy, ?_⟩
        have hb : (y == x) = false := by
          simp only [beq_eq_false_iff_ne]; rintro rfl; exact hi rfl
        rw [hb]; rfl
  · rw [List.mem_map]
    constructor
    · rintro ⟨z, hz, rfl⟩
      by_cases hi : z.mon.id = x.mon.id
      · have := hg.ids z hz x hrow hi; subst this; left; exact hset
      · right
        have : setRef x.mon.id v z = z := by simp [setRef, hi]
        rw [this]; exact ⟨hz, hi⟩
    · rintro (rfl | ⟨hy, hi⟩)
      · exact ⟨x, hrow, hset⟩
      · exact ⟨y, hy, by simp [setRef, hi]⟩

/-! ### C91: which monitors are reported -/

/-- The monitor is active under the monitoring base. -/
def BaseAllows (b : MBase) (m : Meta) : Prop :=
  (b = .factoryDefault → m.kind ≠ .custom) ∧ (b = .hardWiredOnly → m.kind = .hardWired)

/-- C91: a monitor is processed exactly if the monitoring base allows it and its severity number is not above the
monitoring level, or, offline, the queueing severity. -/
theorem C91_when (k : Conf) (m : Meta) : shouldProcess k m = true ↔
    BaseAllows k.base m ∧ (k.offline = false → m.severity ≤ k.level) ∧ (k.offline = true → m.severity ≤ k.offlineSeverity) := by
  unfold shouldProcess isActive BaseAllows
  cases k.base <;> cases k.offline <;> cases m.kind <;> simp

theorem finish_sent {k : Conf} {pa : Bool} {t : Clock} {dm : Verif.DM.DM} {map : List Entry} :
    ∀ {uid : Nat} {r : List Entry × Nat × List Event}, MapOk map → finish k pa t dm uid map = some r →
    ∀ ev ∈ r.2.2, k.offline = false ∧ ∃ e ∈ map, ev.monId = e.mon.id ∧ shouldProcess k e.mon = true := by
  induction map with
  | nil =>
    intro uid r _ h ev hev
    simp only [finish] at h
    injection h with h; subst h; simp at hev
  | cons e0 rest ih =>
    intro uid r hm h ev hev
    simp only [finish] at h
    cases ht : turn k pa t dm uid e0 with
    | stays e' => simp [ht] at h
    | throws => simp [ht] at h
    | moves e' evs uid' =>
      simp only [ht] at h
      rw [Option.map_eq_some_iff] at h
      obtain ⟨x, hx, rfl⟩ := h
      simp only [List.mem_append] at hev
      rcases hev with hev | hev
      · have hid := (turn_frame ht (hm.events e0 (List.mem_cons_self ..))).2 ev hev
        have hpk : k.offline = false ∧ shouldProcess k e0.mon = true := by
          unfold turn at ht
          split at ht
          · simp at ht
          · split at ht
            · split at ht
              · simp at ht
              · injection ht with h1 h2 h3; subst h2; simp at hev
            · rename_i hs
              cases hg : generate t dm uid e0 with
              | none => simp [hg] at ht
              | some y =>
                simp only [hg] at ht
                injection ht with h1 h2 h3
                refine ⟨?_, by simpa using hs⟩
                cases hoff : k.offline with
                | false => rfl
                | true => rw [← h2] at hev; simp [deliver, hoff] at hev
        exact ⟨hpk.1, e0, List.mem_cons_self .., hid, hpk.2⟩
      · obtain ⟨a, e, b, c⟩ := ih hm.tail hx ev hev
        exact ⟨a, e, List.mem_cons_of_mem _ b, c⟩

theorem hstep_mapOk {u u' : U} {op : HOp} (h : hstep u op = some u') (hm : MapOk u.map) : MapOk u'.map := by
  cases op with
  | ev m c v dt wo old new => exact (evaluate_frame h hm).1
  | proc k pa t =>
    simp only [hstep, process] at h
    split at h
    · injection h with h; subst h; exact hm
    · split at h
      · simp at h
      · rename_i map hmap
        rw [Option.map_eq_some_iff] at h
        obtain ⟨r, hr, rfl⟩ := h
        have : MapOk map := by
          cases pa with
          | false => simp at hmap; subst hmap; exact hm
          | true => simp only [if_true] at hmap; exact (updatePeriodics_frame hm hmap).1
        exact (finish_frame 0 this hr).1

theorem hrun_mapOk {ops : List HOp} : ∀ {u u' : U}, hrun u ops = some u' → MapOk u.map → MapOk u'.map := by
  induction ops with
  | nil => intro u u' h hm; simp only [hrun] at h; injection h with h; subst h; exact hm
  | cons op r ih =>
    intro u u' h hm
    simp only [hrun] at h
    cases hs : hstep u op with
    | none => simp [hs] at h
    | some w => simp only [hs] at h; exact ih h (hstep_mapOk hs hm)

theorem addPeriodics_mem {t : Clock} (xs : List Item) : ∀ {map map' : List Entry}, addPeriodics t xs map = some map' →
    ∀ e ∈ map', e ∈ map ∨ ∃ x ∈ xs, e.mon = x.mon := by
  induction xs with
  | nil => intro map map' h e he; simp only [addPeriodics] at h; injection h with h; subst h; exact .inl he
  | cons x r ih =>
    intro map map' h e he
    simp only [addPeriodics] at h
    split at h
    · rcases ih h e he with h1 | ⟨y, hy, h1⟩
      · exact .inl h1
      · exact .inr ⟨y, List.mem_cons_of_mem _ hy, h1⟩
    · cases hn : newPeriodic t x with
      | none => simp [hn] at h
      | some e0 =>
        simp only [hn] at h
        rcases ih h e he with h1 | ⟨y, hy, h1⟩
        · rcases List.mem_append.mp h1 with h1 | h1
          · exact .inl h1
          · simp only [List.mem_singleton] at h1; subst h1
            exact .inr ⟨x, List.mem_cons_self .., (newPeriodic_frame hn).1⟩
        · exact .inr ⟨y, List.mem_cons_of_mem _ hy, h1⟩

/-- C91: events are sent only while monitoring is enabled and the station is online, and only for monitors that the
monitoring base allows and whose severity number is not above the monitoring level; after every history. -/
theorem C91 (u0 : U) (hmap : u0.map = []) (ops : List HOp) (u : U) (h : hrun u0 ops = some u)
    (k : Conf) (pa : Bool) (t : Clock) (u' : U) (hp : process k pa t u = some u') :
    ∃ evs, u'.sent = u.sent ++ evs ∧ ∀ ev ∈ evs, k.enabled = true ∧ k.offline = false ∧
      ∃ m, ((∃ e ∈ u.map, e.mon = m) ∨ (∃ x ∈ u.st.mem, x.mon = m)) ∧ ev.monId = m.id ∧
        BaseAllows k.base m ∧ m.severity ≤ k.level := by
  have hm : MapOk u.map := hrun_mapOk h (by rw [hmap]; exact ⟨by simp, by simp⟩)
  unfold process at hp
  cases hen : k.enabled with
  | false =>
    simp only [hen, Bool.not_false, if_true] at hp
    injection hp with hp; subst hp; exact ⟨[], by simp, by simp⟩
  | true =>
    simp only [hen, Bool.not_true, Bool.false_eq_true, if_false] at hp
    split at hp
    · simp at hp
    · rename_i map hmp
      rw [Option.map_eq_some_iff] at hp
      obtain ⟨r, hr, rfl⟩ := hp
      have hmok : MapOk map ∧ ∀ e ∈ map, (∃ e0 ∈ u.map, e0.mon = e.mon) ∨ (∃ x ∈ u.st.mem, x.mon = e.mon) := by
        cases pa with
        | false => simp at hmp; subst hmp; exact ⟨hm, fun e he => .inl ⟨e, he, rfl⟩⟩
        | true =>
          simp only [if_true] at hmp
          refine ⟨(updatePeriodics_frame hm hmp).1, ?_⟩
          intro e he
          unfold updatePeriodics at hmp
          rw [Option.map_eq_some_iff] at hmp
          obtain ⟨m1, h1, rfl⟩ := hmp
          rcases addPeriodics_mem _ h1 e (List.mem_filter.mp he).1 with h2 | ⟨x, hx, h2⟩
          · exact .inl ⟨e, h2, rfl⟩
          · exact .inr ⟨x, (List.mem_filter.mp hx).1, h2.symm⟩
      refine ⟨r.2.2, rfl, ?_⟩
      intro ev hev
      obtain ⟨a, e, b, c, d⟩ := finish_sent hmok.1 hr ev hev
      obtain ⟨w1, w2, _⟩ := (C91_when k e.mon).mp d
      exact ⟨rfl, a, e.mon, hmok.2 e b, c, w1, w2 a⟩

/-- Non-vacuity of `C91`: an alert of severity 3 is sent with level 9, not with level 2. -/
example : (acts exAlarm [w "70", .proc exOnline true ⟨0, 0⟩]).map (fun u => u.sent.length) = some 1 ∧
    (acts exAlarm [w "70", .proc { exOnline with level := 2 } true ⟨0, 0⟩]).map (fun u => u.sent.length) = some 0 := by
  decide +kernel

/-! ### C92: cleared monitors -/

/-- C92: a periodic monitor that was cleared, or replaced by one of another type, sends no more events.  Partial:
triggered monitors do; see `C92_violated`. -/
theorem C92_partial (u0 : U) (hmap : u0.map = []) (ops : List HOp) (u : U) (h : hrun u0 ops = some u) (st : Store)
    (i : Nat) (hper : ∀ e ∈ u.map, e.mon.id = i → e.periodic = true)
    (hgone : ∀ x ∈ st.mem, x.mon.id = i → x.mon.type ≠ .periodic ∧ x.mon.type ≠ .periodicAligned)
    (k : Conf) (t : Clock) (u' : U) (hp : process k true t { u with st := st } = some u') :
    u'.sent.filter (fun ev => ev.monId == i) = u.sent.filter (fun ev => ev.monId == i) ∧
    (k.enabled = true → entryOf u'.map i = none) := by
  have hm : MapOk u.map := hrun_mapOk h (by rw [hmap]; exact ⟨by simp, by simp⟩)
  unfold process at hp
  cases hen : k.enabled with
  | false =>
    simp only [hen, Bool.not_false, if_true] at hp
    injection hp with hp; subst hp; exact ⟨rfl, by simp⟩
  | true =>
    simp only [hen, Bool.not_true, Bool.false_eq_true, if_false, if_true] at hp
    split at hp
    · simp at hp
    · rename_i map hmp
      rw [Option.map_eq_some_iff] at hp
      obtain ⟨r, hr, rfl⟩ := hp
      have hok := (updatePeriodics_frame hm hmp).1
      have hnoper : ∀ x ∈ periodics st, x.mon.id ≠ i := by
        intro x hx hi
        obtain ⟨h1, h2⟩ := List.mem_filter.mp hx
        obtain ⟨g1, g2⟩ := hgone x h1 hi
        simp [g1, g2] at h2
      have hnone : entryOf map i = none := by
        unfold updatePeriodics at hmp
        rw [Option.map_eq_some_iff] at hmp
        obtain ⟨m1, h1, rfl⟩ := hmp
        rw [entryOf_none]
        intro e he hi
        obtain ⟨he1, he2⟩ := List.mem_filter.mp he
        obtain ⟨a1, a2, _⟩ := addPeriodics_frame _ hm h1
        have h3 := a1.entryOf he1
        rw [hi, a2 i hnoper] at h3
        have hpe := hper e (entryOf_some h3).1 hi
        rw [hpe] at he2
        simp only [Bool.not_true, Bool.false_or, List.any_eq_true, beq_iff_eq] at he2
        obtain ⟨x, hx, hxe⟩ := he2
        exact hnoper x hx (hxe.trans hi)
      obtain ⟨f1, f2⟩ := (finish_frame i hok hr).2.2.1 hnone
      exact ⟨by simp [List.filter_append, f2], fun _ => f1⟩

/-- Non-vacuity of `C92_partial`: a periodic monitor is known to the updater, and cleared. -/
example : ∃ u, hrun { exAlarm with st := { exDecimal with mem := [⟨exInterval.comp, exInterval.var, ⟨1, 3, false, .periodic, 5, .custom, none⟩⟩], rows := [⟨exInterval.comp, exInterval.var, ⟨1, 3, false, .periodic, 5, .custom, none⟩⟩], seq := 1 } }
      [.proc exOnline true ⟨0, 0⟩] = some u ∧ (u.map.map (fun e => (e.mon.id, e.periodic)) = [(1, true)]) ∧
    (clearOne false u.st 1).2.mem = [] := by
  refine ⟨(hrun { exAlarm with st := { exDecimal with mem := [⟨exInterval.comp, exInterval.var, ⟨1, 3, false, .periodic, 5, .custom, none⟩⟩], rows := [⟨exInterval.comp, exInterval.var, ⟨1, 3, false, .periodic, 5, .custom, none⟩⟩], seq := 1 } }
      [.proc exOnline true ⟨0, 0⟩]).get (by decide +kernel), by simp, by decide +kernel, by decide +kernel⟩

/-- C92 is violated for triggered monitors: the value exceeds the threshold, then the CSMS clears the monitor; the
alert of the monitor that no longer exists is sent by the next run of the timer. -/
theorem C92_violated : ∃ u u', acts exAlarm [w "70"] = some u ∧ (clearOne false u.st 1).1 = .accepted ∧
    (clearOne false u.st 1).2.mem = [] ∧
    process exOnline true ⟨0, 0⟩ { u with st := (clearOne false u.st 1).2 } = some u' ∧
    u'.sent.map (fun e => (e.monId, e.cleared)) = [(1, some false)] := by
  refine ⟨(acts exAlarm [w "70"]).get (by decide +kernel),
    (process exOnline true ⟨0, 0⟩ { (acts exAlarm [w "70"]).get (by decide +kernel) with
      st := (clearOne false ((acts exAlarm [w "70"]).get (by decide +kernel)).st 1).2 }).get (by decide +kernel),
    by simp, by decide +kernel, by decide +kernel, by simp, by decide +kernel⟩

/-! ### C93: thresholds that are set or changed -/

/-- C93 is violated: a threshold below the current value is set (`exAlarm`: the value is 60, the threshold 50); no
event is sent, however often the monitors are processed, until the variable changes. -/
theorem C93_violated (ops : List (Conf × Bool × Clock)) :
    ∃ u, acts exAlarm (ops.map (fun x => .proc x.1 x.2.1 x.2.2)) = some u ∧ u.sent = [] ∧
      actualValue u.st.dm exInterval.comp exInterval.var = some "60".toList := by
  have key : ∀ u : U, u.st = exAlarm.st → u.map = [] → u.sent = [] →
      ∃ w, acts u (ops.map (fun x => .proc x.1 x.2.1 x.2.2)) = some w ∧ w.sent = [] ∧ w.st = exAlarm.st := by
    induction ops with
    | nil => intro u h1 _ h3; exact ⟨u, rfl, h3, h1⟩
    | cons x r ih =>
      intro u h1 h2 h3
      obtain ⟨k, pa, t⟩ := x
      have hper : periodics u.st = [] := by rw [h1]; decide
      have hpr : process k pa t u = some u := by
        unfold process
        split
        · rfl
        · have : (if pa then updatePeriodics t u.st u.map else some u.map) = some [] := by
            rw [h2]; cases pa <;> simp [updatePeriodics, hper, addPeriodics]
          rw [this]
          simp only [finish, Option.map_some]
          cases u; simp_all
      simp only [List.map_cons, acts, act, hpr]
      exact ih u h1 h2 h3
  obtain ⟨u, h1, h2, h3⟩ := key exAlarm rfl rfl rfl
  exact ⟨u, h1, h2, by rw [h3]; decide +kernel⟩

/-- C93: when the threshold of a monitor that has reported an alert, or is about to, is changed such that the
current value lies on the other side, the next run while online reports that.  Partial: for other monitors see
`C93_violated`. -/
theorem C93_partial (u u1 u2 : U) (m : Meta) (c : Comp) (v : Vbl) (dt : DataType) (wo : Bool) (cur : Str)
    (hm : m.type = .upper ∨ m.type = .lower) (hdt : trivialType dt = false) (hmap : MapOk u.map)
    (hmem : ∀ x ∈ u.st.mem, x.mon.id = m.id → x.mon.type = m.type)
    (e : Entry) (he : entryOf u.map m.id = some e) (hpe : e.periodic = false)
    (hflip : Beyond m dt cur ↔ e.cleared = true)
    (hu : onUpdated u m c v dt wo cur = some u1)
    (k : Conf) (pa : Bool) (t : Clock) (hen : k.enabled = true) (hon : k.offline = false)
    (hb : BaseAllows k.base m) (hl : m.severity ≤ k.level) (hp : process k pa t u1 = some u2) :
    ∃ ev, (u2.sent.filter (fun ev => ev.monId == m.id)).getLast? = some ev ∧ ev.cleared = some (!e.cleared) := by
  have hs : shouldProcess k m = true := (C91_when k m).mpr ⟨hb, fun _ => hl, by simp [hon]⟩
  have hty : (m.type == .lower || m.type == .upper) = true := by rcases hm with h | h <;> simp [h]
  have hnd : (m.type == .delta) = false ∧ (m.type != .delta) = true := by rcases hm with h | h <;> simp [h]
  have hnp : ¬ (m.type = .periodic ∨ m.type = .periodicAligned) := by rcases hm with h | h <;> simp [h]
  unfold onUpdated at hu
  simp only [he, hty, if_true] at hu
  generalize hw : ({ u with map := u.map.map (fun x => if x.mon.id == m.id then { x with mon := m } else x) } : U) = w at hu
  have hput : w.map = put u.map m.id (some { e with mon := m }) := by
    rw [← hw]
    simp only [put, he, Option.isSome_some, if_true]
    apply List.map_congr_left
    intro x hx
    by_cases hxi : x.mon.id = m.id
    · have := hmap.entryOf hx
      rw [hxi, he] at this; injection this with this; subst this; rfl
    · have : (x.mon.id == m.id) = false := by simpa using hxi
      rw [this]; rfl
  have hid : e.mon.id = m.id := (entryOf_some he).2
  obtain ⟨p1, p2, _, _⟩ := put_some hmap (e' := { e with mon := m }) he hid.symm rfl
  rw [← hput] at p1 p2
  obtain ⟨f1, _, f3, _, _, f6, _, f8⟩ := evaluate_frame hu p1
  obtain ⟨b, hb1, hE⟩ := f8 hnp
  have hbb : b = true ↔ Beyond m dt cur := by
    unfold triggers at hb1
    simp only [hdt, Bool.false_eq_true, if_false] at hb1
    unfold Beyond
    cases hn : number dt cur with
    | none => simp [hn] at hb1
    | some x =>
      simp only [hn] at hb1
      rcases hm with h | h <;>
      · simp only [h] at hb1 ⊢
        injection hb1 with hb1; subst hb1
        simp
  rw [p2] at hE
  -- the entry after the evaluation
  obtain ⟨e1, q1, q2, q3, q4, q5⟩ : ∃ e1, entryOf u1.map m.id = some e1 ∧ e1.periodic = false ∧ e1.mon = m ∧
      e1.generated = false ∧ e1.cleared = !e.cleared := by
    cases hc : e.cleared with
    | true =>
      have : b = true := hbb.mpr (hflip.mpr hc)
      subst this
      simp only [evaluateEntry, Option.map_some, Option.getD_some, if_true, hc, hnd.2, Bool.and_self, setClear, hpe,
        Bool.false_eq_true, if_false] at hE
      simp only [Bool.true_beq, Bool.false_eq_true, if_false, Option.map_some, beq_iff_eq] at hE
      injection hE with hE
      exact ⟨_, hE.symm, rfl, rfl, rfl, rfl⟩
    | false =>
      have : b = false := by
        cases hbv : b with
        | false => rfl
        | true => have := hflip.mp (hbb.mp hbv); rw [hc] at this; simp at this
      subst this
      simp only [evaluateEntry, Option.map_some, Bool.false_eq_true, if_false, hc, hnd.2, Bool.not_false, Bool.and_self,
        if_true, setClear, hpe] at hE
      simp only [Bool.false_beq, Bool.not_true, Bool.false_eq_true, if_false, Option.map_some] at hE
      injection hE with hE
      exact ⟨_, hE.symm, rfl, rfl, rfl, rfl⟩
  unfold process at hp
  simp only [hen, Bool.not_true, Bool.false_eq_true, if_false] at hp
  cases hmp : (if pa then updatePeriodics t u1.st u1.map else some u1.map) with
  | none => simp [hmp] at hp
  | some map =>
    have hmok : MapOk map ∧ entryOf map m.id = some e1 := by
      cases pa with
      | false => simp at hmp; subst hmp; exact ⟨f1, q1⟩
      | true =>
        simp only [if_true] at hmp
        obtain ⟨r1, r2⟩ := updatePeriodics_frame f1 hmp
        refine ⟨r1, ?_⟩
        rw [r2 m.id, q1]
        · intro x hx hi
          obtain ⟨hx1, hx2⟩ := List.mem_filter.mp hx
          obtain ⟨y, hy, y1, y2⟩ := f6 x hx1
          have hy' : y ∈ u.st.mem := by rw [← hw] at hy; exact hy
          simp only [Bool.or_eq_true, beq_iff_eq] at hx2
          rw [← y2, hmem y hy' (y1.trans hi)] at hx2
          exact hnp hx2
        · intro x hx; rw [q1] at hx; injection hx with hx; subst hx; exact q2
    simp only [hmp] at hp
    rw [Option.map_eq_some_iff] at hp
    obtain ⟨r, hr, rfl⟩ := hp
    obtain ⟨_, _, _, r4⟩ := finish_frame m.id hmok.1 hr
    obtain ⟨n1, n2, e', evs, hT, _, k3⟩ := r4 e1 hmok.2
    unfold turn at hT
    simp only [q2, Bool.and_false, Bool.false_eq_true, if_false, q3, hs, Bool.not_true] at hT
    have hg : generate t u1.st.dm n1 e1 = some ({ e1 with generated := true, events := e1.events ++ [newEvent n1 t (if e1.writeOnly then [] else e1.current) e1 (some e1.cleared)] }, n1 + 1) := by
      simp [generate, q2, q4, q3, hnd.1]
    rw [hg] at hT
    simp only at hT
    injection hT with t1 t2 t3
    rw [show (deliver k { e1 with generated := true, events := e1.events ++ [newEvent n1 t (if e1.writeOnly then [] else e1.current) e1 (some e1.cleared)] }).2 =
      e1.events ++ [newEvent n1 t (if e1.writeOnly then [] else e1.current) e1 (some e1.cleared)] by simp [deliver, hon, q2]] at t2
    refine ⟨newEvent n1 t (if e1.writeOnly then [] else e1.current) e1 (some e1.cleared), ?_, ?_⟩
    · rw [List.filter_append, k3, ← t2, ← List.append_assoc]
      exact List.getLast?_concat
    · simp [newEvent, q5]

/-! ### C83 from the write of the variable on -/

theorem evaluateAll_frame (c : Comp) (v : Vbl) (dt : DataType) (wo : Bool) (old new : Str) (i : Nat) :
    ∀ (l : List Meta) (u u' : U), MapOk u.map → (∀ m ∈ l, m.id ≠ i) → evaluateAll c v dt wo old new l u = some u' →
    MapOk u'.map ∧ entryOf u'.map i = entryOf u.map i ∧ u'.sent = u.sent ∧
    (∀ x ∈ u'.st.mem, ∃ y ∈ u.st.mem, y.mon.id = x.mon.id ∧ y.mon.type = x.mon.type) := by
  intro l
  induction l with
  | nil =>
    intro u u' hm _ h
    simp only [evaluateAll] at h
    injection h with h; subst h
    exact ⟨hm, rfl, rfl, fun x hx => ⟨x, hx, rfl, rfl⟩⟩
  | cons m r ih =>
    intro u u' hm hne h
    simp only [evaluateAll] at h
    cases he : evaluate u m c v dt wo old new with
    | none => simp [he] at h
    | some w =>
      simp only [he] at h
      obtain ⟨f1, f2, f3, _, _, f6, _⟩ := evaluate_frame he hm
      obtain ⟨g1, g2, g3, g4⟩ := ih w u' f1 (fun m' hm' => hne m' (List.mem_cons_of_mem _ hm')) h
      refine ⟨g1, ?_, g3.trans f3, ?_⟩
      · rw [g2, f2 i (Ne.symm (hne m (List.mem_cons_self ..)))]
      · intro x hx
        obtain ⟨y, hy, y1, y2⟩ := g4 x hx
        obtain ⟨z, hz, z1, z2⟩ := f6 y hy
        exact ⟨z, hz, z1.trans y1, z2.trans y2⟩

theorem evaluateAll_sent (c : Comp) (v : Vbl) (dt : DataType) (wo : Bool) (old new : Str) :
    ∀ (l : List Meta) (u u' : U), MapOk u.map → evaluateAll c v dt wo old new l u = some u' → u'.sent = u.sent := by
  intro l
  induction l with
  | nil => intro u u' _ h; simp only [evaluateAll] at h; injection h with h; subst h; rfl
  | cons m r ih =>
    intro u u' hm h
    simp only [evaluateAll] at h
    cases he : evaluate u m c v dt wo old new with
    | none => simp [he] at h
    | some w =>
      simp only [he] at h
      obtain ⟨f1, _, f3, _⟩ := evaluate_frame he hm
      exact (ih w u' f1 h).trans f3

theorem evaluateAll_append (c : Comp) (v : Vbl) (dt : DataType) (wo : Bool) (old new : Str) (l1 l2 : List Meta) :
    ∀ (u u' : U), evaluateAll c v dt wo old new (l1 ++ l2) u = some u' →
      ∃ w, evaluateAll c v dt wo old new l1 u = some w ∧ evaluateAll c v dt wo old new l2 w = some u' := by
  induction l1 with
  | nil => intro u u' h; exact ⟨u, rfl, h⟩
  | cons m r ih =>
    intro u u' h
    simp only [List.cons_append, evaluateAll] at h ⊢
    cases he : evaluate u m c v dt wo old new with
    | none => simp [he] at h
    | some w => simp only [he] at h ⊢; exact ih w u' h

/-- C83: when a numeric variable is written and the new value is beyond the threshold of a monitor on it that has
not been triggered before, the next run while online sends an alert of that monitor with the new value (without
it if the variable is write-only). -/
theorem C83_write (u u1 u2 : U) (hmap : MapOk u.map) (x : Item) (hx : x ∈ u.st.mem)
    (hids : ∀ a ∈ u.st.mem, ∀ b ∈ u.st.mem, a.mon.id = b.mon.id → a = b) (hnd : u.st.mem.Nodup)
    (hty : x.mon.type = .upper ∨ x.mon.type = .lower) (hent : entryOf u.map x.mon.id = none)
    (e : Verif.DM.Entry) (he : Verif.DM.find u.st.dm x.comp x.var = some e)
    (a : Verif.DM.Attr) (ha : Verif.DM.attrOf e .actual = some a)
    (hdt : e.chars.dataType = .decimal ∨ e.chars.dataType = .integer)
    (val : Str) (ro : Bool) (hacc : (Verif.DM.setValue u.st.dm x.comp x.var .actual val ro).1 = .accepted)
    (hchg : a.value.getD [] ≠ val) (hbey : Beyond x.mon e.chars.dataType val)
    (hw : write u x.comp x.var val ro = some u1)
    (k : Conf) (pa : Bool) (t : Clock) (hen : k.enabled = true) (hon : k.offline = false)
    (hb : BaseAllows k.base x.mon) (hl : x.mon.severity ≤ k.level) (hp : process k pa t u1 = some u2) :
    ∃ ev, (u2.sent.filter (fun ev => ev.monId == x.mon.id)).getLast? = some ev ∧ ev.cleared = some false ∧
      ev.comp = x.comp ∧ ev.var = x.var ∧ ev.trigger = some .alerting ∧
      ev.value = if a.mutability = some .writeOnly then [] else val := by
  have hs : shouldProcess k x.mon = true := (C91_when k x.mon).mpr ⟨hb, fun _ => hl, by simp [hon]⟩
  have hnp : ¬ (x.mon.type = .periodic ∨ x.mon.type = .periodicAligned) := by rcases hty with h | h <;> simp [h]
  have hndl : (x.mon.type == .delta) = false ∧ (x.mon.type != .delta) = true := by rcases hty with h | h <;> simp [h]
  have htr : trivialType e.chars.dataType = false := by rcases hdt with h | h <;> simp [h, trivialType]
  unfold write at hw
  have hchg' : (a.value.getD [] == val) = false := by simpa using hchg
  simp only [hacc, he, ha, hchg', bne_self_eq_false, Bool.false_eq_true, if_false] at hw
  generalize hst : (Verif.DM.setValue u.st.dm x.comp x.var .actual val ro).2 = dm' at hw
  unfold onChanged at hw
  -- the list of monitors of the variable, split at ours
  have hmem : x.mon ∈ monitorsOf { u.st with dm := dm' } x.comp x.var := by
    unfold monitorsOf
    exact List.mem_map.mpr ⟨x, List.mem_filter.mpr ⟨hx, by simp⟩, rfl⟩
  have hpw : (monitorsOf { u.st with dm := dm' } x.comp x.var).Pairwise (fun m n => m.id ≠ n.id) := by
    unfold monitorsOf
    rw [List.pairwise_map]
    refine List.Pairwise.imp_of_mem ?_ (hnd.filter _)
    intro p q hp1 hq1 hne hid
    exact hne (hids p (List.mem_filter.mp hp1).1 q (List.mem_filter.mp hq1).1 hid)
  obtain ⟨l1, l2, hl12⟩ := List.append_of_mem hmem
  rw [hl12] at hw hpw
  rw [List.pairwise_append, List.pairwise_cons] at hpw
  obtain ⟨_, ⟨hp2, _⟩, hp3⟩ := hpw
  obtain ⟨w1, hf1, hw⟩ := evaluateAll_append _ _ _ _ _ _ _ _ _ _ hw
  obtain ⟨a1, a2, a3, a4⟩ := evaluateAll_frame _ _ _ _ _ _ x.mon.id l1 _ w1 (by exact hmap)
    (fun m hm => hp3 m hm x.mon (List.mem_cons_self ..)) hf1
  · simp only [evaluateAll] at hw
    cases hev : evaluate w1 x.mon x.comp x.var e.chars.dataType (a.mutability == some .writeOnly) (a.value.getD []) val with
    | none => simp [hev] at hw
    | some w2 =>
      simp only [hev] at hw
      obtain ⟨f1, _, f3, _, _, f6, _, f8⟩ := evaluate_frame hev a1
      obtain ⟨b, hb1, hE⟩ := f8 hnp
      obtain ⟨g1, g2, g3, g4⟩ := evaluateAll_frame _ _ _ _ _ _ x.mon.id l2 w2 u1 f1 (fun m hm => (hp2 m hm).symm) hw
      have hbt : b = true := by
        unfold triggers at hb1
        simp only [htr, Bool.false_eq_true, if_false] at hb1
        obtain ⟨y, hy, hy2⟩ := hbey
        simp only [hy] at hb1
        rcases hy2 with ⟨h, hlt⟩ | ⟨h, hlt⟩ <;>
        · simp only [h] at hb1
          injection hb1 with hb1; subst hb1; simpa using hlt
      subst hbt
      have ha2 : entryOf w1.map x.mon.id = none := by rw [a2]; exact hent
      rw [ha2] at hE
      simp only [evaluateEntry, newTrigger, Option.map_none, Option.getD_none, if_true, Bool.false_and, Bool.false_eq_true,
        if_false, hndl.1] at hE
      injection hE with hE
      have hent1 : entryOf u1.map x.mon.id = some (newTrigger x.mon x.comp x.var (a.mutability == some .writeOnly) val) := by
        rw [g2]; exact hE.symm
      unfold process at hp
      simp only [hen, Bool.not_true, Bool.false_eq_true, if_false] at hp
      cases hmp : (if pa then updatePeriodics t u1.st u1.map else some u1.map) with
      | none => simp [hmp] at hp
      | some map =>
        have hmok : MapOk map ∧ entryOf map x.mon.id = some (newTrigger x.mon x.comp x.var (a.mutability == some .writeOnly) val) := by
          cases pa with
          | false => simp at hmp; subst hmp; exact ⟨g1, hent1⟩
          | true =>
            simp only [if_true] at hmp
            obtain ⟨r1, r2⟩ := updatePeriodics_frame g1 hmp
            refine ⟨r1, ?_⟩
            rw [r2 x.mon.id, hent1]
            · intro y hy hi
              obtain ⟨hy1, hy2⟩ := List.mem_filter.mp hy
              obtain ⟨z1, hz1, i1, j1⟩ := g4 y hy1
              obtain ⟨z2, hz2, i2, j2⟩ := f6 z1 hz1
              obtain ⟨z3, hz3, i3, j3⟩ := a4 z2 hz2
              have : z3 = x := hids z3 hz3 x hx (i3.trans (i2.trans (i1.trans hi)))
              subst this
              simp only [Bool.or_eq_true, beq_iff_eq] at hy2
              rw [← j1, ← j2, ← j3] at hy2
              exact hnp hy2
            · intro y hy; rw [hent1] at hy; injection hy with hy; subst hy; rfl
        simp only [hmp] at hp
        rw [Option.map_eq_some_iff] at hp
        obtain ⟨r, hr, rfl⟩ := hp
        obtain ⟨_, _, _, r4⟩ := finish_frame x.mon.id hmok.1 hr
        obtain ⟨n1, n2, e', evs, hT, _, k3⟩ := r4 _ hmok.2
        unfold turn at hT
        simp only [newTrigger, Bool.and_false, Bool.false_eq_true, if_false, hs, Bool.not_true, generate, hndl.1,
          deliver, hon, Bool.false_or, List.nil_append, List.isEmpty_cons] at hT
        injection hT with t1 t2 t3
        obtain ⟨ev, v1, v2, v3, v4, v6, v5⟩ : ∃ ev : Event, evs = [ev] ∧ ev.cleared = some false ∧ ev.comp = x.comp ∧
            ev.var = x.var ∧ ev.trigger = some .alerting ∧
            ev.value = if a.mutability = some .writeOnly then [] else val :=
          ⟨_, t2.symm, rfl, rfl, rfl, by rcases hty with h | h <;> simp [newEvent, h], by simp [newEvent]⟩
        refine ⟨ev, ?_, v2, v3, v4, v6, v5⟩
        rw [List.filter_append, k3, v1]
        exact List.getLast?_concat

/-- Non-vacuity of `C83_write`. -/
example : (acts exAlarm [w "70", .proc exOnline true ⟨0, 0⟩]).map (fun u => u.sent.map (fun e => (e.monId, e.value, e.cleared))) =
    some [(1, "70".toList, some false)] := by decide +kernel

/-- C83: a write sends nothing itself and concerns no monitor of another variable; a write that is refused changes
nothing, and one of the value that is already there concerns no monitor at all. -/
theorem C83_other (u u' : U) (hmap : MapOk u.map) (c : Comp) (v : Vbl) (val : Str) (ro : Bool)
    (hw : write u c v val ro = some u') :
    u'.sent = u.sent ∧
    (∀ i, (∀ x ∈ u.st.mem, x.comp = c → x.var = v → x.mon.id ≠ i) → entryOf u'.map i = entryOf u.map i) ∧
    ((Verif.DM.setValue u.st.dm c v .actual val ro).1 ≠ .accepted → u' = u) ∧
    (∀ e a, Verif.DM.find u.st.dm c v = some e → Verif.DM.attrOf e .actual = some a → a.value = some val →
      u'.map = u.map ∧ u'.st.mem = u.st.mem) := by
  unfold write at hw
  by_cases hacc : (Verif.DM.setValue u.st.dm c v .actual val ro).1 = .accepted
  · simp only [hacc, bne_self_eq_false, Bool.false_eq_true, if_false] at hw
    cases he : Verif.DM.find u.st.dm c v with
    | none =>
      simp only [he] at hw; injection hw with hw; subst hw
      exact ⟨rfl, fun _ _ => rfl, fun h => absurd hacc h, by simp⟩
    | some e =>
      simp only [he] at hw
      cases ha : Verif.DM.attrOf e .actual with
      | none =>
        simp only [ha] at hw; injection hw with hw; subst hw
        refine ⟨rfl, fun _ _ => rfl, fun h => absurd hacc h, ?_⟩
        intro e1 a1 h1 h2; injection h1 with h1; subst h1; rw [ha] at h2; simp at h2
      | some a =>
        simp only [ha] at hw
        by_cases hv : a.value.getD [] = val
        · simp only [hv, beq_self_eq_true, if_true] at hw
          injection hw with hw; subst hw
          exact ⟨rfl, fun _ _ => rfl, fun h => absurd hacc h, fun _ _ _ _ _ => ⟨rfl, rfl⟩⟩
        · have hv' : (a.value.getD [] == val) = false := by simpa using hv
          simp only [hv', Bool.false_eq_true, if_false] at hw
          unfold onChanged at hw
          refine ⟨?_, ?_, fun h => absurd hacc h, ?_⟩
          · have := evaluateAll_sent _ _ _ _ _ _ _ _ _ (by exact hmap) hw
            exact this
          · intro i hi
            refine (evaluateAll_frame _ _ _ _ _ _ i _ _ u' (by exact hmap) ?_ hw).2.1
            intro m hm
            obtain ⟨x, hx, rfl⟩ := List.mem_map.mp hm
            obtain ⟨hx1, hx2⟩ := List.mem_filter.mp hx
            simp only [Bool.and_eq_true, beq_iff_eq] at hx2
            exact hi x hx1 hx2.1 hx2.2
          · intro e1 a1 h1 h2 h3
            injection h1 with h1; subst h1; rw [ha] at h2; injection h2 with h2; subst h2
            exact absurd (by rw [h3]; rfl) hv
  · have : ((Verif.DM.setValue u.st.dm c v .actual val ro).1 != .accepted) = true := by simpa using hacc
    simp only [this, if_true] at hw
    injection hw with hw; subst hw
    exact ⟨rfl, fun _ _ => rfl, fun _ => rfl, fun _ _ _ _ _ => ⟨rfl, rfl⟩⟩

/-- Non-vacuity of `C83_other`: a refused write, and one of a new value that triggers a monitor. -/
example : (acts exAlarm [w "abc"]) = some exAlarm ∧
    (acts exAlarm [w "70"]).map (fun u => u.map.length) = some 1 ∧
    (acts exAlarm [w "70", w "70"]).map (fun u => u.map.length) = some 1 := by decide +kernel

/-- C85: the first event of a new monitor of type Periodic is reported more than one interval after its
installation. -/
theorem C85_first (dm : Verif.DM.DM) (t0 : Clock) (x : Item) (ht : x.mon.type = .periodic) {e : Entry}
    (he : newPeriodic t0 x = some e) (s : Nat) (hs : seconds x.mon.value = s) (ts : List Clock)
    (hsorted : (t0.steady :: ts.map (·.steady)).Pairwise (· ≤ ·)) (ds : List Clock)
    (h : eventTimes dm e ts = some ds) : ∀ d ∈ ds, t0.steady + s * 1000 < d.steady := by
  simp only [newPeriodic, ht, beq_self_eq_true, if_true, Option.some.injEq] at he
  subst he
  obtain ⟨_, h2, _⟩ := C85_periodic dm _ rfl ht s hs ts hsorted ds h
  intro d hd
  exact (List.pairwise_cons.mp h2).1 _ (List.mem_map.mpr ⟨d, hd, rfl⟩)

/-- Non-vacuity of `C85_first`: an interval of 60 seconds, installed after 1000 seconds. -/
example : let x : Item := ⟨exInterval.comp, exInterval.var, ⟨1, 3, false, .periodic, 60, .custom, none⟩⟩
    ((newPeriodic ⟨1000000, 0⟩ x).bind (fun e => eventTimes exDecimal.dm e [⟨1025000, 0⟩, ⟨1050000, 0⟩, ⟨1075000, 0⟩])).map
      (fun l => l.map (·.steady)) = some [1075000] := by
  decide +kernel

end Verif.Mon
