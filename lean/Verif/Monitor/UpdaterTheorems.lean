import Verif.Monitor.UpdaterLemmas
import Verif.Monitor.StoreTheorems
/-
Properties of monitoring at run time: processing ends (C82), alerts (C83), delta monitors (C84), periodic
monitors (C85), event ids (C86), and what events disclose (C37).
-/
set_option linter.constructorNameAsVariable false

namespace Verif.Mon

open Verif.DM (Str Comp Vbl DataType Chars exInterval exDM)

/-! ### C82: processing ends -/

/-- The loop has ended. -/
def Ended (l : Loop) : Prop := l.ahead = [] ∨ l.thrown = true

/-- The loop begins. -/
def start (u : U) (map : List Entry) : Loop := ⟨[], map, u.uid, [], false⟩

theorem generate_trigger (t : Clock) (dm : Verif.DM.DM) (uid : Nat) (e : Entry) (h : e.periodic = false) :
    generate t dm uid e ≠ none := by
  unfold generate
  simp only [h, Bool.false_eq_true, if_false]
  split <;> simp

/-- With an entry ahead at which the iterator stays, and no exception before it, the loop never ends. -/
theorem iterations_stuck {k : Conf} {pa : Bool} {t : Clock} {dm : Verif.DM.DM} (bad : Entry → Prop)
    (hbad : ∀ uid e, bad e → ∃ e', turn k pa t dm uid e = .stays e' ∧ bad e')
    (hgood : ∀ uid e, ¬ bad e → turn k pa t dm uid e ≠ .throws) (n : Nat) :
    ∀ l : Loop, l.thrown = false → (∃ e ∈ l.ahead, bad e) → ¬ Ended (iterations k pa t dm n l) := by
  induction n with
  | zero =>
    rintro l ht ⟨e, he, _⟩ (h | h)
    · simp only [iterations] at h; rw [h] at he; simp at he
    · simp only [iterations] at h; rw [h] at ht; simp at ht
  | succ n ih =>
    rintro l ht ⟨e, he, hb⟩
    simp only [iterations]
    cases ha : l.ahead with
    | nil => rw [ha] at he; simp at he
    | cons x r =>
      rw [ha] at he
      by_cases hx : bad x
      · obtain ⟨x', h1, h2⟩ := hbad l.uid x hx
        apply ih
        · simp [iterate, ht, ha, h1]
        · exact ⟨x', by simp [iterate, ht, ha, h1], h2⟩
      · have her : e ∈ r := by
          rcases List.mem_cons.mp he with rfl | h
          · exact absurd hb hx
          · exact h
        cases hT : turn k pa t dm l.uid x with
        | stays x' =>
          apply ih
          · simp [iterate, ht, ha, hT]
          · exact ⟨e, by simp [iterate, ht, ha, hT, her], hb⟩
        | throws => exact absurd hT (hgood l.uid x hx)
        | moves x' evs uid' =>
          apply ih
          · simp [iterate, ht, ha, hT]
          · exact ⟨e, by simp [iterate, ht, ha, hT, her], hb⟩

/-- C82 is violated: once the updater knows a periodic monitor, the processing of triggered monitors, which
follows every SetVariables request, never ends: the iterator is not advanced past it. -/
theorem C82_violated (k : Conf) (t : Clock) (u : U) (e : Entry) (he : e ∈ u.map) (hp : e.periodic = true) (n : Nat) :
    ¬ Ended (iterations k false t u.st.dm n (start u u.map)) := by
  apply iterations_stuck (fun e => e.periodic = true)
  · intro uid x hx; exact ⟨x, by simp [turn, hx], hx⟩
  · intro uid x hx
    have hx' : x.periodic = false := by simpa using hx
    unfold turn
    simp only [hx', Bool.and_false, Bool.false_eq_true, if_false]
    split
    · simp
    · cases hg : generate t u.st.dm uid x with
      | none => exact absurd hg (generate_trigger t u.st.dm uid x hx')
      | some y => simp
  · rfl
  · exact ⟨e, he, hp⟩

/-- C82 is violated: a periodic monitor that is not active (another monitoring base, or a severity above the
level) stops the timer's processing for ever. -/
theorem C82_inactive_violated (k : Conf) (t : Clock) (u : U) (e : Entry) (he : e ∈ u.map) (hp : e.periodic = true)
    (hs : shouldProcess k e.mon = false)
    (hother : ∀ x ∈ u.map, x.periodic = true → x.mon = e.mon) (n : Nat) :
    ¬ Ended (iterations k true t u.st.dm n (start u u.map)) := by
  have key : ∀ n (l : Loop), l.thrown = false → (∃ e ∈ l.ahead, e.periodic = true) →
      (∀ x ∈ l.ahead, x.periodic = true → shouldProcess k x.mon = false) →
      ¬ Ended (iterations k true t u.st.dm n l) := by
    intro n
    induction n with
    | zero =>
      rintro l ht ⟨e, he, _⟩ _ (h | h)
      · simp only [iterations] at h; rw [h] at he; simp at he
      · simp only [iterations] at h; rw [h] at ht; simp at ht
    | succ n ih =>
      rintro l ht ⟨e, he, hb⟩ hall
      simp only [iterations]
      cases ha : l.ahead with
      | nil => rw [ha] at he; simp at he
      | cons x r =>
        rw [ha] at he hall
        by_cases hx : x.periodic = true
        · have hsx := hall x (List.mem_cons_self ..) hx
          have hT : turn k true t u.st.dm l.uid x = .stays { x with events := [] } := by simp [turn, hsx, hx]
          apply ih
          · simp [iterate, ht, ha, hT]
          · exact ⟨{ x with events := [] }, by simp [iterate, ht, ha, hT], hx⟩
          · intro y hy hyp
            have hy' : y = { x with events := [] } ∨ y ∈ r := by simpa [iterate, ht, ha, hT] using hy
            rcases hy' with rfl | hy'
            · exact hsx
            · exact hall y (List.mem_cons_of_mem _ hy') hyp
        · have hx' : x.periodic = false := by simpa using hx
          have her : e ∈ r := by
            rcases List.mem_cons.mp he with rfl | h
            · exact absurd hb hx
            · exact h
          cases hT : turn k true t u.st.dm l.uid x with
          | stays x' =>
            exfalso
            unfold turn at hT
            simp only [hx', Bool.and_false, Bool.false_eq_true, if_false] at hT
            split at hT
            · simp at hT
            · cases hg : generate t u.st.dm l.uid x with
              | none => simp [hg] at hT
              | some y => simp [hg] at hT
          | throws =>
            exfalso
            unfold turn at hT
            simp only [hx', Bool.and_false, Bool.false_eq_true, if_false] at hT
            split at hT
            · simp at hT
            · cases hg : generate t u.st.dm l.uid x with
              | none => exact absurd hg (generate_trigger t u.st.dm l.uid x hx')
              | some y => simp [hg] at hT
          | moves x' evs uid' =>
            apply ih
            · simp [iterate, ht, ha, hT]
            · exact ⟨e, by simp [iterate, ht, ha, hT, her], hb⟩
            · intro y hy hyp
              have hy' : y ∈ r := by simpa [iterate, ht, ha, hT] using hy
              exact hall y (List.mem_cons_of_mem _ hy') hyp
  apply key n _ rfl ⟨e, he, hp⟩
  intro x hx hxp
  rw [hother x hx hxp]; exact hs

/-- C82: the processing ends after one turn per entry, without exception.  Partial: if periodic monitors are
allowed and processed, and those due have a value and an interval of at least a second; see `C82_violated`. -/
theorem C82_partial (k : Conf) (pa : Bool) (t : Clock) (u : U) (map : List Entry)
    (h : ∀ e ∈ map, e.periodic = true → pa = true ∧ shouldProcess k e.mon = true ∧
      (e.mon.type = .periodic ∨ e.mon.type = .periodicAligned) ∧ 1 ≤ e.mon.value ∧
      ∃ val, Verif.DM.requestValue u.st.dm e.comp e.var .actual true = (.accepted, some val)) :
    ∃ r, finish k pa t u.st.dm u.uid map = some r ∧
      iterations k pa t u.st.dm map.length (start u map) = ⟨r.1, [], r.2.1, r.2.2, false⟩ := by
  have key : ∀ (map : List Entry) (l : Loop), l.thrown = false → l.ahead = map →
      (∀ e ∈ map, e.periodic = true → pa = true ∧ shouldProcess k e.mon = true ∧
        (e.mon.type = .periodic ∨ e.mon.type = .periodicAligned) ∧ 1 ≤ e.mon.value ∧
        ∃ val, Verif.DM.requestValue u.st.dm e.comp e.var .actual true = (.accepted, some val)) →
      ∃ r, finish k pa t u.st.dm l.uid map = some r ∧
        iterations k pa t u.st.dm map.length l = ⟨l.passed ++ r.1, [], r.2.1, l.sent ++ r.2.2, false⟩ := by
    intro map
    induction map with
    | nil =>
      intro l ht ha _
      refine ⟨_, rfl, ?_⟩
      cases l
      simp_all [iterations]
    | cons e rest ih =>
      intro l ht ha hall
      have hmove : ∃ e' evs uid', turn k pa t u.st.dm l.uid e = .moves e' evs uid' := by
        cases hp : e.periodic with
        | false =>
          unfold turn
          simp only [hp, Bool.and_false, Bool.false_eq_true, if_false]
          split
          · exact ⟨_, _, _, rfl⟩
          · cases hg : generate t u.st.dm l.uid e with
            | none => exact absurd hg (generate_trigger t u.st.dm l.uid e hp)
            | some y => exact ⟨_, _, _, rfl⟩
        | true =>
          obtain ⟨h1, h2, h3, h4, val, h5⟩ := hall e (List.mem_cons_self ..) hp
          have hsec : 1 ≤ seconds e.mon.value := by
            unfold seconds
            rw [if_neg (not_lt.mpr (le_trans (by decide +kernel) h4))]
            exact Rat.le_floor_iff.mpr (by simpa using h4)
          have hdue : due t e ≠ none := by
            unfold due
            rcases h3 with h3 | h3
            · simp only [h3]; split <;> simp
            · simp only [h3]
              split
              · have : (seconds e.mon.value).toNat ≠ 0 := by omega
                simp [alignedPoint, this]
              · simp
          have hg : ∃ y, generate t u.st.dm l.uid e = some y := by
            unfold generate
            rw [if_pos hp]
            cases hd : due t e with
            | none => exact absurd hd hdue
            | some x =>
              obtain ⟨b, e1⟩ := x
              cases b with
              | false => exact ⟨_, rfl⟩
              | true => simp only [h5]; exact ⟨_, rfl⟩
          obtain ⟨y, hy⟩ := hg
          exact ⟨if shouldRemove (deliver k y.1).1 then none else some (deliver k y.1).1, (deliver k y.1).2, y.2,
            by simp [turn, h1, h2, hy]⟩
      obtain ⟨e', evs, uid', hT⟩ := hmove
      have hit : iterate k pa t u.st.dm l = ⟨l.passed ++ e'.toList, rest, uid', l.sent ++ evs, false⟩ := by
        simp [iterate, ht, ha, hT]
      obtain ⟨r, r1, r2⟩ := ih ⟨l.passed ++ e'.toList, rest, uid', l.sent ++ evs, false⟩ rfl rfl
        (fun x hx => hall x (List.mem_cons_of_mem _ hx))
      refine ⟨(e'.toList ++ r.1, r.2.1, evs ++ r.2.2), by simp only [finish, hT]; rw [r1]; rfl, ?_⟩
      simp only [List.length_cons, iterations, hit, r2, List.append_assoc]
  obtain ⟨r, r1, r2⟩ := key map (start u map) rfl rfl h
  exact ⟨r, r1, by simpa [start] using r2⟩

/-- An online station that processes everything. -/
def exOnline : Conf := ⟨true, false, 9, 9, .all⟩

/-- A station with a periodic monitor of the heartbeat interval. -/
def exPeriodic : U := ⟨step ex0 (.set exQ), [], 0, []⟩

/-- Non-vacuity of `C82_violated` and `C82_partial`: after the first timer run the updater knows the periodic
monitor; after a minute the timer makes it send an event. -/
example : ∃ u1 u2, process exOnline true ⟨1000, 1000⟩ exPeriodic = some u1 ∧ (∃ e ∈ u1.map, e.periodic = true) ∧
    process exOnline true ⟨61001, 61001⟩ u1 = some u2 ∧ u2.sent.map (·.value) = ["60".toList] ∧
    process exOnline false ⟨61001, 61001⟩ u1 = none := by
  refine ⟨(process exOnline true ⟨1000, 1000⟩ exPeriodic).get (by decide +kernel),
    (process exOnline true ⟨61001, 61001⟩ ((process exOnline true ⟨1000, 1000⟩ exPeriodic).get (by decide +kernel))).get
      (by decide +kernel), by simp, by decide +kernel, by simp, by decide +kernel, by decide +kernel⟩

/-! ### C83: alerts -/

/-- What happens to the updater: a monitor is evaluated because its variable changed, or the monitors are
processed. -/
inductive HOp
  | ev : Meta → Comp → Vbl → DataType → Bool → Str → Str → HOp
  | proc : Conf → Bool → Clock → HOp

/-- One of these; `none` if an exception leaves it or it does not end. -/
def hstep (u : U) : HOp → Option U
  | .ev m c v dt wo old new => evaluate u m c v dt wo old new
  | .proc k pa t => process k pa t u

/-- A history. -/
def hrun : U → List HOp → Option U
  | u, [] => some u
  | u, op :: r => match hstep u op with
    | none => none
    | some w => hrun w r

/-- The value is beyond the threshold of the monitor. -/
def Beyond (m : Meta) (dt : DataType) (v : Str) : Prop :=
  ∃ x, number dt v = some x ∧ ((m.type = .upper ∧ m.value < x) ∨ (m.type = .lower ∧ x < m.value))

/-- The last value of the variable that the monitor was told of is beyond the threshold. -/
def InAlert (i : Nat) (ops : List HOp) : Prop :=
  ∃ pre post m c v dt wo old new, ops = pre ++ .ev m c v dt wo old new :: post ∧ m.id = i ∧ Beyond m dt new ∧
    ∀ m' c' v' dt' wo' old' new', .ev m' c' v' dt' wo' old' new' ∈ post → m'.id ≠ i

/-- The last event of a monitor that the CSMS was sent. -/
def lastSent (i : Nat) (u : U) : Option Event := (u.sent.filter (fun ev => ev.monId == i)).getLast?

/-- The CSMS does not think that there is an alert. -/
def Clear (i : Nat) (u : U) : Prop := ∀ ev, lastSent i u = some ev → ev.cleared = some true

/-- The last event says `cleared = b`. -/
def Told (i : Nat) (u : U) (b : Bool) : Prop := ∃ ev, lastSent i u = some ev ∧ ev.cleared = some b

/-- The state of a trigger entry. -/
structure EntryOk (m : Meta) (u : U) (a : Prop) (e : Entry) : Prop where
  trig : e.periodic = false
  mon : e.mon = m
  alert : a ↔ e.cleared = false
  fresh : e.sentTriggered = false → Clear m.id u ∧ e.sent = false
  sentOk : e.sent = true → e.generated = true ∧ e.events = [] ∧ Told m.id u e.cleared
  gen : e.generated = true → e.sent = false → ∃ ev, e.events.getLast? = some ev ∧ ev.cleared = some e.cleared

/-- The invariant of a threshold monitor. -/
structure AlertOk (m : Meta) (u : U) (a : Prop) : Prop where
  map : MapOk u.map
  mem : ∀ x ∈ u.st.mem, x.mon.id = m.id → x.mon.type = m.type
  absent : entryOf u.map m.id = none → ¬ a ∧ Clear m.id u
  present : ∀ e, entryOf u.map m.id = some e → EntryOk m u a e

theorem triggers_beyond {dt : DataType} {m : Meta} {old new : Str} {t : Bool} (hm : m.type = .upper ∨ m.type = .lower)
    (hd : trivialType dt = false) (h : triggers dt m old new = some t) : t = true ↔ Beyond m dt new := by
  unfold triggers at h
  rw [if_neg (by simp [hd])] at h
  cases hn : number dt new with
  | none => simp [hn] at h
  | some x =>
    simp only [hn] at h
    unfold Beyond
    rcases hm with hm | hm
    · simp only [hm] at h; injection h with h; subst h
      simp [hm, hn]
    · simp only [hm] at h; injection h with h; subst h
      simp [hm, hn]

/-- An evaluation of the monitor. -/
theorem AlertOk.ev {m : Meta} (hm : m.type = .upper ∨ m.type = .lower) {u u' : U} {a : Prop} (h : AlertOk m u a)
    {c : Comp} {v : Vbl} {dt : DataType} {wo : Bool} {old new : Str} (hd : trivialType dt = false)
    (he : evaluate u m c v dt wo old new = some u') : AlertOk m u' (Beyond m dt new) := by
  obtain ⟨f1, _, f3, _, _, f6, _, f8⟩ := evaluate_frame he h.map
  have hnp : ¬ (m.type = .periodic ∨ m.type = .periodicAligned) := by rcases hm with hm | hm <;> simp [hm]
  obtain ⟨t, ht, hE⟩ := f8 hnp
  have hb := triggers_beyond hm hd ht
  have hnd : m.type ≠ .delta := by rcases hm with hm | hm <;> simp [hm]
  have hnd' : (m.type != .delta) = true := by simpa using hnd
  have hnd2 : (m.type == .delta) = false := by simpa using hnd
  have hls : lastSent m.id u' = lastSent m.id u := by unfold lastSent; rw [f3]
  have hclear : Clear m.id u → Clear m.id u' := by unfold Clear; rw [hls]; exact id
  have htold : ∀ b, Told m.id u b → Told m.id u' b := by intro b; unfold Told; rw [hls]; exact id
  refine ⟨f1, ?_, ?_, ?_⟩
  · intro x hx hi
    obtain ⟨y, hy, h1, h2⟩ := f6 x hx
    rw [← h2]; exact h.mem y hy (h1.trans hi)
  · intro hn
    rw [hn] at hE
    cases ho : entryOf u.map m.id with
    | some e =>
      rw [ho] at hE
      obtain ⟨e', he', _⟩ := (evaluateEntry_frame hE).1 e rfl
      simp at he'
    | none =>
      rw [ho] at hE
      cases t with
      | true => simp [evaluateEntry, newTrigger, hnd2] at hE
      | false => exact ⟨fun hB => absurd (hb.mpr hB) (by simp), hclear (h.absent ho).2⟩
  · intro e' he'
    rw [he'] at hE
    cases ho : entryOf u.map m.id with
    | none =>
      rw [ho] at hE
      cases t with
      | false => simp [evaluateEntry] at hE
      | true =>
        simp [evaluateEntry, newTrigger, hnd2] at hE
        subst hE
        exact ⟨rfl, rfl, by simpa using hb.mp rfl, fun _ => ⟨hclear (h.absent ho).2, rfl⟩, by simp, by simp⟩
    | some e =>
      have ok := h.present e ho
      rw [ho] at hE
      -- the entry with its state changed, or not
      have keep : ∀ b : Bool, (Beyond m dt new ↔ b = false) → e.cleared = b → e' = { e with current := new } → EntryOk m u' (Beyond m dt new) e' := by
        rintro b hbb hc rfl
        exact ⟨ok.trig, ok.mon, by rw [hbb, ← hc], fun hf => ⟨hclear (ok.fresh hf).1, (ok.fresh hf).2⟩,
          fun hs => ⟨(ok.sentOk hs).1, (ok.sentOk hs).2.1, htold _ (ok.sentOk hs).2.2⟩, ok.gen⟩
      have flip : ∀ b : Bool, (Beyond m dt new ↔ b = false) →
          e' = { e with current := new, cleared := b, sent := false, generated := false } → EntryOk m u' (Beyond m dt new) e' := by
        rintro b hbb rfl
        exact ⟨ok.trig, ok.mon, hbb, fun hf => ⟨hclear (ok.fresh hf).1, rfl⟩, by simp, by simp⟩
      cases t with
      | true =>
        have hB : Beyond m dt new ↔ false = false := by simp [hb.mp rfl]
        cases hc : e.cleared with
        | false =>
          simp [evaluateEntry, hc, hnd2] at hE
          exact keep false hB hc (hE.symm ▸ by cases e; simp_all)
        | true =>
          simp [evaluateEntry, hc, hnd', setClear, ok.trig] at hE
          exact flip false hB (by rw [← hE, ok.trig])
      | false =>
        have hB : Beyond m dt new ↔ true = false := by
          constructor
          · intro hx; exact absurd (hb.mpr hx) (by simp)
          · intro hx; simp at hx
        cases hc : e.cleared with
        | true =>
          simp [evaluateEntry, hc, hnd'] at hE
          exact keep true hB hc (hE.symm ▸ by cases e; simp_all)
        | false =>
          simp [evaluateEntry, hc, hnd', setClear, ok.trig] at hE
          exact flip true hB (by rw [← hE, ok.trig])

/-- An evaluation of another monitor. -/
theorem AlertOk.other {m m' : Meta} (hne : m'.id ≠ m.id) {u u' : U} {a : Prop} (h : AlertOk m u a)
    {c : Comp} {v : Vbl} {dt : DataType} {wo : Bool} {old new : Str}
    (he : evaluate u m' c v dt wo old new = some u') : AlertOk m u' a := by
  obtain ⟨f1, f2, f3, _, _, f6, _, _⟩ := evaluate_frame he h.map
  have hls : lastSent m.id u' = lastSent m.id u := by unfold lastSent; rw [f3]
  have hent := f2 m.id hne.symm
  refine ⟨f1, ?_, ?_, ?_⟩
  · intro x hx hi
    obtain ⟨y, hy, h1, h2⟩ := f6 x hx
    rw [← h2]; exact h.mem y hy (h1.trans hi)
  · intro hn; rw [hent] at hn
    obtain ⟨h1, h2⟩ := h.absent hn
    exact ⟨h1, by unfold Clear; rw [hls]; exact h2⟩
  · intro e hes; rw [hent] at hes
    have ok := h.present e hes
    exact ⟨ok.trig, ok.mon, ok.alert, by unfold Clear; rw [hls]; exact ok.fresh, by unfold Told; rw [hls]; exact ok.sentOk, ok.gen⟩

/-- What a turn of the loop does to the entry of a threshold monitor. -/
theorem EntryOk.turn {m : Meta} (hm : m.type = .upper ∨ m.type = .lower) {u u' : U} {a : Prop} {e : Entry}
    (ok : EntryOk m u a e) {k : Conf} {pa : Bool} {t : Clock} {dm : Verif.DM.DM} {u1 u2 : Nat} {e' : Option Entry}
    {evs : List Event} (hs : shouldProcess k m = true) (hT : Mon.turn k pa t dm u1 e = .moves e' evs u2)
    (hsent : u'.sent.filter (fun ev => ev.monId == m.id) = u.sent.filter (fun ev => ev.monId == m.id) ++ evs) :
    (e' = none → ¬ a ∧ Clear m.id u') ∧
    (∀ x, e' = some x → EntryOk m u' a x ∧ (k.offline = false → x.sent = true)) := by
  have hnd2 : (m.type == .delta) = false := by rcases hm with hm | hm <;> simp [hm]
  -- the entry after `generate`
  obtain ⟨e1, un, hg, g⟩ : ∃ e1 un, generate t dm u1 e = some (e1, un) ∧
      (e1.periodic = false ∧ e1.mon = m ∧ e1.cleared = e.cleared ∧ e1.sentTriggered = e.sentTriggered ∧
        e1.sent = e.sent ∧ e1.generated = true ∧ (e1.sent = true → e1.events = []) ∧
        (e1.sent = false → ∃ ev, e1.events.getLast? = some ev ∧ ev.cleared = some e1.cleared)) := by
    unfold generate
    simp only [ok.trig, Bool.false_eq_true, if_false]
    cases hgen : e.generated with
    | true =>
      simp only [if_true]
      exact ⟨_, _, rfl, ok.trig, ok.mon, rfl, rfl, rfl, hgen, fun h => (ok.sentOk h).2.1, ok.gen hgen⟩
    | false =>
      have hns : e.sent = false := by
        cases hx : e.sent with
        | false => rfl
        | true => have := (ok.sentOk hx).1; rw [hgen] at this; simp at this
      simp only [Bool.false_eq_true, if_false]
      refine ⟨_, _, rfl, rfl, ok.mon, rfl, rfl, rfl, rfl, ?_, ?_⟩
      · intro hx; simp only [hns] at hx; simp at hx
      · intro _
        exact ⟨newEvent u1 t (if e.writeOnly then [] else e.current) e
          (if e.mon.type == .delta then none else some e.cleared), List.getLast?_concat, by simp only [newEvent, ok.mon, hnd2]; rfl⟩
  obtain ⟨g1, g2, g3, g4, g5, g6, g7, g8⟩ := g
  unfold Mon.turn at hT
  simp only [ok.trig, Bool.and_false, Bool.false_eq_true, if_false, ok.mon, hs, Bool.not_true, hg] at hT
  injection hT with t1 t2 t3
  have hal : a ↔ e1.cleared = false := by rw [g3]; exact ok.alert
  by_cases hq : (k.offline || e1.events.isEmpty) = true
  · have hd : deliver k e1 = (e1, []) := by simp [deliver, hq]
    rw [hd] at t1 t2
    simp only at t1 t2
    have hls : lastSent m.id u' = lastSent m.id u := by unfold lastSent; rw [hsent, ← t2, List.append_nil]
    have hfresh : e1.sentTriggered = false → Clear m.id u' ∧ e1.sent = false := by
      rw [g4, g5]; unfold Clear; rw [hls]; exact ok.fresh
    have htold : e1.sent = true → Told m.id u' e1.cleared := by
      rw [g5, g3]; unfold Told; rw [hls]; exact fun h => (ok.sentOk h).2.2
    refine ⟨?_, ?_⟩
    · intro hn
      have hrem : shouldRemove e1 = true := by
        cases hx : shouldRemove e1 with
        | true => rfl
        | false => simp [hx, hn] at t1
      simp only [shouldRemove, g1, Bool.false_eq_true, if_false, Bool.or_eq_true, Bool.and_eq_true, Bool.not_eq_true'] at hrem
      rcases hrem with ⟨h1, h2⟩ | ⟨⟨_, h2⟩, h3⟩
      · exact ⟨by rw [hal, h2]; simp, (hfresh h1).1⟩
      · refine ⟨by rw [hal, h2]; simp, ?_⟩
        obtain ⟨ev, w1, w2⟩ := htold h3
        intro ev' hev'
        rw [w1] at hev'; injection hev' with hev'; subst hev'; rw [w2, h2]
    · rintro x rfl
      split at t1
      · simp at t1
      · injection t1 with t1; subst t1
        refine ⟨⟨g1, g2, hal, hfresh, fun h => ⟨g6, g7 h, htold h⟩, fun _ => g8⟩, ?_⟩
        intro hoff
        simp only [hoff, Bool.false_or, List.isEmpty_iff] at hq
        cases hx : e1.sent with
        | true => rfl
        | false => obtain ⟨ev, w1, _⟩ := g8 hx; rw [hq] at w1; simp at w1
  · simp only [Bool.or_eq_true, not_or, List.isEmpty_iff] at hq
    have hd : deliver k e1 = ({ e1 with events := [], sent := true, sentTriggered := e1.sentTriggered || !e1.cleared }, e1.events) := by
      simp [deliver, hq.1, hq.2, g1]
    rw [hd] at t1 t2
    simp only at t1 t2
    have hns : e1.sent = false := by
      cases hx : e1.sent with
      | false => rfl
      | true => exact absurd (g7 hx) hq.2
    obtain ⟨ev, w1, w2⟩ := g8 hns
    have hls : lastSent m.id u' = some ev := by
      unfold lastSent; rw [hsent, ← t2, List.getLast?_append, w1]; rfl
    have htold : Told m.id u' e1.cleared := ⟨ev, hls, w2⟩
    refine ⟨?_, ?_⟩
    · intro hn
      have hc : e1.cleared = true := by
        cases hx : e1.cleared with
        | true => rfl
        | false => simp [shouldRemove, hx, hn] at t1
      refine ⟨by rw [hal, hc]; simp, ?_⟩
      intro ev' hev'
      rw [hls] at hev'; injection hev' with hev'; subst hev'; rw [w2, hc]
    · rintro x rfl
      split at t1
      · simp at t1
      · rename_i hnr
        injection t1 with t1; subst t1
        refine ⟨⟨g1, g2, hal, ?_, fun _ => ⟨g6, rfl, htold⟩, by simp⟩, fun _ => rfl⟩
        intro hf
        simp only [Bool.or_eq_false_iff, Bool.not_eq_false'] at hf
        exfalso; apply hnr
        simp [shouldRemove, g1, hf.1, hf.2]

/-- Processing. -/
theorem AlertOk.proc {m : Meta} (hm : m.type = .upper ∨ m.type = .lower) {u u' : U} {a : Prop} (h : AlertOk m u a)
    {k : Conf} {pa : Bool} {t : Clock} (hs : shouldProcess k m = true) (hp : process k pa t u = some u') :
    AlertOk m u' a ∧ (k.enabled = true → k.offline = false → ∀ e, entryOf u'.map m.id = some e → e.sent = true) := by
  unfold process at hp
  cases hen : k.enabled with
  | false =>
    simp only [hen, Bool.not_false, if_true] at hp
    injection hp with hp; subst hp
    exact ⟨h, by simp⟩
  | true =>
    simp only [hen, Bool.not_true, Bool.false_eq_true, if_false] at hp
    -- the map after the update of periodic monitors
    have hnp : ¬ (m.type = .periodic ∨ m.type = .periodicAligned) := by rcases hm with hm | hm <;> simp [hm]
    have hupd : ∀ map, (if pa then updatePeriodics t u.st u.map else some u.map) = some map →
        MapOk map ∧ entryOf map m.id = entryOf u.map m.id := by
      intro map hmap
      cases pa with
      | false => simp at hmap; subst hmap; exact ⟨h.map, rfl⟩
      | true =>
        simp only [if_true] at hmap
        obtain ⟨p1, p2⟩ := updatePeriodics_frame h.map hmap
        refine ⟨p1, p2 m.id ?_ ?_⟩
        · intro x hx hi
          obtain ⟨hx1, hx2⟩ := List.mem_filter.mp hx
          simp only [Bool.or_eq_true, beq_iff_eq] at hx2
          rw [h.mem x hx1 hi] at hx2
          exact hnp hx2
        · intro e he; exact (h.present e he).trig
    cases hmap : (if pa then updatePeriodics t u.st u.map else some u.map) with
    | none => simp [hmap] at hp
    | some map =>
      obtain ⟨mok, mentry⟩ := hupd map hmap
      simp only [hmap] at hp
      rw [Option.map_eq_some_iff] at hp
      obtain ⟨r, hr, rfl⟩ := hp
      obtain ⟨r1, r2, r3, r4⟩ := finish_frame m.id mok hr
      have hnone : entryOf u.map m.id = none → entryOf r.1 m.id = none ∧
          Clear m.id { u with map := r.1, uid := r.2.1, sent := u.sent ++ r.2.2 } := by
        intro ho
        obtain ⟨k1, k2⟩ := r3 (mentry.trans ho)
        refine ⟨k1, ?_⟩
        simp only [Clear, lastSent, List.filter_append, k2, List.append_nil]
        exact (h.absent ho).2
      have hsome : ∀ e, entryOf u.map m.id = some e →
          (entryOf r.1 m.id = none → ¬ a ∧ Clear m.id { u with map := r.1, uid := r.2.1, sent := u.sent ++ r.2.2 }) ∧
          (∀ x, entryOf r.1 m.id = some x → EntryOk m { u with map := r.1, uid := r.2.1, sent := u.sent ++ r.2.2 } a x ∧
            (k.offline = false → x.sent = true)) := by
        intro e ho
        obtain ⟨u1, u2, e', evs, hT, k2, k3⟩ := r4 e (mentry.trans ho)
        rw [k2]
        exact (h.present e ho).turn hm hs hT (by simp [List.filter_append, k3])
      refine ⟨⟨r1, h.mem, ?_, ?_⟩, ?_⟩
      · intro hn
        cases ho : entryOf u.map m.id with
        | none => exact ⟨(h.absent ho).1, (hnone ho).2⟩
        | some e => exact (hsome e ho).1 hn
      · intro x hx
        cases ho : entryOf u.map m.id with
        | none => simp only at hx; rw [(hnone ho).1] at hx; simp at hx
        | some e => exact ((hsome e ho).2 x hx).1
      · intro _ hoff x hx
        cases ho : entryOf u.map m.id with
        | none => simp only at hx; rw [(hnone ho).1] at hx; simp at hx
        | some e => exact ((hsome e ho).2 x hx).2 hoff

theorem inAlert_snoc_ev (i : Nat) (ops : List HOp) (m : Meta) (c : Comp) (v : Vbl) (dt : DataType) (wo : Bool) (old new : Str)
    (hm : m.id = i) : InAlert i (ops ++ [.ev m c v dt wo old new]) ↔ Beyond m dt new := by
  constructor
  · rintro ⟨pre, post, m', c', v', dt', wo', old', new', h, h1, h2, h3⟩
    rcases List.eq_nil_or_concat post with rfl | ⟨q, x, rfl⟩
    · have := List.append_inj' h rfl
      have h4 := this.2
      simp only [List.cons.injEq, HOp.ev.injEq, and_true] at h4
      obtain ⟨rfl, _, _, rfl, _, _, rfl⟩ := h4
      exact h2
    · exfalso
      rw [List.concat_eq_append, ← List.cons_append, ← List.append_assoc] at h
      have h4 := (List.append_inj' h rfl).2
      simp only [List.cons.injEq, and_true] at h4
      exact h3 m c v dt wo old new (by rw [← h4]; simp) hm
  · intro h; exact ⟨ops, [], m, c, v, dt, wo, old, new, rfl, hm, h, by simp⟩

theorem inAlert_snoc_other (i : Nat) (ops : List HOp) (op : HOp)
    (hop : ∀ m c v dt wo old new, op = .ev m c v dt wo old new → m.id ≠ i) : InAlert i (ops ++ [op]) ↔ InAlert i ops := by
  constructor
  · rintro ⟨pre, post, m', c', v', dt', wo', old', new', h, h1, h2, h3⟩
    rcases List.eq_nil_or_concat post with rfl | ⟨q, x, rfl⟩
    · have h4 := (List.append_inj' h rfl).2
      simp only [List.cons.injEq, and_true] at h4
      exact absurd h1 (hop _ _ _ _ _ _ _ h4)
    · rw [List.concat_eq_append, ← List.cons_append, ← List.append_assoc] at h
      obtain ⟨h4, h5⟩ := List.append_inj' h rfl
      exact ⟨pre, q, m', c', v', dt', wo', old', new', h4, h1, h2, fun m2 c2 v2 d2 w2 o2 n2 hx => h3 m2 c2 v2 d2 w2 o2 n2 (by simp [hx])⟩
  · rintro ⟨pre, post, m', c', v', dt', wo', old', new', h, h1, h2, h3⟩
    refine ⟨pre, post ++ [op], m', c', v', dt', wo', old', new', by rw [h]; simp, h1, h2, ?_⟩
    intro m2 c2 v2 d2 w2 o2 n2 hx
    rcases List.mem_append.mp hx with hx | hx
    · exact h3 _ _ _ _ _ _ _ hx
    · simp only [List.mem_singleton] at hx
      exact hop _ _ _ _ _ _ _ hx.symm

theorem hrun_append (u : U) (a b : List HOp) : hrun u (a ++ b) = match hrun u a with | none => none | some w => hrun w b := by
  induction a generalizing u with
  | nil => rfl
  | cons op r ih =>
    simp only [List.cons_append, hrun]
    cases hstep u op with
    | none => rfl
    | some w => exact ih w

/-- The invariant along a history. -/
theorem alert_run (m : Meta) (hm : m.type = .upper ∨ m.type = .lower) (u0 : U) (hmap : u0.map = []) (hsent : u0.sent = [])
    (hmem : ∀ x ∈ u0.st.mem, x.mon.id = m.id → x.mon.type = m.type) (ops : List HOp)
    (hev : ∀ m' c v dt wo old new, .ev m' c v dt wo old new ∈ ops → m'.id = m.id → m' = m ∧ trivialType dt = false)
    (hproc : ∀ k pa t, .proc k pa t ∈ ops → shouldProcess k m = true) :
    ∀ u, hrun u0 ops = some u → AlertOk m u (InAlert m.id ops) := by
  generalize hn : ops.length = n
  induction n generalizing ops with
  | zero =>
    intro u h
    have := List.length_eq_zero_iff.mp hn
    subst this
    simp only [hrun] at h
    injection h with h; subst h
    refine ⟨by rw [hmap]; exact ⟨by simp, by simp⟩, hmem, ?_, ?_⟩
    · intro _
      refine ⟨?_, ?_⟩
      · rintro ⟨pre, post, _, _, _, _, _, _, _, h, _⟩; simp at h
      · intro ev he; simp [lastSent, hsent] at he
    · intro e he; rw [hmap] at he; simp [Mon.entryOf] at he
  | succ n ih =>
    intro u h
    rcases List.eq_nil_or_concat ops with rfl | ⟨r, op, rfl⟩
    · simp at hn
    · rw [List.concat_eq_append] at *
      rw [hrun_append] at h
      cases hr : hrun u0 r with
      | none => simp [hr] at h
      | some w =>
        simp only [hr] at h
        have IH := ih r (fun m' c v dt wo old new hx => hev m' c v dt wo old new (by simp [hx]))
          (fun k pa t hx => hproc k pa t (by simp [hx])) (by simpa using hn) w hr
        have hstep' : hstep w op = some u := by
          simp only [hrun] at h
          cases hs : hstep w op with
          | none => simp [hs] at h
          | some x => simpa [hs] using h
        cases op with
        | ev m' c v dt wo old new =>
          by_cases hid : m'.id = m.id
          · obtain ⟨rfl, hd⟩ := hev m' c v dt wo old new (by simp) hid
            have := IH.ev hm hd hstep'
            have e := propext (inAlert_snoc_ev m'.id r m' c v dt wo old new rfl)
            rw [e]; exact this
          · have := IH.other hid hstep'
            have e := propext (inAlert_snoc_other m.id r (.ev m' c v dt wo old new) (by
              rintro m2 c2 v2 d2 w2 o2 n2 h2; injection h2 with h2; rw [← h2]; exact hid))
            rw [e]; exact this
        | proc k pa t =>
          have := (IH.proc hm (hproc k pa t (by simp)) hstep').1
          have e := propext (inAlert_snoc_other m.id r (.proc k pa t) (by
              rintro m2 c2 v2 d2 w2 o2 n2 h2; simp at h2))
          rw [e]; exact this

/-- C83: after the monitors were processed while the station is online, the last event of a threshold monitor
that was sent says whether the variable is beyond the threshold.  Partial: for monitors that are not discarded
by severity or monitoring base, and whose definition does not change; see `C83_discarded_violated`. -/
theorem C83_partial (m : Meta) (hm : m.type = .upper ∨ m.type = .lower) (u0 : U) (hmap : u0.map = []) (hsent : u0.sent = [])
    (hmem : ∀ x ∈ u0.st.mem, x.mon.id = m.id → x.mon.type = m.type) (ops : List HOp)
    (hev : ∀ m' c v dt wo old new, .ev m' c v dt wo old new ∈ ops → m'.id = m.id → m' = m ∧ trivialType dt = false)
    (hproc : ∀ k pa t, .proc k pa t ∈ ops → shouldProcess k m = true)
    (k : Conf) (pa : Bool) (t : Clock) (hen : k.enabled = true) (hon : k.offline = false) (hs : shouldProcess k m = true)
    (u : U) (h : hrun u0 (ops ++ [.proc k pa t]) = some u) :
    (InAlert m.id ops → ∃ ev, (u.sent.filter (fun ev => ev.monId == m.id)).getLast? = some ev ∧ ev.cleared = some false) ∧
    (¬ InAlert m.id ops → ∀ ev, (u.sent.filter (fun ev => ev.monId == m.id)).getLast? = some ev → ev.cleared = some true) := by
  rw [hrun_append] at h
  cases hr : hrun u0 ops with
  | none => simp [hr] at h
  | some w =>
    simp only [hr] at h
    have IH := alert_run m hm u0 hmap hsent hmem ops hev hproc w hr
    have hp : process k pa t w = some u := by
      simp only [hrun, hstep] at h
      cases hs : process k pa t w with
      | none => simp [hs] at h
      | some x => simpa [hs] using h
    obtain ⟨A, B⟩ := IH.proc hm hs hp
    cases ho : entryOf u.map m.id with
    | none =>
      obtain ⟨n1, n2⟩ := A.absent ho
      exact ⟨fun h => absurd h n1, fun _ => n2⟩
    | some e =>
      have ok := A.present e ho
      obtain ⟨_, _, ev, t1, t2⟩ := ok.sentOk (B hen hon e ho)
      refine ⟨fun hA => ⟨ev, t1, by rw [t2, ok.alert.mp hA]⟩, ?_⟩
      intro hA ev' hev'
      have : e.cleared = true := by
        cases hc : e.cleared with
        | true => rfl
        | false => exact absurd (ok.alert.mpr hc) hA
      have h3 : lastSent m.id u = some ev' := hev'
      rw [t1] at h3; injection h3 with h3; subst h3; rw [t2, this]

/-- What the application and the station's timer do: a variable is written, or the monitors are processed. -/
inductive Act
  | write : Comp → Vbl → Str → Act
  | proc : Conf → Bool → Clock → Act

/-- One of these. -/
def act (u : U) : Act → Option U
  | .write c v val => write u c v val true
  | .proc k pa t => process k pa t u

/-- A history of these. -/
def acts : U → List Act → Option U
  | u, [] => some u
  | u, a :: r => match act u a with
    | none => none
    | some w => acts w r

/-- A station with one decimal variable, now 60, and an upper threshold of 50 on it. -/
def exAlarm : U :=
  let i : Item := ⟨exInterval.comp, exInterval.var, ⟨1, 3, false, .upper, 50, .custom, none⟩⟩
  ⟨{ exDecimal with mem := [i], rows := [i], seq := 1 }, [], 0, []⟩

/-- The variable is written. -/
def w (v : String) : Act := .write exInterval.comp exInterval.var v.toList

/-- Offline; events are queued up to this severity. -/
def exOffline (sev : Int) : Conf := ⟨true, true, sev, 9, .all⟩

/-- Non-vacuity of `C83_partial`: above, processed, below, processed. -/
example : (acts exAlarm [w "70", .proc exOnline true ⟨0, 0⟩, w "40", .proc exOnline true ⟨1, 1⟩]).map
      (fun u => u.sent.map (fun e => (e.value, e.cleared))) =
    some [("70".toList, some false), ("40".toList, some true)] := by
  decide +kernel

/-- C83 is violated when an alert is discarded: the CSMS was told of the alert, then the station is offline
and does not queue events of that severity.  The return to normal is never reported, whenever the station is
online again. -/
theorem C83_discarded_violated : ∃ u, acts exAlarm [w "70", .proc exOnline true ⟨0, 0⟩,
      .proc (exOffline 1) true ⟨1, 1⟩, w "40", .proc exOnline true ⟨2, 2⟩] = some u ∧
    u.sent.map (fun e => (e.value, e.cleared)) = [("70".toList, some false)] ∧
    (∀ k pa t u', process k pa t u = some u' → u'.sent = u.sent) := by
  refine ⟨(acts exAlarm [w "70", .proc exOnline true ⟨0, 0⟩,
      .proc (exOffline 1) true ⟨1, 1⟩, w "40", .proc exOnline true ⟨2, 2⟩]).get (by decide +kernel), by simp,
      by decide +kernel, ?_⟩
  intro k pa t u' h
  have hmap : ((acts exAlarm [w "70", .proc exOnline true ⟨0, 0⟩,
      .proc (exOffline 1) true ⟨1, 1⟩, w "40", .proc exOnline true ⟨2, 2⟩]).get (by decide +kernel)).map = [] := by
    decide +kernel
  have hper : periodics ((acts exAlarm [w "70", .proc exOnline true ⟨0, 0⟩,
      .proc (exOffline 1) true ⟨1, 1⟩, w "40", .proc exOnline true ⟨2, 2⟩]).get (by decide +kernel)).st = [] := by
    decide +kernel
  generalize (acts exAlarm [w "70", .proc exOnline true ⟨0, 0⟩,
      .proc (exOffline 1) true ⟨1, 1⟩, w "40", .proc exOnline true ⟨2, 2⟩]).get (by decide +kernel) = u at h hmap hper ⊢
  unfold process at h
  split at h
  · injection h with h; rw [h]
  · have : (if pa then updatePeriodics t u.st u.map else some u.map) = some [] := by
      rw [hmap]; cases pa <;> simp [updatePeriodics, hper, addPeriodics]
    rw [this] at h
    simp [finish] at h
    rw [← h]

/-- C83 is violated: while offline, an alert of a severity that is to be queued and the return to normal are
generated, and dropped; nothing is ever sent. -/
theorem C83_queued_violated : ∃ u1 u, acts exAlarm [w "70", .proc (exOffline 5) true ⟨0, 0⟩] = some u1 ∧
    (u1.map.flatMap (·.events)).map (fun e => (e.value, e.cleared)) = [("70".toList, some false)] ∧
    acts u1 [w "40", .proc (exOffline 5) true ⟨1, 1⟩, .proc exOnline true ⟨2, 2⟩] = some u ∧
    u.sent = [] ∧ u.map = [] := by
  refine ⟨(acts exAlarm [w "70", .proc (exOffline 5) true ⟨0, 0⟩]).get (by decide +kernel),
    (acts ((acts exAlarm [w "70", .proc (exOffline 5) true ⟨0, 0⟩]).get (by decide +kernel))
      [w "40", .proc (exOffline 5) true ⟨1, 1⟩, .proc exOnline true ⟨2, 2⟩]).get (by decide +kernel),
    by simp, by decide +kernel, by simp, by decide +kernel, by decide +kernel⟩

/-- C83 is violated: a short alert between two runs is reported only as having ended; a short return to normal
is not reported at all, but the alert is reported again. -/
theorem C83_short_violated :
    (acts exAlarm [w "70", w "40", .proc exOnline true ⟨0, 0⟩]).map (fun u => u.sent.map (·.cleared)) =
      some [some true] ∧
    (acts exAlarm [w "70", .proc exOnline true ⟨0, 0⟩, w "40", w "80", .proc exOnline true ⟨1, 1⟩]).map
      (fun u => u.sent.map (·.cleared)) = some [some false, some false] := by
  decide +kernel

/-! ### C84: delta monitors -/

/-- A station with one decimal variable, now 60, and a delta monitor of 10 set at 60. -/
def exDelta : U :=
  let i : Item := ⟨exInterval.comp, exInterval.var, ⟨1, 3, false, .delta, 10, .custom, some "60".toList⟩⟩
  ⟨{ exDecimal with mem := [i], rows := [i], seq := 1 }, [], 0, []⟩

/-- C84 is violated: the reference of numeric delta monitors is never updated.  After 80 was reported, a
change by one is reported as well; back at 60, nothing is. -/
theorem C84_violated :
    (acts exDelta [w "80", .proc exOnline true ⟨0, 0⟩, w "81", .proc exOnline true ⟨1, 1⟩,
      w "60", .proc exOnline true ⟨2, 2⟩]).map (fun u => u.sent.map (·.value)) =
    some ["80".toList, "81".toList] := by
  decide +kernel

/-- C84 is violated for every numeric variable and every history: evaluating a monitor never changes the
reference values. -/
theorem C84_reference_violated (u u' : U) (m : Meta) (c : Comp) (v : Vbl) (dt : DataType) (wo : Bool) (old new : Str)
    (hd : dt = .decimal ∨ dt = .integer) (h : evaluate u m c v dt wo old new = some u') : u'.st = u.st := by
  have ht : trivialType dt = false := by rcases hd with rfl | rfl <;> rfl
  unfold evaluate at h
  split at h
  · injection h with h; rw [h]
  · split at h
    · simp at h
    · split at h
      · simp at h
      · injection h with h; rw [← h]; simp [ht]

/-- C84: when the value differs from the reference by more than the delta (for texts, booleans and lists: when
it changes), the next processing while online sends an event with the new value.  Partial: the reference is
that of the time the monitor was set; see `C84_violated`. -/
theorem C84_partial (u u1 u2 : U) (m : Meta) (c : Comp) (v : Vbl) (dt : DataType) (old new : Str)
    (hm : m.type = .delta) (hmap : MapOk u.map)
    (hmem : ∀ x ∈ u.st.mem, x.mon.id = m.id → x.mon.type = .delta)
    (hent : ∀ e, entryOf u.map m.id = some e → e.periodic = false ∧ e.mon = m ∧ e.writeOnly = false)
    (hdelta : if trivialType dt then old ≠ new
      else ∃ r x y, m.ref = some r ∧ number dt r = some y ∧ number dt new = some x ∧ (m.value < y - x ∨ m.value < x - y))
    (he : evaluate u m c v dt false old new = some u1)
    (k : Conf) (pa : Bool) (t : Clock) (hen : k.enabled = true) (hon : k.offline = false) (hs : shouldProcess k m = true)
    (hp : process k pa t u1 = some u2) :
    ∃ ev, (u2.sent.filter (fun ev => ev.monId == m.id)).getLast? = some ev ∧ ev.value = new ∧
      ev.trigger = some .delta ∧ ev.cleared = none := by
  obtain ⟨f1, _, _, _, _, f6, _, f8⟩ := evaluate_frame he hmap
  obtain ⟨b, hb, hE⟩ := f8 (by simp [hm])
  have hbt : b = true := by
    unfold triggers at hb
    cases htr : trivialType dt with
    | true =>
      simp only [htr, if_true] at hb hdelta
      injection hb with hb; subst hb; simpa using hdelta
    | false =>
      simp only [htr, Bool.false_eq_true, if_false] at hb hdelta
      obtain ⟨r, x, y, h1, h2, h3, h4⟩ := hdelta
      simp only [h3, hm, h1, h2, Option.map_some] at hb
      injection hb with hb; subst hb
      rw [decide_eq_true_eq]
      split
      · rename_i hyx
        rcases h4 with h4 | h4
        · linarith
        · exact h4
      · rename_i hyx
        rcases h4 with h4 | h4
        · exact h4
        · linarith [not_lt.mp hyx]
  subst hbt
  -- the entry
  obtain ⟨e, he1, he2, he3, he4, he5, he6⟩ : ∃ e, entryOf u1.map m.id = some e ∧ e.periodic = false ∧ e.mon = m ∧
      e.writeOnly = false ∧ e.current = new ∧ e.generated = false := by
    cases ho : entryOf u.map m.id with
    | none =>
      rw [ho] at hE
      simp only [evaluateEntry, newTrigger, hm] at hE
      simp only [Option.map_none, Option.getD_none, if_true, Bool.false_and, Bool.false_eq_true, if_false,
        beq_self_eq_true] at hE
      injection hE with hE
      exact ⟨_, hE.symm, rfl, rfl, rfl, rfl, rfl⟩
    | some e0 =>
      obtain ⟨q1, q2, q3⟩ := hent e0 ho
      rw [ho] at hE
      simp only [evaluateEntry, hm, Option.map_some, Option.getD_some, if_true, bne_self_eq_false, Bool.and_false,
        Bool.false_eq_true, if_false, beq_self_eq_true] at hE
      injection hE with hE
      exact ⟨_, hE.symm, q1, q2, q3, rfl, rfl⟩
  unfold process at hp
  simp only [hen, Bool.not_true, Bool.false_eq_true, if_false] at hp
  cases hmp : (if pa then updatePeriodics t u1.st u1.map else some u1.map) with
  | none => simp [hmp] at hp
  | some map =>
    have hmok : MapOk map ∧ entryOf map m.id = some e := by
      cases pa with
      | false => simp at hmp; subst hmp; exact ⟨f1, he1⟩
      | true =>
        simp only [if_true] at hmp
        obtain ⟨p1, p2⟩ := updatePeriodics_frame f1 hmp
        refine ⟨p1, ?_⟩
        rw [p2 m.id, he1]
        · intro x hx hi
          obtain ⟨hx1, hx2⟩ := List.mem_filter.mp hx
          obtain ⟨y, hy, y1, y2⟩ := f6 x hx1
          simp only [Bool.or_eq_true, beq_iff_eq] at hx2
          rw [← y2, hmem y hy (y1.trans hi)] at hx2
          simp at hx2
        · intro x hx; rw [he1] at hx; injection hx with hx; subst hx; exact he2
    simp only [hmp] at hp
    rw [Option.map_eq_some_iff] at hp
    obtain ⟨r, hr, rfl⟩ := hp
    obtain ⟨_, _, _, r4⟩ := finish_frame m.id hmok.1 hr
    obtain ⟨n1, n2, e', evs, hT, _, k3⟩ := r4 e hmok.2
    unfold turn at hT
    simp only [he2, Bool.and_false, Bool.false_eq_true, if_false, he3, hs, Bool.not_true] at hT
    have hg : generate t u1.st.dm n1 e = some ({ e with generated := true, events := e.events ++ [newEvent n1 t new e none] }, n1 + 1) := by
      simp [generate, he2, he6, he4, he5, he3, hm]
    rw [hg] at hT
    simp only at hT
    injection hT with t1 t2 t3
    have hne : (e.events ++ [newEvent n1 t new e none]).isEmpty = false := by simp
    rw [show (deliver k { e with generated := true, events := e.events ++ [newEvent n1 t new e none] }).2 =
      e.events ++ [newEvent n1 t new e none] by simp [deliver, hon, he2]] at t2
    refine ⟨newEvent n1 t new e none, ?_, rfl, by simp [newEvent, he3, hm], rfl⟩
    rw [List.filter_append, k3, ← t2, ← List.append_assoc]
    exact List.getLast?_concat

/-- Non-vacuity of `C84_partial`. -/
example : (acts exDelta [w "65", .proc exOnline true ⟨0, 0⟩, w "71", .proc exOnline true ⟨1, 1⟩]).map
      (fun u => u.sent.map (fun e => (e.value, e.cleared))) = some [("71".toList, none)] := by
  decide +kernel

end Verif.Mon
