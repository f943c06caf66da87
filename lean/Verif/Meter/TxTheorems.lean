import Verif.Meter.TxModel
import Verif.Meter.Averages
import Verif.Meter.Storage
import Verif.Meter.Theorems

/-!
The meter values of a transaction (C235, C236, C237).
-/
set_option linter.constructorNameAsVariable false

namespace Verif.Met

/-! ## Specification

Histories are lists of events, the newest one first. -/

/-- The events that can happen: a timer that is due, the end of a transaction that is running (and whose values can be read), the report of the idle
EVSE while there is no transaction; the others always. -/
def Possible (s : TxState) : TxOp → Prop
  | .fire t now => ∃ a, s.timer t = some a ∧ a.due ≤ now
  | .stop ts m => s.tx.isSome ∧ TxOut.crash ∉ (txStep s (.stop ts m)).2
  | .idle => s.tx = none
  | _ => True

/-- The histories from the first start of the station, and the states they lead to. -/
inductive TxRun (b : Bool) : List TxOp → TxState → Prop
  | nil : TxRun b [] { resume := b }
  | step {h s op} : TxRun b h s → Possible s op → TxRun b (op :: h) (txStep s op).1

/-- The variables. -/
def confAt : List TxOp → Conf
  | [] => {}
  | .config c :: _ => c
  | _ :: h => confAt h

/-- The variables when the timers were set: at the start of the transaction or at a restart. -/
def confSet : List TxOp → Conf
  | [] => {}
  | .start _ _ _ _ :: h => confAt h
  | .restart _ :: h => confAt h
  | _ :: h => confSet h

/-- The interval of a timer. -/
def Conf.interval (c : Conf) : Tm → Int
  | .su => c.su
  | .se => c.se
  | .au => c.au
  | .ae => c.ae

/-- The transaction that is running and the time of its start. -/
def running (b : Bool) : List TxOp → Option (Nat × Int)
  | [] => none
  | .start id ts _ _ :: _ => some (id, ts)
  | .stop _ _ :: _ => none
  | .restart _ :: h => if b then running b h else none
  | _ :: h => running b h

/-- The last value measured. -/
def lastVal : List TxOp → Meter
  | [] => {}
  | .value m :: _ => m
  | .restart _ :: _ => {}
  | _ :: h => lastVal h

/-- The values measured since the last clock-aligned report, the start or the end of the transaction or the restart (oldest first). -/
def sinceUpdate : List TxOp → List Meter
  | [] => []
  | .value m :: h => sinceUpdate h ++ [m]
  | .start _ _ _ _ :: _ | .stop _ _ :: _ | .idle :: _ | .restart _ :: _ => []
  | .fire .au _ :: h => if (confAt h).duringIdle then sinceUpdate h else []
  | _ :: h => sinceUpdate h

/-- The values measured since the last clock-aligned value for the end, the start of the transaction or the restart (oldest first). -/
def sinceStored : List TxOp → List Meter
  | [] => []
  | .value m :: h => sinceStored h ++ [m]
  | .start _ _ _ _ :: _ | .restart _ :: _ => []
  | .fire .ae _ :: _ => []
  | _ :: h => sinceStored h

/-- The reading of a clock-aligned instant: the last one of the values, with the means of all of them; the last value measured if there is none. -/
def clockReading (l : List Meter) (last : Meter) : Meter :=
  match l.getLast? with
  | none => last
  | some m => { m with samples := m.samples.map (withMean l) }

/-- The reading with context Sample.Clock and, if wanted, the time `now` rounded to the interval. -/
def asClock (round : Bool) (interval now : Int) (m : Meter) : Meter :=
  { time := if round then (alignTimestamp now interval).getD m.time else m.time
    samples := m.samples.map (fun s => { s with context := some .clock }) }

/-- The part of a value with the given measurands. -/
def part (ms : List Nat) (m : Meter) : Meter := { m with samples := m.samples.filter (fun s => ms.any (fun x => s.measurand == some x)) }

/-- A message with the part of a value, unless it is empty. -/
def sent (id : Nat) (clock : Bool) (m : Meter) : List TxOut := if m.samples = [] then [] else [.updated id clock m]

theorem apply_part (m : Meter) (ms : List Nat) : apply m ms true = part ms m := by
  unfold apply part
  simp only [Meter.mk.injEq, true_and]
  induction m.samples with
  | nil => rfl
  | cons s r ih =>
    rw [List.filterMap_cons, List.filter_cons, ih]
    have ha : applyOne ms true s = if ms.any (fun x => s.measurand == some x) then some s else none := by
      unfold applyOne
      cases s.measurand with
      | none => simp
      | some x => by_cases hx : x ∈ ms <;> simp [hx, strip]
    rw [ha]
    by_cases hx : ms.any (fun x => s.measurand == some x) = true <;> simp [hx]

theorem filtered_eq (id : Nat) (clock : Bool) (m : Meter) (ms : List Nat) : filtered id clock m ms = sent id clock (part ms m) := by
  unfold filtered sent
  rw [apply_part]
  simp

theorem txMessage_clock (c : Conf) (id : Nat) (m : Meter) (h : ∀ s ∈ m.samples, s.context = some .clock) :
    txMessage c id m = sent id true (part c.aligned m) := by
  unfold txMessage
  cases hm : m.samples with
  | nil => simp [sent, part, hm]
  | cons s r =>
    have := h s (by rw [hm]; simp)
    simp only [this]
    exact filtered_eq _ _ _ _

theorem txMessage_periodic (c : Conf) (id : Nat) (m : Meter) (h : ∀ s ∈ m.samples, s.context = some .periodic) :
    txMessage c id m = sent id false (part c.updated m) := by
  unfold txMessage
  cases hm : m.samples with
  | nil => simp [sent, part, hm]
  | cons s r =>
    have := h s (by rw [hm]; simp)
    simp only [this]
    exact filtered_eq _ _ _ _

/-- The averages after some calls, of which the values `l` count. -/
def Holding (l : List Meter) (a : Avg) : Prop := ∃ ops, a = avgRun ops ∧ since ops = l

theorem Holding.init : Holding [] {} := ⟨[], rfl, rfl⟩

theorem Holding.next (op : AvgOp) {l : List Meter} {a : Avg} (h : Holding l a) :
    Holding (match op with | .set m => l ++ [m] | .clear => [] | .retrieve => l) (avgStep a op) := by
  obtain ⟨ops, rfl, rfl⟩ := h
  exact ⟨ops ++ [op], by simp [avgRun], since_snoc ops op⟩

theorem Holding.set {l a} (m : Meter) (h : Holding l a) : Holding (l ++ [m]) (a.set m) := h.next (.set m)
theorem Holding.clear {l a} (h : Holding l a) : Holding [] a.clear := h.next .clear
theorem Holding.retrieve {l a} (h : Holding l a) : Holding l a.retrieve := h.next .retrieve

theorem Holding.value {l a} (h : Holding l a) (last : Meter) (hl : ∀ m, l.getLast? = some m → last = m) (round : Bool) (i now : Int) :
    clockValue a last round i now = asClock round i now (clockReading l last) := by
  obtain ⟨ops, rfl, rfl⟩ := h
  have h1 := C102_partial ops
  have h2 : avgRun (ops ++ [.retrieve]) = (avgRun ops).retrieve := by simp [avgRun, avgStep]
  rw [h2] at h1
  have ht := (AvgOk.run ops).time
  unfold clockValue clockReading asClock
  cases hg : (since ops).getLast? with
  | none =>
    rw [hg] at h1
    simp only [h1, List.isEmpty_nil, if_true]
    unfold stamp setContext
    cases round <;> rfl
  | some m =>
    rw [hg] at h1
    simp only at h1
    have e := hl m hg
    have h3 : (avgRun ops).retrieve.last = ⟨m.time, m.samples.map (withMean (since ops))⟩ := by
      have : (avgRun ops).retrieve.last.time = m.time := ht m hg
      rw [← h1, ← this]
    have h4 : (if (avgRun ops).retrieve.last.samples.isEmpty then last else (avgRun ops).retrieve.last) =
        ⟨m.time, m.samples.map (withMean (since ops))⟩ := by
      rw [h3]
      cases hm : m.samples with
      | nil => subst e; rw [← hm]; simp [hm]; rw [← hm]
      | cons x r => simp
    rw [h4]
    unfold stamp setContext
    cases round <;> rfl

/-- The calls of the database. -/
def dbOps (b : Bool) : List TxOp → List DbOp
  | [] => []
  | .start id ts m now :: h =>
    dbOps b h ++ .insert id m ::
      (if passed (confAt h) ts now then [.insert id (asClock (confAt h).round (confAt h).ae now (lastVal h))] else [])
  | .fire .se _ :: h =>
    dbOps b h ++ (match running b h with | none => [] | some p => [.insert p.1 (lastVal h)])
  | .fire .ae now :: h =>
    dbOps b h ++ (match running b h with
      | none => []
      | some p => [.insert p.1 (asClock (confAt h).round (confSet h).ae now (clockReading (sinceStored h) (lastVal h)))])
  | .stop _ m :: h =>
    dbOps b h ++ (match running b h with | none => [] | some p => [.insert p.1 m, .clear p.1])
  | _ :: h => dbOps b h

structure TxInv (b : Bool) (h : List TxOp) (s : TxState) : Prop where
  resume : s.resume = b
  conf : s.conf = confAt h
  last : s.last = lastVal h
  upd : Holding (sinceUpdate h) s.upd
  fin : Holding (sinceStored h) s.fin
  lastU : ∀ m, (sinceUpdate h).getLast? = some m → lastVal h = m
  lastF : ∀ m, (sinceStored h).getLast? = some m → lastVal h = m
  tx : s.tx = running b h
  db : s.db = dbRun (dbOps b h)
  idle : running b h = none → ∀ t, s.timer t = none
  armed : ∀ t a, s.timer t = some a → a.interval = (confSet h).interval t ∧ 0 < a.interval ∧ Aligned a.start a.interval a.due
  set : ∀ p, running b h = some p → ∀ t, 0 < (confSet h).interval t → (s.timer t).isSome
  from' : ∀ p, running b h = some p → ∀ a, (s.timer .su = some a ∨ s.timer .se = some a) → a.start = p.2

theorem dbRun_append (a : List DbOp) (op : DbOp) : dbRun (a ++ [op]) = dbStep (dbRun a) op := by simp [dbRun]

theorem dbRun_append2 (a : List DbOp) (o1 o2 : DbOp) : dbRun (a ++ [o1, o2]) = dbStep (dbStep (dbRun a) o1) o2 := by simp [dbRun]

theorem armAll_some {c : Conf} {ts now : Int} {t : Tm} {a : Armed} (h : armAll c ts now t = some a) :
    a.interval = c.interval t ∧ 0 < a.interval ∧ Aligned a.start a.interval a.due := by
  have key : ∀ st i, arm st i now = some a → a.interval = i ∧ 0 < a.interval ∧ Aligned a.start a.interval a.due := by
    intro st i hh
    unfold arm at hh
    by_cases hi : i > 0
    · rw [if_pos hi] at hh
      cases hh
      exact ⟨rfl, hi, (C46_next st i now hi).1⟩
    · rw [if_neg hi] at hh; cases hh
  cases t <;> exact key _ _ h

theorem armAll_isSome {c : Conf} {ts now : Int} {t : Tm} (h : 0 < c.interval t) : (armAll c ts now t).isSome := by
  cases t <;> (simp only [armAll, arm]; rw [if_pos (by exact h)]; rfl)

theorem armAll_start {c : Conf} {ts now : Int} {a : Armed} (h : armAll c ts now .su = some a ∨ armAll c ts now .se = some a) : a.start = ts := by
  have key : ∀ i, arm ts i now = some a → a.start = ts := by
    intro i hh
    unfold arm at hh
    by_cases hi : i > 0
    · rw [if_pos hi] at hh; cases hh; rfl
    · rw [if_neg hi] at hh; cases hh
  rcases h with h | h <;> exact key _ h

theorem startTimers_timer (s : TxState) (id : Nat) (ts now : Int) : (startTimers s id ts now).timer = armAll s.conf ts now := by
  unfold startTimers; dsimp only; split <;> rfl

theorem startTimers_upd (s : TxState) (id : Nat) (ts now : Int) : (startTimers s id ts now).upd = s.upd.clear := by
  unfold startTimers; dsimp only; split <;> rfl

theorem startTimers_same (s : TxState) (id : Nat) (ts now : Int) : (startTimers s id ts now).resume = s.resume ∧
    (startTimers s id ts now).conf = s.conf ∧ (startTimers s id ts now).last = s.last ∧ (startTimers s id ts now).tx = s.tx := by
  unfold startTimers; dsimp only; split <;> exact ⟨rfl, rfl, rfl, rfl⟩

theorem startTimers_fin {l : List Meter} (s : TxState) (id : Nat) (ts now : Int) (h : Holding l s.fin) :
    Holding [] (startTimers s id ts now).fin := by
  unfold startTimers; dsimp only
  split
  · exact h.clear.retrieve.clear
  · exact h.clear

theorem cleared_value (a : Avg) (last : Meter) (round : Bool) (i now : Int) : clockValue a.clear last round i now = asClock round i now last := by
  have : a.clear.retrieve.last.samples = [] := rfl
  unfold clockValue
  rw [this]
  simp only [List.isEmpty_nil, if_true]
  unfold stamp setContext asClock
  cases round <;> rfl

theorem startTimers_db (s : TxState) (id : Nat) (ts now : Int) : (startTimers s id ts now).db =
    if passed s.conf ts now then insert s.db id (asClock s.conf.round s.conf.ae now s.last) else s.db := by
  unfold startTimers; dsimp only
  split
  · unfold storeAligned; dsimp only; rw [cleared_value]
  · rfl

theorem insert_empty (db : Db) (id : Nat) (t : Int) : insert db id ⟨t, []⟩ = db := rfl

theorem TxInv.run {b : Bool} {h : List TxOp} {s : TxState} (hr : TxRun b h s) : TxInv b h s := by
  induction hr with
  | nil =>
    exact ⟨rfl, rfl, rfl, .init, .init, by simp [sinceUpdate], by simp [sinceStored], rfl, rfl, fun _ _ => rfl, by simp, by simp [running], by simp [running]⟩
  | @step h s op hr hp ih =>
    obtain ⟨i1, i2, i3, i4, i5, i6, i7, i8, i9, i10, i11, i12, i13⟩ := ih
    cases op with
    | config c => exact ⟨i1, rfl, i3, i4, i5, i6, i7, i8, i9, i10, i11, i12, i13⟩
    | value m =>
      refine ⟨i1, i2, rfl, i4.set m, i5.set m, ?_, ?_, i8, i9, i10, i11, i12, i13⟩
      · intro x hx; simp only [sinceUpdate, List.getLast?_append, List.getLast?_singleton, Option.some_or, Option.some.injEq] at hx; exact hx
      · intro x hx; simp only [sinceStored, List.getLast?_append, List.getLast?_singleton, Option.some_or, Option.some.injEq] at hx; exact hx
    | start id ts m now =>
      have e : (txStep s (.start id ts m now)).1 = startTimers { s with tx := some (id, ts), db := insert s.db id m } id ts now := rfl
      rw [e]
      obtain ⟨q1, q2, q3, q4⟩ := startTimers_same { s with tx := some (id, ts), db := insert s.db id m } id ts now
      refine ⟨q1.trans i1, q2.trans i2, q3.trans i3, ?_, startTimers_fin _ _ _ _ i5, by simp [sinceUpdate], by simp [sinceStored], q4, ?_,
        by simp [running], ?_, ?_, ?_⟩
      · rw [startTimers_upd]; exact i4.clear
      · rw [startTimers_db]
        simp only [dbOps]
        rw [i2, i3]
        by_cases hq : passed (confAt h) ts now = true
        · rw [if_pos hq, if_pos hq, dbRun_append2, ← i9]; rfl
        · rw [if_neg hq, if_neg hq, dbRun_append, ← i9]; rfl
      · intro t a ha
        rw [startTimers_timer] at ha
        have := armAll_some ha
        simp only [i2] at this
        exact this
      · intro p _ t ht
        rw [startTimers_timer]
        apply armAll_isSome
        simp only [i2]; exact ht
      · intro p hp2 a ha
        rw [startTimers_timer] at ha
        simp only [running, Option.some.injEq] at hp2
        rw [← hp2]; exact armAll_start ha
    | fire t now =>
      obtain ⟨a, ha, hd⟩ := hp
      have hrun : ∃ p, running b h = some p := by
        cases hq : running b h with
        | none => rw [i10 hq t] at ha; cases ha
        | some p => exact ⟨p, rfl⟩
      obtain ⟨⟨id, ts⟩, hq⟩ := hrun
      have htx : s.tx = some (id, ts) := by rw [i8, hq]
      have e : txStep s (.fire t now) =
          ({ (callback s id a.interval now t).1 with
              timer := fun x => if x = t then some { a with due := next a.start a.interval now } else (callback s id a.interval now t).1.timer x },
            (callback s id a.interval now t).2) := by
        show fireTm s t now = _
        unfold fireTm
        rw [ha]
        simp only
        rw [if_neg (by omega), htx]
      rw [e]
      have htm : (callback s id a.interval now t).1.timer = s.timer := by
        cases t <;> simp only [callback, storeAligned] <;> split <;> rfl
      have hsame : (callback s id a.interval now t).1.resume = s.resume ∧ (callback s id a.interval now t).1.conf = s.conf ∧
          (callback s id a.interval now t).1.last = s.last ∧ (callback s id a.interval now t).1.tx = s.tx := by
        cases t <;> simp only [callback, storeAligned] <;> (try split) <;> simp
      obtain ⟨q1, q2, q3, q4⟩ := hsame
      obtain ⟨a1, a2, a3⟩ := i11 t a ha
      have hrn : running b (.fire t now :: h) = running b h := rfl
      have hcs : confSet (.fire t now :: h) = confSet h := rfl
      refine ⟨q1.trans i1, q2.trans i2, q3.trans i3, ?_, ?_, ?_, ?_, ?_, ?_, ?_, ?_, ?_, ?_⟩
      · cases t
        · exact i4
        · exact i4
        · simp only [callback, sinceUpdate]
          rw [i2]
          by_cases hdi : (confAt h).duringIdle = true
          · rw [if_pos hdi, if_pos hdi]; exact i4
          · rw [if_neg hdi, if_neg hdi]; exact i4.retrieve.clear
        · exact i4
      · cases t
        · exact i5
        · exact i5
        · simp only [callback, sinceStored]
          split <;> exact i5
        · exact i5.retrieve.clear
      · intro m hm
        cases t
        · exact i6 m hm
        · exact i6 m hm
        · simp only [sinceUpdate] at hm
          split at hm
          · exact i6 m hm
          · simp at hm
        · exact i6 m hm
      · intro m hm
        cases t
        · exact i7 m hm
        · exact i7 m hm
        · exact i7 m hm
        · simp [sinceStored] at hm
      · exact q4.trans i8
      · cases t
        · exact i9
        · simp only [callback, dbOps]
          rw [hq, dbRun_append, ← i9, i3]; rfl
        · simp only [callback, dbOps]
          split <;> exact i9
        · simp only [callback, dbOps, storeAligned]
          rw [hq, dbRun_append, ← i9, i3, i2, a1, i5.value (lastVal h) i7]
          rfl
      · intro hn; rw [hrn, hq] at hn; cases hn
      · intro x y hy
        simp only at hy
        by_cases hx : x = t
        · rw [if_pos hx, Option.some.injEq] at hy
          subst hy; subst hx
          exact ⟨a1, a2, (C46_next a.start a.interval now a2).1⟩
        · rw [if_neg hx, htm] at hy
          exact i11 x y hy
      · intro p hp2 x hx
        simp only
        by_cases hxt : x = t
        · rw [if_pos hxt]; rfl
        · rw [if_neg hxt, htm]; exact i12 p hp2 x hx
      · intro p hp2 y hy
        simp only at hy
        rw [hrn] at hp2
        have hst : a.start = p.2 ∨ (t ≠ .su ∧ t ≠ .se) := by
          by_cases h1 : t = .su
          · left; subst h1; exact i13 p hp2 a (.inl ha)
          · by_cases h2 : t = .se
            · left; subst h2; exact i13 p hp2 a (.inr ha)
            · exact .inr ⟨h1, h2⟩
        rw [htm] at hy
        rcases hy with hy | hy
        · by_cases h1 : Tm.su = t
          · rw [if_pos h1, Option.some.injEq] at hy
            subst hy
            rcases hst with h2 | h2
            · exact h2
            · exact absurd h1.symm h2.1
          · rw [if_neg h1] at hy; exact i13 p hp2 y (.inl hy)
        · by_cases h1 : Tm.se = t
          · rw [if_pos h1, Option.some.injEq] at hy
            subst hy
            rcases hst with h2 | h2
            · exact h2
            · exact absurd h1.symm h2.2
          · rw [if_neg h1] at hy; exact i13 p hp2 y (.inr hy)
    | stop ts m =>
      obtain ⟨h1, h2⟩ := hp
      obtain ⟨⟨id, ts0⟩, htx⟩ := Option.isSome_iff_exists.mp h1
      have hq : running b h = some (id, ts0) := by rw [← i8, htx]
      have e : txStep s (.stop ts m) = stopTx s ts m := rfl
      rw [e] at h2 ⊢
      unfold stopTx at h2 ⊢
      rw [htx] at h2 ⊢
      simp only at h2 ⊢
      cases hg : getAll (insert s.db id m) id with
      | none => rw [hg] at h2; simp at h2
      | some l =>
        refine ⟨i1, i2, i3, i4.clear, i5, by simp [sinceUpdate], i7, rfl, ?_, fun _ _ => rfl, by simp, by simp [running], by simp [running]⟩
        simp only [dbOps, hq]
        rw [dbRun_append2, ← i9]; rfl
    | idle =>
      have e : (txStep s .idle).1 = { s with upd := s.upd.retrieve.clear } := by
        simp only [txStep]; rw [show s.tx = none from hp]; rfl
      rw [e]
      exact ⟨i1, i2, i3, i4.retrieve.clear, i5, by simp [sinceUpdate], i7, i8, i9, i10, i11, i12, i13⟩
    | restart now =>
      have e : (txStep s (.restart now)).1 = restartTx s now := rfl
      rw [e]
      have htx : (if s.resume then s.tx else none) = running b (.restart now :: h) := by
        simp only [running]; rw [i1, i8]
      unfold restartTx
      simp only
      rw [htx]
      cases hq : running b (.restart now :: h) with
      | none =>
        exact ⟨i1, i2, rfl, .init, .init, by simp [sinceUpdate], by simp [sinceStored], hq.symm, i9, fun _ _ => rfl, by simp,
          by simp [hq], by simp [hq]⟩
      | some p =>
        obtain ⟨id, ts⟩ := p
        simp only
        generalize hs1 : ({ s with last := {}, upd := {}, fin := {}, tx := some (id, ts), timer := fun _ => none } : TxState) = s1
        have c1 : s1.conf = confAt h := by rw [← hs1]; exact i2
        have c2 : s1.last = {} := by rw [← hs1]
        obtain ⟨q1, q2, q3, q4⟩ := startTimers_same s1 id ts now
        refine ⟨?_, q2.trans c1, q3.trans c2, ?_, startTimers_fin (l := []) _ _ _ _ (by rw [← hs1]; exact .init), by simp [sinceUpdate],
          by simp [sinceStored], ?_, ?_, by simp [hq], ?_, ?_, ?_⟩
        · rw [q1, ← hs1]; exact i1
        · rw [startTimers_upd, ← hs1]; exact Holding.init.clear
        · rw [q4, ← hs1, hq]
        · rw [startTimers_db, c2]
          have : s1.db = s.db := by rw [← hs1]
          rw [this]
          simp only [asClock, List.map_nil]
          rw [insert_empty]
          simp only [ite_self, dbOps]
          exact i9
        · intro t a ha
          rw [startTimers_timer, c1] at ha
          exact armAll_some ha
        · intro p _ t ht
          rw [startTimers_timer, c1]
          exact armAll_isSome ht
        · intro p hp2 a ha
          rw [startTimers_timer] at ha
          rw [hq, Option.some.injEq] at hp2
          rw [← hp2]; exact armAll_start ha

/-! ## C235: the values of TransactionEvent(Started) and (Updated) -/

/-- C235: the request for the start of a transaction has exactly the configured measurands of the reading at the start, unchanged; in every state. -/
theorem C235_started (s : TxState) (id : Nat) (ts : Int) (m : Meter) (now : Int) : (txStep s (.start id ts m now)).2 =
    [.started id (if (part s.conf.started m).samples = [] then none else some (part s.conf.started m))] := by
  show [TxOut.started id _] = _
  rw [apply_part]
  simp

theorem fire_eq {b : Bool} {h : List TxOp} {s : TxState} (hr : TxRun b h s) {t : Tm} {now : Int} (hp : Possible s (.fire t now)) :
    ∃ a id ts, s.timer t = some a ∧ a.due ≤ now ∧ running b h = some (id, ts) ∧ txStep s (.fire t now) =
      ({ (callback s id a.interval now t).1 with
          timer := fun x => if x = t then some { a with due := next a.start a.interval now } else s.timer x },
        (callback s id a.interval now t).2) := by
  have ih := TxInv.run hr
  obtain ⟨a, ha, hd⟩ := hp
  have hrun : ∃ p, running b h = some p := by
    cases hq : running b h with
    | none => rw [ih.idle hq t] at ha; cases ha
    | some p => exact ⟨p, rfl⟩
  obtain ⟨⟨id, ts⟩, hq⟩ := hrun
  have htm : (callback s id a.interval now t).1.timer = s.timer := by
    cases t <;> simp only [callback, storeAligned] <;> split <;> rfl
  refine ⟨a, id, ts, ha, hd, hq, ?_⟩
  show fireTm s t now = _
  unfold fireTm
  rw [ha]
  simp only
  rw [if_neg (by omega), ih.tx, hq]
  simp only [htm]

/-- C235: whenever the sample interval has passed, a TransactionEvent(Updated) with trigger reason MeterValuePeriodic is sent for the running
transaction: it has exactly the configured measurands of the last value measured; none if there is no such measurand.  The values reported by the
application have the context Sample.Periodic. -/
theorem C235_sampled_partial {b : Bool} {h : List TxOp} {s : TxState} (hr : TxRun b h s) (now : Int) (hp : Possible s (.fire .su now))
    (hc : ∀ x ∈ (lastVal h).samples, x.context = some .periodic) :
    ∃ id ts, running b h = some (id, ts) ∧ (txStep s (.fire .su now)).2 = sent id false (part (confAt h).updated (lastVal h)) := by
  have ih := TxInv.run hr
  obtain ⟨a, id, ts, _, _, hq, e⟩ := fire_eq hr hp
  refine ⟨id, ts, hq, ?_⟩
  rw [e]
  show txMessage s.conf id s.last = _
  rw [ih.conf, ih.last]
  exact txMessage_periodic _ _ _ hc

/-- C235: at every clock-aligned instant a TransactionEvent(Updated) with trigger reason MeterValueClock is sent for the running transaction (none with
AlignedDataSendDuringIdle): it has exactly the configured measurands of the last value measured since the last one, with the means of all values
since then (the last value at all if there is none since then), context Sample.Clock, and its time, or with RoundClockAlignedTimestamps the present
time rounded to the interval. -/
theorem C235_clock {b : Bool} {h : List TxOp} {s : TxState} (hr : TxRun b h s) (now : Int) (hp : Possible s (.fire .au now)) :
    ∃ id ts, running b h = some (id, ts) ∧ (txStep s (.fire .au now)).2 =
      if (confAt h).duringIdle then []
      else sent id true (part (confAt h).aligned
        (asClock (confAt h).round (confSet h).au now (clockReading (sinceUpdate h) (lastVal h)))) := by
  have ih := TxInv.run hr
  obtain ⟨a, id, ts, ha, _, hq, e⟩ := fire_eq hr hp
  refine ⟨id, ts, hq, ?_⟩
  rw [e]
  simp only [callback]
  rw [ih.conf]
  by_cases hd : (confAt h).duringIdle = true
  · rw [if_pos hd, if_pos hd]
  · rw [if_neg hd, if_neg hd]
    simp only
    rw [ih.last, ih.upd.value (lastVal h) ih.lastU, (ih.armed _ _ ha).1]
    apply txMessage_clock
    simp [asClock]

/-- C235: nothing else sends meter values of a transaction; no timer runs without a transaction. -/
theorem C235_only {b : Bool} {h : List TxOp} {s : TxState} (hr : TxRun b h s) (op : TxOp) (hp : Possible s op) (o : TxOut)
    (ho : o ∈ (txStep s op).2) : (∃ t now, (t = .su ∨ t = .au) ∧ op = .fire t now ∧ ∃ id ts c v, running b h = some (id, ts) ∧ o = .updated id c v) ∨
      (∃ id ts m now v, op = .start id ts m now ∧ o = .started id v) ∨
      (∃ ts m id ts' v, op = .stop ts m ∧ running b h = some (id, ts') ∧ o = .ended id v) := by
  have ih := TxInv.run hr
  have hmsg : ∀ c id m, ∀ o ∈ txMessage c id m, ∃ c v, o = .updated id c v := by
    intro c id m o ho
    have hf : ∀ cl m ms, ∀ o ∈ filtered id cl m ms, ∃ c v, o = .updated id c v := by
      intro cl m ms o ho
      unfold filtered at ho
      split at ho
      · simp at ho
      · simp only [List.mem_singleton] at ho; exact ⟨_, _, ho⟩
    unfold txMessage at ho
    split at ho
    · simp at ho
    · split at ho
      · exact hf _ _ _ _ ho
      · exact hf _ _ _ _ ho
      · simp at ho
  cases op with
  | config c => simp [txStep] at ho
  | value m => simp [txStep] at ho
  | idle => simp [txStep] at ho
  | restart now => simp [txStep] at ho
  | start id ts m now =>
    simp only [txStep, startTx, List.mem_singleton] at ho
    exact .inr (.inl ⟨id, ts, m, now, _, rfl, ho⟩)
  | fire t now =>
    obtain ⟨a, id, ts, _, _, hq, e⟩ := fire_eq hr hp
    rw [e] at ho
    left
    cases t
    · obtain ⟨c, v, hv⟩ := hmsg _ _ _ _ ho
      exact ⟨.su, now, .inl rfl, rfl, id, ts, c, v, hq, hv⟩
    · simp [callback] at ho
    · simp only [callback] at ho
      split at ho
      · simp at ho
      · obtain ⟨c, v, hv⟩ := hmsg _ _ _ _ ho
        exact ⟨.au, now, .inr rfl, rfl, id, ts, c, v, hq, hv⟩
    · simp [callback] at ho
  | stop ts m =>
    obtain ⟨h1, h2⟩ := hp
    obtain ⟨⟨id, ts0⟩, htx⟩ := Option.isSome_iff_exists.mp h1
    have hq : running b h = some (id, ts0) := by rw [← ih.tx, htx]
    have e : txStep s (.stop ts m) = stopTx s ts m := rfl
    rw [e] at h2 ho
    unfold stopTx at h2 ho
    rw [htx] at h2 ho
    simp only at h2 ho
    cases hg : getAll (insert s.db id m) id with
    | none => rw [hg] at h2; simp at h2
    | some l =>
      rw [hg] at ho
      simp only [List.mem_singleton] at ho
      exact .inr (.inr ⟨ts, m, id, ts0, _, rfl, hq, ho⟩)

/-- C235 violated: if the application reports values without context, or in the context Trigger, nothing is sent although the interval has passed. -/
theorem C235_context_violated (c : Option Ctx) (hc : c = none ∨ c = some .trigger ∨ c = some .other) :
    ∃ h s, TxRun false h s ∧ Possible s (.fire .su (11 * NS)) ∧ (lastVal h).samples = [{ value := 230, measurand := some 1, context := c }] ∧
      (confAt h).updated = [1] ∧ (txStep s (.fire .su (11 * NS))).2 = [] := by
  refine ⟨[.value ⟨5 * NS, [{ value := 230, measurand := some 1, context := c }]⟩, .start 1 0 {} NS, .config { su := 10, updated := [1] }], _,
    .step (.step (.step .nil trivial) trivial) trivial, ⟨⟨0, 10, 10 * NS⟩, rfl, by decide⟩, rfl, rfl, ?_⟩
  rcases hc with rfl | rfl | rfl <;> rfl

/-! ## C236: the values of TransactionEvent(Ended) -/

/-- The readings of the running transaction: at its start; if a clock-aligned instant has passed between the time of the start and its report, the last
value; at every sample time the last value; at every clock-aligned instant the means (oldest first). -/
def readings : List TxOp → List Meter
  | [] => []
  | .start _ ts m now :: h =>
    m :: (if passed (confAt h) ts now then [asClock (confAt h).round (confAt h).ae now (lastVal h)] else [])
  | .fire .se _ :: h => readings h ++ [lastVal h]
  | .fire .ae now :: h =>
    readings h ++ [asClock (confAt h).round (confSet h).ae now (clockReading (sinceStored h) (lastVal h))]
  | _ :: h => readings h

/-- All contexts. -/
def allCtx : List Ctx := [.interruptionBegin, .interruptionEnd, .other, .clock, .periodic, .txBegin, .txEnd, .trigger]

/-- A reading is kept if its samples have one context and there is none yet with that time and context. -/
def keepOne (l : List Meter) (m : Meter) : List Meter :=
  if (∃ c ∈ allCtx, InContext m c ∧ ∀ p ∈ l, ¬ (p.time = m.time ∧ InContext p c)) then l ++ [m] else l

/-- The readings kept. -/
def keepAll (l : List Meter) : List Meter := l.foldl keepOne []

/-- The ids of all transactions. -/
def startIds : List TxOp → List Nat
  | [] => []
  | .start id _ _ _ :: h => id :: startIds h
  | _ :: h => startIds h

/-- The values `v` are exactly the configured parts of the readings `l` up to the end, in their order (as in C101). -/
def Reports (c : Ended) (max : Int) (l v : List Meter) : Prop :=
  (∀ r ∈ v, ∃ m ∈ l, ∃ x ms g, TakenIn m x ∧ Config c x ms g ∧ m.time ≤ max ∧ PartOf m r ms g) ∧
  (∀ m ∈ l, ∀ x ms g, TakenIn m x → Config c x ms g → m.time ≤ max → (∃ s ∈ m.samples, ∃ y ∈ ms, s.measurand = some y) →
    ∃ r ∈ v, PartOf m r ms g) ∧
  (v.map (·.time)).Sublist (l.map (·.time))

/-- The values of a transaction in a list. -/
def ofTx (id : Nat) (l : List (Nat × Meter)) : List Meter := (l.filter (fun p => p.1 == id)).map (·.2)

theorem mem_ofTx (id : Nat) (l : List (Nat × Meter)) (m : Meter) : m ∈ ofTx id l ↔ (id, m) ∈ l := by
  simp only [ofTx, List.mem_map, List.mem_filter, beq_iff_eq]
  constructor
  · rintro ⟨⟨i, x⟩, ⟨h1, h2⟩, h3⟩
    simp only at h2 h3; subst h2; subst h3; exact h1
  · intro h; exact ⟨(id, m), ⟨h, rfl⟩, rfl⟩

theorem keepStep_own (l : List (Nat × Meter)) (id : Nat) (m : Meter) : ofTx id (keepStep l (.insert id m)) = keepOne (ofTx id l) m := by
  have key : (∃ c ∈ [Ctx.interruptionBegin, .interruptionEnd, .other, .clock, .periodic, .txBegin, .txEnd, .trigger], InContext m c ∧
        ∀ p ∈ l, ¬ (p.1 = id ∧ p.2.time = m.time ∧ InContext p.2 c)) ↔
      (∃ c ∈ allCtx, InContext m c ∧ ∀ p ∈ ofTx id l, ¬ (p.time = m.time ∧ InContext p c)) := by
    apply exists_congr; intro c
    apply and_congr Iff.rfl
    apply and_congr Iff.rfl
    constructor
    · intro hh p hp hx
      exact hh (id, p) ((mem_ofTx _ _ _).mp hp) ⟨rfl, hx⟩
    · rintro hh ⟨i, p⟩ hp ⟨hx, hy⟩
      simp only at hx hy; subst hx
      exact hh p ((mem_ofTx _ _ _).mpr hp) hy
  unfold keepStep keepOne
  simp only
  by_cases hk : (∃ c ∈ allCtx, InContext m c ∧ ∀ p ∈ ofTx id l, ¬ (p.time = m.time ∧ InContext p c))
  · rw [if_pos (key.mpr hk), if_pos hk]
    simp [ofTx]
  · rw [if_neg (fun hh => hk (key.mp hh)), if_neg hk]

theorem kept_append (a : List DbOp) (op : DbOp) : kept (a ++ [op]) = keepStep (kept a) op := by simp [kept]

theorem kept_append2 (a : List DbOp) (o1 o2 : DbOp) : kept (a ++ [o1, o2]) = keepStep (keepStep (kept a) o1) o2 := by simp [kept]

theorem keepAll_append (l : List Meter) (m : Meter) : keepAll (l ++ [m]) = keepOne (keepAll l) m := by simp [keepAll]

theorem mem_keepStep_insert (l : List (Nat × Meter)) (id : Nat) (m : Meter) (p : Nat × Meter) (h : p ∈ keepStep l (.insert id m)) :
    p ∈ l ∨ p = (id, m) := by
  unfold keepStep at h
  simp only at h
  split at h
  · rcases List.mem_append.mp h with h | h
    · exact .inl h
    · exact .inr (List.mem_singleton.mp h)
  · exact .inl h

theorem running_mem (b : Bool) : ∀ (h : List TxOp) (id : Nat) (ts : Int), running b h = some (id, ts) → id ∈ startIds h
  | [], _, _, hh => by simp [running] at hh
  | .start _ _ _ _ :: h, id, ts, hh => by
    simp only [running, Option.some.injEq, Prod.mk.injEq] at hh
    simp [startIds, hh.1]
  | .stop _ _ :: h, id, ts, hh => by simp [running] at hh
  | .restart _ :: h, id, ts, hh => by
    simp only [running] at hh
    split at hh
    · exact running_mem b h id ts hh
    · cases hh
  | .config _ :: h, id, ts, hh => running_mem b h id ts hh
  | .value _ :: h, id, ts, hh => running_mem b h id ts hh
  | .fire _ _ :: h, id, ts, hh => running_mem b h id ts hh
  | .idle :: h, id, ts, hh => running_mem b h id ts hh

/-- The values in the database belong to transactions that were started. -/
theorem kept_ids (b : Bool) : ∀ (h : List TxOp) (p : Nat × Meter), p ∈ kept (dbOps b h) → p.1 ∈ startIds h := by
  intro h
  induction h with
  | nil => intro p hp; simp [dbOps, kept] at hp
  | cons op h ih =>
    intro p hp
    have ins : ∀ id m, id ∈ startIds h → p ∈ kept (dbOps b h ++ [.insert id m]) → p.1 ∈ startIds h := by
      intro id m hid hpp
      rw [kept_append] at hpp
      rcases mem_keepStep_insert _ _ _ _ hpp with hpp | hpp
      · exact ih p hpp
      · rw [hpp]; exact hid
    cases op with
    | config c => exact ih p hp
    | value m => exact ih p hp
    | idle => exact ih p hp
    | restart now => exact ih p hp
    | start id ts m now =>
      simp only [startIds, List.mem_cons]
      simp only [dbOps] at hp
      have h1 : ∀ q, q ∈ keepStep (kept (dbOps b h)) (.insert id m) → q.1 = id ∨ q.1 ∈ startIds h := by
        intro q hq
        rcases mem_keepStep_insert _ _ _ _ hq with hq | hq
        · exact .inr (ih q hq)
        · left; rw [hq]
      split at hp
      · rw [kept_append2] at hp
        rcases mem_keepStep_insert _ _ _ _ hp with hp | hp
        · exact h1 p hp
        · left; rw [hp]
      · rw [kept_append] at hp; exact h1 p hp
    | fire t now =>
      cases t with
      | su => exact ih p hp
      | au => exact ih p hp
      | se =>
        simp only [dbOps] at hp
        cases hq : running b h with
        | none => rw [hq] at hp; simp only [List.append_nil] at hp; exact ih p hp
        | some q => rw [hq] at hp; exact ins q.1 _ (running_mem b h q.1 q.2 hq) hp
      | ae =>
        simp only [dbOps] at hp
        cases hq : running b h with
        | none => rw [hq] at hp; simp only [List.append_nil] at hp; exact ih p hp
        | some q => rw [hq] at hp; exact ins q.1 _ (running_mem b h q.1 q.2 hq) hp
    | stop ts m =>
      simp only [dbOps] at hp
      cases hq : running b h with
      | none => rw [hq] at hp; simp only [List.append_nil] at hp; exact ih p hp
      | some q =>
        rw [hq] at hp
        simp only at hp
        rw [kept_append2] at hp
        have h1 : p ∈ keepStep (kept (dbOps b h)) (.insert q.1 m) := (List.mem_filter.mp hp).1
        rcases mem_keepStep_insert _ _ _ _ h1 with h1 | h1
        · exact ih p h1
        · rw [h1]; exact running_mem b h q.1 q.2 hq

/-- The values in the database for the running transaction are its readings. -/
theorem kept_running (b : Bool) : ∀ (h : List TxOp), (startIds h).Nodup → ∀ id ts, running b h = some (id, ts) →
    ofTx id (kept (dbOps b h)) = keepAll (readings h) := by
  intro h
  induction h with
  | nil => intro _ id ts hh; simp [running] at hh
  | cons op h ih =>
    intro hn id ts hh
    cases op with
    | config c => exact ih hn id ts hh
    | value m => exact ih hn id ts hh
    | idle => exact ih hn id ts hh
    | stop _ _ => simp [running] at hh
    | restart now =>
      simp only [running] at hh
      split at hh
      · exact ih hn id ts hh
      · cases hh
    | start id' ts' m now =>
      simp only [running, Option.some.injEq, Prod.mk.injEq] at hh
      obtain ⟨rfl, rfl⟩ := hh
      simp only [startIds, List.nodup_cons] at hn
      have h0 : ofTx id' (kept (dbOps b h)) = [] := by
        rw [List.eq_nil_iff_forall_not_mem]
        intro x hx
        exact hn.1 (kept_ids b h (id', x) ((mem_ofTx _ _ _).mp hx))
      simp only [dbOps, readings]
      split
      · rw [kept_append2, keepStep_own, keepStep_own, h0]; rfl
      · rw [kept_append, keepStep_own, h0]; rfl
    | fire t now =>
      have hh' : running b h = some (id, ts) := hh
      cases t with
      | su => exact ih hn id ts hh
      | au => exact ih hn id ts hh
      | se =>
        simp only [dbOps, readings, hh']
        rw [kept_append, keepStep_own, ih hn id ts hh', keepAll_append]
      | ae =>
        simp only [dbOps, readings, hh']
        rw [kept_append, keepStep_own, ih hn id ts hh', keepAll_append]

/-- The application reports only plain values (see C48). -/
def PlainOp : TxOp → Prop
  | .value m => Plain m
  | .start _ _ m _ => Plain m
  | _ => True

theorem plain_empty (t : Int) : Plain ⟨t, []⟩ := by refine ⟨?_, ?_, ?_, ?_⟩ <;> simp

theorem withMean_same (l : List Meter) (s : Sample) : (withMean l s).custom = s.custom ∧ (withMean l s).signed = s.signed ∧
    (withMean l s).unit = s.unit ∧ (withMean l s).location = s.location := by
  unfold withMean; split <;> exact ⟨rfl, rfl, rfl, rfl⟩

theorem Plain.map {m : Meter} (h : Plain m) (f : Sample → Sample) (t : Int)
    (hf : ∀ s, (f s).custom = s.custom ∧ (f s).signed = s.signed ∧ (f s).unit = s.unit ∧ (f s).location = s.location) :
    Plain ⟨t, m.samples.map f⟩ := by
  obtain ⟨h1, h2, h3, h4⟩ := h
  refine ⟨?_, ?_, ?_, ?_⟩
  · intro s hs
    obtain ⟨x, hx, rfl⟩ := List.mem_map.mp hs
    rw [(hf x).1]; exact h1 x hx
  · intro s hs
    obtain ⟨x, hx, rfl⟩ := List.mem_map.mp hs
    rw [(hf x).2.1]; exact h2 x hx
  · intro s hs
    obtain ⟨x, hx, rfl⟩ := List.mem_map.mp hs
    rw [(hf x).2.2.1]; exact h3 x hx
  · intro s hs s' hs'
    obtain ⟨x, hx, rfl⟩ := List.mem_map.mp hs
    obtain ⟨y, hy, rfl⟩ := List.mem_map.mp hs'
    rw [(hf x).2.2.1, (hf x).2.2.2, (hf y).2.2.1, (hf y).2.2.2]; exact h4 x hx y hy

theorem Plain.asClock {m : Meter} (h : Plain m) (r : Bool) (i now : Int) : Plain (asClock r i now m) :=
  h.map _ _ (fun _ => ⟨rfl, rfl, rfl, rfl⟩)

theorem plain_last : ∀ (h : List TxOp), (∀ op ∈ h, PlainOp op) → Plain (lastVal h) := by
  intro h
  induction h with
  | nil => intro _; exact plain_empty 0
  | cons op h ih =>
    intro hp
    have ih' := ih (fun o ho => hp o (List.mem_cons_of_mem _ ho))
    have h0 := hp op (List.mem_cons_self ..)
    cases op with
    | value m => exact h0
    | restart _ => exact plain_empty 0
    | config _ => exact ih'
    | start _ _ _ _ => exact ih'
    | fire _ _ => exact ih'
    | stop _ _ => exact ih'
    | idle => exact ih'

theorem plain_stored : ∀ (h : List TxOp), (∀ op ∈ h, PlainOp op) → ∀ m ∈ sinceStored h, Plain m := by
  intro h
  induction h with
  | nil => intro _ m hm; simp [sinceStored] at hm
  | cons op h ih =>
    intro hp m hm
    have ih' := ih (fun o ho => hp o (List.mem_cons_of_mem _ ho))
    have h0 := hp op (List.mem_cons_self ..)
    cases op with
    | value x =>
      simp only [sinceStored, List.mem_append, List.mem_singleton] at hm
      rcases hm with hm | rfl
      · exact ih' m hm
      · exact h0
    | restart _ => simp [sinceStored] at hm
    | config _ => exact ih' m hm
    | start _ _ _ _ => simp [sinceStored] at hm
    | fire t _ => cases t with
      | ae => simp [sinceStored] at hm
      | su => exact ih' m hm
      | se => exact ih' m hm
      | au => exact ih' m hm
    | stop _ _ => exact ih' m hm
    | idle => exact ih' m hm

theorem plain_readings : ∀ (h : List TxOp), (∀ op ∈ h, PlainOp op) → ∀ m ∈ readings h, Plain m := by
  intro h
  induction h with
  | nil => intro _ m hm; simp [readings] at hm
  | cons op h ih =>
    intro hp m hm
    have hp' := fun o (ho : o ∈ h) => hp o (List.mem_cons_of_mem _ ho)
    have ih' := ih hp'
    have h0 := hp op (List.mem_cons_self ..)
    cases op with
    | value x => exact ih' m hm
    | restart _ => exact ih' m hm
    | config _ => exact ih' m hm
    | start _ _ x _ =>
      simp only [readings, List.mem_cons] at hm
      rcases hm with rfl | hm
      · exact h0
      · split at hm
        · simp only [List.mem_singleton] at hm; rw [hm]; exact (plain_last h hp').asClock _ _ _
        · simp at hm
    | fire t now => cases t with
      | ae =>
        simp only [readings, List.mem_append, List.mem_singleton] at hm
        rcases hm with hm | rfl
        · exact ih' m hm
        · apply Plain.asClock
          unfold clockReading
          cases hg : (sinceStored h).getLast? with
          | none => exact plain_last h hp'
          | some x => exact (plain_stored h hp' x (List.mem_of_getLast? hg)).map _ _ (withMean_same _)
      | se =>
        simp only [readings, List.mem_append, List.mem_singleton] at hm
        rcases hm with hm | rfl
        · exact ih' m hm
        · exact plain_last h hp'
      | su => exact ih' m hm
      | au => exact ih' m hm
    | stop _ _ => exact ih' m hm
    | idle => exact ih' m hm

theorem keepAll_mem (l : List Meter) : ∀ m ∈ keepAll l, m ∈ l := by
  have key : ∀ (l acc : List Meter), ∀ m ∈ l.foldl keepOne acc, m ∈ acc ∨ m ∈ l := by
    intro l
    induction l with
    | nil => intro acc m hm; exact .inl hm
    | cons x r ih =>
      intro acc m hm
      rcases ih _ m hm with h | h
      · unfold keepOne at h
        split at h
        · rcases List.mem_append.mp h with h | h
          · exact .inl h
          · right; rw [List.mem_singleton.mp h]; exact List.mem_cons_self ..
        · exact .inl h
      · exact .inr (List.mem_cons_of_mem _ h)
  intro m hm
  rcases key l [] m hm with h | h
  · simp at h
  · exact h

/-- C236: at the end of a transaction a TransactionEvent(Ended) is sent with exactly the configured measurands of the readings of that transaction up to its
end, in their order: at the start, at the sample times, at the clock-aligned instants (with the means since the last one) and at the end; also after
restarts in between; whatever other transactions there were.  Values are plain (C48), transaction ids are not used twice, and of several readings with
the same time and context only the first one counts (`keepAll`). -/
theorem C236_partial {b : Bool} {h : List TxOp} {s : TxState} (hr : TxRun b h s) (hn : (startIds h).Nodup) (hpl : ∀ op ∈ h, PlainOp op)
    (id : Nat) (ts0 ts : Int) (m : Meter) (hm : Plain m) (hrun : running b h = some (id, ts0)) :
    ∃ v, (txStep s (.stop ts m)).2 = [.ended id (if v = [] then none else some v)] ∧
      Reports (confAt h).ended ts (keepAll (readings h ++ [m])) v := by
  have ih := TxInv.run hr
  have htx : s.tx = some (id, ts0) := by rw [ih.tx, hrun]
  have hg : getAll (insert s.db id m) id = some (keepAll (readings h ++ [m])) := by
    have e1 : insert s.db id m = dbRun (dbOps b h ++ [.insert id m]) := by rw [dbRun_append, ← ih.db]; rfl
    have e2 : ofTx id (kept (dbOps b h ++ [.insert id m])) = keepAll (readings h ++ [m]) := by
      rw [kept_append, keepStep_own, kept_running b h hn id ts0 hrun, keepAll_append]
    rw [e1, C48_partial, ← e2]
    · rfl
    · rintro ⟨i, x⟩ hp1 hp2
      simp only at hp2; subst hp2
      have h1 : x ∈ ofTx i (kept (dbOps b h ++ [.insert i m])) := (mem_ofTx _ _ _).mpr hp1
      rw [e2] at h1
      rcases List.mem_append.mp (keepAll_mem _ x h1) with h2 | h2
      · exact plain_readings h hpl x h2
      · rw [List.mem_singleton.mp h2]; exact hm
  refine ⟨ended (confAt h).ended ts (keepAll (readings h ++ [m])), ?_, C101 _ _ _⟩
  show (stopTx s ts m).2 = _
  unfold stopTx
  rw [htx]
  simp only [hg]
  rw [ih.conf]
  simp

theorem passed_iff (c : Conf) (ts now : Int) : passed c ts now = true ↔
    0 < c.ae ∧ ∃ k : Int, ts ≤ midnight now + k * (c.ae * NS) ∧ midnight now + k * (c.ae * NS) < next (midnight now) c.ae now := by
  unfold passed
  rw [Bool.and_eq_true, decide_eq_true_iff, decide_eq_true_iff]
  constructor
  · rintro ⟨h1, h2⟩
    refine ⟨h1, ?_⟩
    obtain ⟨k, hk⟩ := (C46_next (midnight now) c.ae now h1).1
    refine ⟨(k : Int) - 1, ?_, ?_⟩
    · have : midnight now + ((k : Int) - 1) * (c.ae * NS) = next (midnight now) c.ae now - c.ae * NS := by rw [hk]; ring
      rw [this]; exact h2
    · have : midnight now + ((k : Int) - 1) * (c.ae * NS) = next (midnight now) c.ae now - c.ae * NS := by rw [hk]; ring
      rw [this]
      have := mul_pos h1 NS_pos
      omega
  · rintro ⟨h1, k, h2, h3⟩
    refine ⟨h1, ?_⟩
    obtain ⟨n, hn⟩ := (C46_next (midnight now) c.ae now h1).1
    rw [hn] at h3 ⊢
    have h5 : k * (c.ae * NS) < (n : Int) * (c.ae * NS) := by
      have : (n : Int) * (c.ae * NS) = n * c.ae * NS := by ring
      omega
    have h6 : k < n := lt_of_mul_lt_mul_right h5 (mul_pos h1 NS_pos).le
    have h7 : (k + 1) * (c.ae * NS) ≤ (n : Int) * (c.ae * NS) := mul_le_mul_of_nonneg_right (by omega) (mul_pos h1 NS_pos).le
    have h8 : (k + 1) * (c.ae * NS) = k * (c.ae * NS) + c.ae * NS := by ring
    have h9 : (n : Int) * (c.ae * NS) = n * c.ae * NS := by ring
    omega

/-- C236: the additional reading at the start is taken exactly if a clock-aligned instant lies after the time of the start and before the one the timer is
set for: no clock-aligned instant of the transaction is without reading. -/
theorem C236_catch_up {b : Bool} {h : List TxOp} {s : TxState} (hr : TxRun b h s) (id : Nat) (ts now : Int) (m : Meter) :
    ∃ l, readings (.start id ts m now :: h) = m :: l ∧
      ((∃ a, (txStep s (.start id ts m now)).1.timer .ae = some a ∧ (∃ k : Int, ts ≤ a.start + k * (a.interval * NS) ∧
          a.start + k * (a.interval * NS) < a.due)) → l = [asClock (confAt h).round (confAt h).ae now (lastVal h)]) ∧
      (¬ (∃ a, (txStep s (.start id ts m now)).1.timer .ae = some a ∧ (∃ k : Int, ts ≤ a.start + k * (a.interval * NS) ∧
          a.start + k * (a.interval * NS) < a.due)) → l = []) := by
  have ih := TxInv.run hr
  have e : (txStep s (.start id ts m now)).1.timer .ae = arm (midnight now) (confAt h).ae now := by
    show (startTimers _ id ts now).timer .ae = _
    rw [startTimers_timer]
    simp only [armAll, ih.conf]
  rw [e]
  have hi : passed (confAt h) ts now = true ↔ ∃ a, arm (midnight now) (confAt h).ae now = some a ∧
      (∃ k : Int, ts ≤ a.start + k * (a.interval * NS) ∧ a.start + k * (a.interval * NS) < a.due) := by
    rw [passed_iff]
    unfold arm
    by_cases hae : (confAt h).ae > 0
    · rw [if_pos hae]
      constructor
      · rintro ⟨_, k, hk⟩; exact ⟨_, rfl, k, hk⟩
      · rintro ⟨a, ha, k, hk⟩; cases ha; exact ⟨hae, k, hk⟩
    · rw [if_neg hae]
      constructor
      · rintro ⟨h1, _⟩; exact absurd h1 hae
      · rintro ⟨a, ha, _⟩; cases ha
  refine ⟨_, rfl, ?_, ?_⟩
  · intro hq; rw [if_pos (hi.mpr hq)]
  · intro hq; rw [if_neg (fun hh => hq (hi.mp hh))]

/-! ## C237: the times -/

/-- C237: while a transaction is running exactly the timers are set whose interval was positive at its start (or at the last restart); the sampled ones for
instants a whole number of intervals after the start of the transaction, also after restarts; without transaction none is set. -/
theorem C237 {b : Bool} {h : List TxOp} {s : TxState} (hr : TxRun b h s) :
    (running b h = none → ∀ t, s.timer t = none) ∧
    (∀ id ts, running b h = some (id, ts) → ∀ t, ((s.timer t).isSome ↔ 0 < (confSet h).interval t) ∧
      ∀ a, s.timer t = some a → a.interval = (confSet h).interval t ∧ Aligned a.start a.interval a.due ∧ (t = .su ∨ t = .se → a.start = ts)) := by
  have ih := TxInv.run hr
  refine ⟨ih.idle, ?_⟩
  intro id ts hq t
  refine ⟨⟨?_, ih.set _ hq t⟩, ?_⟩
  · intro hs
    obtain ⟨a, ha⟩ := Option.isSome_iff_exists.mp hs
    obtain ⟨h1, h2, _⟩ := ih.armed t a ha
    rw [← h1]; exact h2
  · intro a ha
    obtain ⟨h1, _, h3⟩ := ih.armed t a ha
    refine ⟨h1, h3, ?_⟩
    rintro (rfl | rfl)
    · exact ih.from' _ hq a (.inl ha)
    · exact ih.from' _ hq a (.inr ha)

/-- C237: if a timer runs before its next instant, it is set for exactly that one: no instant is left out or served twice; the other timers are left
alone. -/
theorem C237_next_partial {b : Bool} {h : List TxOp} {s : TxState} (hr : TxRun b h s) (t : Tm) (a : Armed) (now : Int) (ha : s.timer t = some a)
    (h1 : a.due ≤ now) (h2 : now < a.due + a.interval * NS) (h3 : a.start < now) :
    (txStep s (.fire t now)).1.timer t = some { a with due := a.due + a.interval * NS } ∧
    ∀ x, x ≠ t → (txStep s (.fire t now)).1.timer x = s.timer x := by
  have ih := TxInv.run hr
  obtain ⟨a', id, ts, ha', _, hq, e⟩ := fire_eq hr (t := t) (now := now) ⟨a, ha, h1⟩
  rw [ha] at ha'; cases ha'
  rw [e]
  obtain ⟨_, q2, ⟨k, q3⟩⟩ := ih.armed t a ha
  simp only [if_true]
  refine ⟨?_, fun x hx => by rw [if_neg hx]⟩
  obtain ⟨⟨n, n1⟩, _, n3⟩ := C46_next a.start a.interval now q2
  obtain ⟨n4, n5⟩ := n3 h3
  have hal : Aligned a.start a.interval (a.due + a.interval * NS) := ⟨k + 1, by rw [q3]; push_cast; ring⟩
  have le1 := n5 _ hal h2
  have : next a.start a.interval now = a.due + a.interval * NS := by
    have e1 : (k : Int) * a.interval * NS = k * (a.interval * NS) := by ring
    have e2 : (n : Int) * a.interval * NS = n * (a.interval * NS) := by ring
    have hpos := mul_pos q2 NS_pos
    have lt : (k : Int) * (a.interval * NS) < n * (a.interval * NS) := by omega
    have lt2 : (k : Int) < n := lt_of_mul_lt_mul_right lt hpos.le
    have le2 : ((k : Int) + 1) * (a.interval * NS) ≤ n * (a.interval * NS) := mul_le_mul_of_nonneg_right (by omega) hpos.le
    have e3 : ((k : Int) + 1) * (a.interval * NS) = k * (a.interval * NS) + a.interval * NS := by ring
    omega
  rw [this]

/-! ## Examples and violations -/

/-- A voltage and a register reading, at a time in seconds. -/
def exVal (t : Int) (v e : Rat) (c : Ctx) : Meter :=
  ⟨t * NS, [{ value := v, measurand := some 1, context := some c }, { value := e, measurand := some 4, context := some c }]⟩

/-- The configuration of the examples: samples every 10 s, clock-aligned values every 60 s. -/
def exConf : Conf :=
  { su := 10, se := 10, au := 60, ae := 60, started := [4], updated := [1], aligned := [1, 4], ended := { sampled := [4], aligned := [1] } }

/-- A transaction that starts at 51 s (reported at 52 s), with a restart. -/
def exTx : List TxOp := [.fire .ae (61 * NS), .fire .au (60 * NS), .value (exVal 58 234 6 .periodic), .value (exVal 55 230 6 .periodic), .restart (54 * NS),
  .start 1 (51 * NS) (exVal 51 229 5 .txBegin) (52 * NS), .value (exVal 50 220 5 .periodic), .config exConf]

/-- Non-vacuity: it is a history. -/
theorem exTx_run : ∃ s, TxRun true exTx s ∧ running true exTx = some (1, 51 * NS) ∧ Possible s (.fire .su (62 * NS)) ∧
    (txStep s (.fire .su (62 * NS))).2 = [.updated 1 false ⟨58 * NS, [{ value := 234, measurand := some 1, context := some .periodic }]⟩] ∧
    (txStep s (.stop (63 * NS) (exVal 63 235 7 .txEnd))).2 = [.ended 1 (some [
      ⟨51 * NS, [{ value := 5, measurand := some 4, context := some .txBegin }]⟩,
      ⟨58 * NS, [{ value := 232, measurand := some 1, context := some .clock }]⟩,
      ⟨63 * NS, [{ value := 7, measurand := some 4, context := some .txEnd }]⟩])] := by
  refine ⟨_, .step (.step (.step (.step (.step (.step (.step (.step .nil trivial) trivial) trivial) trivial) trivial) trivial) ?_) ?_, rfl, ?_, ?_, ?_⟩
  · exact ⟨⟨0, 60, 60 * NS⟩, rfl, by decide⟩
  · exact ⟨⟨0, 60, 60 * NS⟩, rfl, by decide⟩
  · exact ⟨⟨51 * NS, 10, 61 * NS⟩, rfl, by decide⟩
  · decide +kernel
  · decide +kernel

/-- Non-vacuity of `C235_clock`: at 60 s the mean of the values since the restart. -/
example : ∃ s, TxRun true (exTx.drop 2) s ∧ Possible s (.fire .au (60 * NS)) ∧ (txStep s (.fire .au (60 * NS))).2 =
    [.updated 1 true ⟨58 * NS, [{ value := 232, measurand := some 1, context := some .clock }, { value := 6, measurand := some 4, context := some .clock }]⟩] := by
  refine ⟨_, .step (.step (.step (.step (.step (.step .nil trivial) trivial) trivial) trivial) trivial) trivial, ?_, ?_⟩
  · exact ⟨⟨0, 60, 60 * NS⟩, rfl, by decide⟩
  · decide +kernel

/-- Non-vacuity of `C236_partial`. -/
example : (startIds exTx).Nodup ∧ (readings exTx).map (·.time) = [51 * NS, 58 * NS] ∧ ∀ op ∈ exTx, PlainOp op := by
  refine ⟨by decide, by decide +kernel, ?_⟩
  have hp : ∀ t v e c, Plain (exVal t v e c) := by
    intro t v e c; refine ⟨?_, ?_, ?_, ?_⟩ <;> simp [exVal]
  intro op ho
  simp only [exTx, List.mem_cons, List.not_mem_nil, or_false] at ho
  rcases ho with rfl | rfl | rfl | rfl | rfl | rfl | rfl | rfl <;> first | trivial | exact hp _ _ _ _

/-- Non-vacuity of `C235_started`. -/
example : (txStep { resume := false, conf := exConf } (.start 1 0 (exVal 0 229 5 .txBegin) 0)).2 =
    [.started 1 (some ⟨0, [{ value := 5, measurand := some 4, context := some .txBegin }]⟩)] := by decide +kernel

/-- Non-vacuity of `C236_catch_up`: the start at 59 s is reported at 61 s. -/
example : (readings [.start 1 (59 * NS) (exVal 59 229 5 .txBegin) (61 * NS), .value (exVal 58 220 5 .periodic), .config exConf]) =
    [exVal 59 229 5 .txBegin, exVal 58 220 5 .clock] := by decide +kernel

/-- C236 violated: the start of a transaction is reported 36 s late, after a clock-aligned instant (60 s), with RoundClockAlignedTimestamps.  The additional
reading gets the time of the *next* instant (120 s); the reading at that instant is then dropped: the values of the end have the voltage before the start
(220 V) for 120 s although it was 230 V. -/
theorem C236_catch_up_violated : ∃ h s, TxRun false h s ∧ running false h = some (1, 59 * NS) ∧
    h.head? = some (.fire .ae (120 * NS)) ∧ (lastVal h) = exVal 119 230 6 .periodic ∧
    (txStep s (.stop (130 * NS) (exVal 130 230 7 .txEnd))).2 = [.ended 1 (some [
      ⟨59 * NS, [{ value := 5, measurand := some 4, context := some .txBegin }]⟩,
      ⟨120 * NS, [{ value := 220, measurand := some 1, context := some .clock }]⟩,
      ⟨130 * NS, [{ value := 7, measurand := some 4, context := some .txEnd }]⟩])] := by
  refine ⟨[.fire .ae (120 * NS), .value (exVal 119 230 6 .periodic), .start 1 (59 * NS) (exVal 59 220 5 .txBegin) (95 * NS),
    .value (exVal 58 220 5 .periodic), .config { exConf with round := true }], _,
    .step (.step (.step (.step (.step .nil trivial) trivial) trivial) trivial) ?_, rfl, rfl, rfl, ?_⟩
  · exact ⟨⟨0, 60, 120 * NS⟩, rfl, by decide⟩
  · decide +kernel

/-- C236 violated: the values of the end can have one from before the start of the transaction: the additional reading is the last value measured, here 40 s
before the start, with its time. -/
theorem C236_before_violated : ∃ h s, TxRun false h s ∧ running false h = some (1, 59 * NS) ∧
    (txStep s (.stop (130 * NS) (exVal 130 230 7 .txEnd))).2 = [.ended 1 (some [
      ⟨59 * NS, [{ value := 5, measurand := some 4, context := some .txBegin }]⟩,
      ⟨19 * NS, [{ value := 220, measurand := some 1, context := some .clock }]⟩,
      ⟨130 * NS, [{ value := 7, measurand := some 4, context := some .txEnd }]⟩])] := by
  refine ⟨[.start 1 (59 * NS) (exVal 59 220 5 .txBegin) (61 * NS), .value (exVal 19 220 5 .periodic), .config exConf], _,
    .step (.step (.step .nil trivial) trivial) trivial, rfl, ?_⟩
  decide +kernel

/-- C236 violated: without ResumeTransactionsOnBoot the readings of a transaction that was cut off by a restart stay in the database for good: nothing
reads or deletes them; whatever happens afterwards, unless the id is used again. -/
theorem C236_leak_violated {h : List TxOp} (id : Nat) (m : Meter) (now : Int)
    (hk : (id, m) ∈ kept (dbOps false h)) (l : List TxOp) (s' : TxState) (hr' : TxRun false (l ++ .restart now :: h) s') (hl : id ∉ startIds l) :
    s'.db = dbRun (dbOps false (l ++ .restart now :: h)) ∧ (id, m) ∈ kept (dbOps false (l ++ .restart now :: h)) := by
  refine ⟨(TxInv.run hr').db, ?_⟩
  clear hr'
  have hrun : ∀ l : List TxOp, id ∉ startIds l → ∀ p, running false (l ++ .restart now :: h) = some p → p.1 ≠ id := by
    intro l
    induction l with
    | nil => intro _ p hp; simp [running] at hp
    | cons op l ih =>
      intro hn p hp
      cases op with
      | config c => exact ih hn p hp
      | value x => exact ih hn p hp
      | fire t x => exact ih hn p hp
      | idle => exact ih hn p hp
      | stop x y => simp [running] at hp
      | restart x => simp [running] at hp
      | start i t x y =>
        simp only [List.cons_append, running, Option.some.injEq] at hp
        simp only [startIds, List.mem_cons, not_or] at hn
        rw [← hp]; exact fun hh => hn.1 hh.symm
  have hins : ∀ (k : List (Nat × Meter)) i x, (id, m) ∈ k → (id, m) ∈ keepStep k (.insert i x) := by
    intro k i x hx
    unfold keepStep; simp only
    split
    · exact List.mem_append_left _ hx
    · exact hx
  induction l with
  | nil => exact hk
  | cons op l ih =>
    have hn : id ∉ startIds l := by
      cases op <;> simp_all [startIds]
    have ih' := ih hn
    cases op with
    | config c => exact ih'
    | value x => exact ih'
    | idle => exact ih'
    | restart x => exact ih'
    | start i t x y =>
      simp only [List.cons_append, dbOps]
      split
      · rw [kept_append2]; exact hins _ _ _ (hins _ _ _ ih')
      · rw [kept_append]; exact hins _ _ _ ih'
    | fire t x =>
      cases t with
      | su => exact ih'
      | au => exact ih'
      | se =>
        simp only [List.cons_append, dbOps]
        cases running false (l ++ .restart now :: h) with
        | none => simpa using ih'
        | some p => simp only; rw [kept_append]; exact hins _ _ _ ih'
      | ae =>
        simp only [List.cons_append, dbOps]
        cases running false (l ++ .restart now :: h) with
        | none => simpa using ih'
        | some p => simp only; rw [kept_append]; exact hins _ _ _ ih'
    | stop x y =>
      simp only [List.cons_append, dbOps]
      cases hq : running false (l ++ .restart now :: h) with
      | none => simpa using ih'
      | some p =>
        simp only
        rw [kept_append2]
        unfold keepStep
        refine List.mem_filter.mpr ⟨hins _ _ _ ih', ?_⟩
        have := hrun l hn p hq
        simp only [bne_iff_ne, ne_eq]
        exact fun hh => this hh.symm

/-- Non-vacuity of `C236_leak_violated`. -/
example : (1, exVal 51 229 5 .txBegin) ∈ kept (dbOps false [.start 1 (51 * NS) (exVal 51 229 5 .txBegin) (52 * NS)]) := by decide +kernel

end Verif.Met
