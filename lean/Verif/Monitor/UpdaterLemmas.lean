import Verif.Monitor.Updater
/-
Lemmas about the updater: unique entries, what a run of the loop does with the entry of one monitor, and the
invariant of alerts.
-/
set_option linter.constructorNameAsVariable false

namespace Verif.Mon

open Verif.DM (Str Comp Vbl DataType Chars)

/-- Entries have different ids, and their events name their monitor. -/
structure MapOk (map : List Entry) : Prop where
  unique : map.Pairwise (fun x y => x.mon.id ≠ y.mon.id)
  events : ∀ e ∈ map, ∀ ev ∈ e.events, ev.monId = e.mon.id

theorem MapOk.tail {e : Entry} {r : List Entry} (h : MapOk (e :: r)) : MapOk r :=
  ⟨(List.pairwise_cons.mp h.unique).2, fun x hx => h.events x (List.mem_cons_of_mem _ hx)⟩

theorem entryOf_some {map : List Entry} {i : Nat} {e : Entry} (h : entryOf map i = some e) :
    e ∈ map ∧ e.mon.id = i :=
  ⟨List.mem_of_find?_eq_some h, by simpa using List.find?_some h⟩

theorem entryOf_none {map : List Entry} {i : Nat} : entryOf map i = none ↔ ∀ e ∈ map, e.mon.id ≠ i := by
  simp [entryOf, List.find?_eq_none]

theorem MapOk.entryOf {map : List Entry} (h : MapOk map) {e : Entry} (he : e ∈ map) :
    entryOf map e.mon.id = some e := by
  induction map with
  | nil => simp at he
  | cons x r ih =>
    unfold Mon.entryOf
    rw [List.find?_cons]
    rcases List.mem_cons.mp he with rfl | her
    · simp
    · have : x.mon.id ≠ e.mon.id := (List.pairwise_cons.mp h.unique).1 e her
      have hb : (x.mon.id == e.mon.id) = false := by simpa using this
      rw [hb]; exact ih h.tail her

theorem MapOk.filter {map : List Entry} (h : MapOk map) (p : Entry → Bool) : MapOk (map.filter p) :=
  ⟨h.unique.filter p, fun e he => h.events e (List.mem_filter.mp he).1⟩

theorem MapOk.snoc {map : List Entry} (h : MapOk map) (e : Entry) (hn : Mon.entryOf map e.mon.id = none)
    (hev : ∀ ev ∈ e.events, ev.monId = e.mon.id) : MapOk (map ++ [e]) := by
  refine ⟨?_, ?_⟩
  · rw [List.pairwise_append]
    refine ⟨h.unique, by simp, ?_⟩
    intro x hx y hy
    simp only [List.mem_singleton] at hy; subst hy
    exact entryOf_none.mp hn x hx
  · intro x hx
    rcases List.mem_append.mp hx with hx | hx
    · exact h.events x hx
    · simp only [List.mem_singleton] at hx; subst hx; exact hev

theorem entryOf_append (a b : List Entry) (i : Nat) : entryOf (a ++ b) i = (entryOf a i).or (entryOf b i) := by
  simp [entryOf, List.find?_append]

theorem entryOf_single (e : Entry) (i : Nat) : entryOf [e] i = if e.mon.id = i then some e else none := by
  simp only [entryOf, List.find?_cons, List.find?_nil]
  by_cases h : e.mon.id = i
  · simp [h]
  · have : (e.mon.id == i) = false := by simpa using h
    simp [this, h]

/-! ### Evaluation -/

theorem setClear_spec {e e' : Entry} {b : Bool} (h : setClear e b = some e') :
    e.periodic = false ∧ e' = (if e.cleared = b then e else { e with cleared := b, sent := false, generated := false }) := by
  unfold setClear at h
  cases hp : e.periodic with
  | true => simp [hp] at h
  | false =>
    refine ⟨rfl, ?_⟩
    simp only [hp, Bool.false_eq_true, if_false, beq_iff_eq] at h
    split at h <;> rename_i hc
    · rw [if_pos hc]; injection h with h; exact h.symm
    · rw [if_neg hc]; injection h with h; exact h.symm

/-- The entry keeps its monitor, its kind and its events. -/
theorem evaluateEntry_frame {m : Meta} {c : Comp} {v : Vbl} {wo : Bool} {new : Str} {t : Bool}
    {old r : Option Entry} (h : evaluateEntry m c v wo new t old = some r) :
    (∀ e, old = some e → ∃ e', r = some e' ∧ e'.mon = e.mon ∧ e'.events = e.events ∧ e'.periodic = e.periodic) ∧
    (old = none → ∀ e', r = some e' → e'.mon = m ∧ e'.events = [] ∧ e'.periodic = false) := by
  unfold evaluateEntry at h
  constructor
  · rintro e rfl
    cases t with
    | true =>
      simp only [Option.map_some, Option.getD_some, if_true] at h
      split at h
      · rw [Option.map_eq_some_iff] at h
        obtain ⟨e', he', rfl⟩ := h
        obtain ⟨_, h2⟩ := setClear_spec he'
        refine ⟨e', rfl, ?_⟩
        split at h2 <;> (subst h2; exact ⟨rfl, rfl, rfl⟩)
      · split at h
        · injection h with h; subst h; exact ⟨_, rfl, rfl, rfl, rfl⟩
        · injection h with h; subst h; exact ⟨_, rfl, rfl, rfl, rfl⟩
    | false =>
      simp only [Option.map_some, Bool.false_eq_true, if_false] at h
      split at h
      · rw [Option.map_eq_some_iff] at h
        obtain ⟨e', he', rfl⟩ := h
        obtain ⟨_, h2⟩ := setClear_spec he'
        refine ⟨e', rfl, ?_⟩
        split at h2 <;> (subst h2; exact ⟨rfl, rfl, rfl⟩)
      · injection h with h; subst h; exact ⟨_, rfl, rfl, rfl, rfl⟩
  · rintro rfl e' rfl
    cases t with
    | true =>
      simp only [Option.map_none, Option.getD_none, if_true] at h
      split at h
      · rename_i hc; simp [newTrigger] at hc
      · split at h
        · injection h with h; injection h with h; subst h; exact ⟨rfl, rfl, rfl⟩
        · injection h with h; injection h with h; subst h; exact ⟨rfl, rfl, rfl⟩
    | false => simp at h

/-- Replacing the entry of a monitor by one with the same id and events. -/
theorem put_some {map : List Entry} (h : MapOk map) {i : Nat} {e e' : Entry} (hf : entryOf map i = some e)
    (hid : e'.mon.id = e.mon.id) (hev : e'.events = e.events) :
    MapOk (put map i (some e')) ∧ entryOf (put map i (some e')) i = some e' ∧
    (∀ j, j ≠ i → entryOf (put map i (some e')) j = entryOf map j) ∧
    (put map i (some e')).map (·.events) = map.map (·.events) := by
  have hi : e'.mon.id = i := hid.trans (entryOf_some hf).2
  have hput : put map i (some e') = map.map (fun x => if x.mon.id == i then e' else x) := by simp [put, hf]
  rw [hput]
  have heq : ∀ x ∈ map, x.mon.id = i → x = e := by
    intro x hx hxi
    have h1 := h.entryOf hx
    rw [hxi, hf] at h1; injection h1 with h1; exact h1.symm
  have hids : ∀ x : Entry, (if x.mon.id == i then e' else x).mon.id = x.mon.id := by
    intro x
    by_cases hx : x.mon.id = i
    · simp [hx, hi]
    · have : (x.mon.id == i) = false := by simpa using hx
      simp [this]
  refine ⟨⟨?_, ?_⟩, ?_, ?_, ?_⟩
  · rw [List.pairwise_map]
    refine h.unique.imp ?_
    intro a b hab; rw [hids a, hids b]; exact hab
  · intro x hx
    obtain ⟨y, hy, rfl⟩ := List.mem_map.mp hx
    by_cases hyi : y.mon.id = i
    · simp only [hyi, beq_self_eq_true, if_true, hev]
      intro ev hv
      have := h.events e (entryOf_some hf).1 ev hv
      rw [this, hid]
    · have hb : (y.mon.id == i) = false := by simpa using hyi
      simp only [hb, Bool.false_eq_true, if_false]
      exact h.events y hy
  · unfold Mon.entryOf at hf ⊢
    rw [List.find?_map]
    have : ((fun x : Entry => x.mon.id == i) ∘ fun x => if x.mon.id == i then e' else x) = (fun x => x.mon.id == i) := by
      funext x; simp only [Function.comp, hids x]
    rw [this, hf]
    have : e.mon.id = i := by simpa using List.find?_some hf
    simp [this]
  · intro j hj
    unfold Mon.entryOf
    rw [List.find?_map]
    have : ((fun x : Entry => x.mon.id == j) ∘ fun x => if x.mon.id == i then e' else x) = (fun x => x.mon.id == j) := by
      funext x; simp only [Function.comp, hids x]
    rw [this]
    cases hf' : map.find? (fun x => x.mon.id == j) with
    | none => rfl
    | some x =>
      have : x.mon.id = j := by simpa using List.find?_some hf'
      have hb : x.mon.id ≠ i := by rw [this]; exact hj
      simp [hb]
  · rw [List.map_map]
    apply List.map_congr_left
    intro x hx
    by_cases hxi : x.mon.id = i
    · simp [hxi, hev, ← heq x hx hxi]
    · simp [hxi]

theorem put_new {map : List Entry} (h : MapOk map) {i : Nat} {e' : Entry} (hf : entryOf map i = none)
    (hid : e'.mon.id = i) (hev : e'.events = []) :
    MapOk (put map i (some e')) ∧ entryOf (put map i (some e')) i = some e' ∧
    (∀ j, j ≠ i → entryOf (put map i (some e')) j = entryOf map j) ∧
    (put map i (some e')).map (·.events) = map.map (·.events) ++ [[]] := by
  have hput : put map i (some e') = map ++ [e'] := by simp [put, hf]
  rw [hput]
  refine ⟨h.snoc e' (by rw [hid]; exact hf) (by simp [hev]), ?_, ?_, by simp [hev]⟩
  · rw [entryOf_append, hf, entryOf_single]; simp [hid]
  · intro j hj
    rw [entryOf_append, entryOf_single, hid, if_neg (Ne.symm hj)]; simp

/-- What an evaluation does to the map. -/
theorem evaluate_frame {u u' : U} {m : Meta} {c : Comp} {v : Vbl} {dt : DataType} {wo : Bool} {old new : Str}
    (h : evaluate u m c v dt wo old new = some u') (hm : MapOk u.map) :
    MapOk u'.map ∧ (∀ j, j ≠ m.id → entryOf u'.map j = entryOf u.map j) ∧ u'.sent = u.sent ∧ u'.uid = u.uid ∧
    (∃ k, u'.map.map (·.events) = u.map.map (·.events) ++ List.replicate k []) ∧
    (∀ x ∈ u'.st.mem, ∃ y ∈ u.st.mem, y.mon.id = x.mon.id ∧ y.mon.type = x.mon.type) ∧
    ((m.type = .periodic ∨ m.type = .periodicAligned) → u' = u) ∧
    (¬ (m.type = .periodic ∨ m.type = .periodicAligned) → ∃ t, triggers dt m old new = some t ∧
      evaluateEntry m c v wo new t (entryOf u.map m.id) = some (entryOf u'.map m.id)) := by
  unfold evaluate at h
  by_cases hp : (m.type == .periodic || m.type == .periodicAligned) = true
  · rw [if_pos hp] at h
    injection h with h; subst h
    simp only [Bool.or_eq_true, beq_iff_eq] at hp
    exact ⟨hm, fun _ _ => rfl, rfl, rfl, ⟨0, by simp⟩, fun x hx => ⟨x, hx, rfl, rfl⟩, fun _ => rfl, fun hn => absurd hp hn⟩
  · rw [if_neg hp] at h
    simp only [Bool.or_eq_true, beq_iff_eq] at hp
    cases ht : triggers dt m old new with
    | none => simp [ht] at h
    | some t =>
      simp only [ht] at h
      cases he : evaluateEntry m c v wo new t (entryOf u.map m.id) with
      | none => simp [he] at h
      | some r =>
        simp only [he] at h
        injection h with h; subst h
        obtain ⟨f1, f2⟩ := evaluateEntry_frame he
        have hmem : ∀ x ∈ (if (t && m.type == .delta && trivialType dt) = true then updateReference u.st m.id new else u.st).mem,
            ∃ y ∈ u.st.mem, y.mon.id = x.mon.id ∧ y.mon.type = x.mon.type := by
          intro x hx
          split at hx
          · unfold updateReference at hx
            split at hx
            · exact ⟨x, hx, rfl, rfl⟩
            · split at hx
              · obtain ⟨y, hy, rfl⟩ := List.mem_map.mp hx
                refine ⟨y, hy, ?_⟩
                unfold setRef
                split
                · split <;> exact ⟨rfl, rfl⟩
                · exact ⟨rfl, rfl⟩
              · exact ⟨x, hx, rfl, rfl⟩
          · exact ⟨x, hx, rfl, rfl⟩
        cases ho : entryOf u.map m.id with
        | some e =>
          obtain ⟨e', rfl, h1, h2, _⟩ := f1 e ho
          obtain ⟨p1, p2, p3, p4⟩ := put_some hm ho (congrArg Meta.id h1) h2
          exact ⟨p1, p3, rfl, rfl, ⟨0, by simpa using p4⟩, hmem, fun hx => absurd hx hp, fun _ => ⟨t, rfl, by simp only; rw [p2, ← ho, he]⟩⟩
        | none =>
          cases r with
          | none => exact ⟨hm, fun _ _ => rfl, rfl, rfl, ⟨0, by simp [put]⟩, hmem, fun hx => absurd hx hp, fun _ => ⟨t, rfl, by simp only [put]; rw [ho] at he ⊢; exact he⟩⟩
          | some e' =>
            obtain ⟨h1, h2, _⟩ := f2 ho e' rfl
            obtain ⟨p1, p2, p3, p4⟩ := put_new hm ho (congrArg Meta.id h1) h2
            exact ⟨p1, p3, rfl, rfl, ⟨1, by simpa using p4⟩, hmem, fun hx => absurd hx hp, fun _ => ⟨t, rfl, by simp only; rw [p2, ← ho, he]⟩⟩

/-! ### Processing -/

theorem due_frame {t : Clock} {e e' : Entry} {b : Bool} (h : due t e = some (b, e')) :
    e'.mon = e.mon ∧ e'.events = e.events ∧ e'.periodic = e.periodic := by
  unfold due at h
  split at h
  · split at h <;> (injection h with h; injection h with h1 h2; subst h2; exact ⟨rfl, rfl, rfl⟩)
  · split at h
    · rw [Option.map_eq_some_iff] at h
      obtain ⟨p, _, h⟩ := h
      injection h with h1 h2; subst h2; exact ⟨rfl, rfl, rfl⟩
    · injection h with h; injection h with h1 h2; subst h2; exact ⟨rfl, rfl, rfl⟩
  · simp at h

/-- The event generated, if any. -/
theorem generate_frame {t : Clock} {dm : Verif.DM.DM} {uid uid' : Nat} {e e' : Entry}
    (h : generate t dm uid e = some (e', uid')) :
    e'.mon = e.mon ∧ e'.periodic = e.periodic ∧
    ((uid' = uid ∧ e'.events = e.events) ∨
     (uid' = uid + 1 ∧ ∃ ev, e'.events = e.events ++ [ev] ∧ ev.eventId = uid ∧ ev.monId = e.mon.id)) := by
  unfold generate at h
  cases hp : e.periodic with
  | true =>
    simp only [hp, if_true] at h
    cases hd : due t e with
    | none => simp [hd] at h
    | some x =>
      obtain ⟨b, e1⟩ := x
      obtain ⟨d1, d2, d3⟩ := due_frame hd
      cases b with
      | false =>
        simp only [hd] at h
        injection h with h; injection h with h1 h2; subst h1; subst h2
        exact ⟨d1, d3.trans hp, .inl ⟨rfl, d2⟩⟩
      | true =>
        simp only [hd] at h
        split at h
        · injection h with h; injection h with h1 h2; subst h1; subst h2
          exact ⟨d1, d3.trans hp, .inr ⟨rfl, newEvent uid t _ e none, by simp only [d2]; rfl, rfl, rfl⟩⟩
        · simp at h
  | false =>
    simp only [hp, Bool.false_eq_true, if_false] at h
    split at h
    · injection h with h; injection h with h1 h2; subst h1; subst h2
      exact ⟨rfl, hp, .inl ⟨rfl, rfl⟩⟩
    · injection h with h; injection h with h1 h2; subst h1; subst h2
      exact ⟨rfl, rfl, .inr ⟨rfl, _, rfl, rfl, rfl⟩⟩

theorem deliver_frame (k : Conf) (e : Entry) : (deliver k e).1.mon = e.mon ∧ (deliver k e).1.periodic = e.periodic ∧
    (((deliver k e).2 = [] ∧ (deliver k e).1.events = e.events) ∨
     ((deliver k e).2 = e.events ∧ (deliver k e).1.events = [])) := by
  unfold deliver
  split
  · exact ⟨rfl, rfl, .inl ⟨rfl, rfl⟩⟩
  · split
    · exact ⟨rfl, rfl, .inr ⟨rfl, rfl⟩⟩
    · exact ⟨rfl, rfl, .inr ⟨rfl, rfl⟩⟩

/-- Turns that move on keep the monitor; all events are those of the entry or a new one. -/
theorem turn_frame {k : Conf} {pa : Bool} {t : Clock} {dm : Verif.DM.DM} {uid uid' : Nat} {e : Entry}
    {r : Option Entry} {evs : List Event} (h : turn k pa t dm uid e = .moves r evs uid')
    (hev : ∀ ev ∈ e.events, ev.monId = e.mon.id) :
    (∀ e', r = some e' → e'.mon = e.mon ∧ ∀ ev ∈ e'.events, ev.monId = e.mon.id) ∧ ∀ ev ∈ evs, ev.monId = e.mon.id := by
  unfold turn at h
  split at h
  · simp at h
  · split at h
    · split at h
      · simp at h
      · injection h with h1 h2 h3; subst h1; subst h2; simp
    · cases hg : generate t dm uid e with
      | none => simp [hg] at h
      | some x =>
        obtain ⟨e1, u1⟩ := x
        simp only [hg] at h
        injection h with h1 h2 h3; subst h1; subst h2
        obtain ⟨g1, _, g3⟩ := generate_frame hg
        obtain ⟨d1, _, d3⟩ := deliver_frame k e1
        have hev1 : ∀ ev ∈ e1.events, ev.monId = e.mon.id := by
          rcases g3 with ⟨_, g⟩ | ⟨_, ev, g, _, g'⟩
          · rw [g]; exact hev
          · rw [g]; intro x hx
            rcases List.mem_append.mp hx with hx | hx
            · exact hev x hx
            · simp only [List.mem_singleton] at hx; subst hx; exact g'
        refine ⟨?_, ?_⟩
        · intro e' he'
          split at he'
          · simp at he'
          · injection he' with he'; subst he'
            refine ⟨d1.trans g1, ?_⟩
            rcases d3 with ⟨_, d⟩ | ⟨_, d⟩
            · rw [d]; exact hev1
            · rw [d]; simp
        · rcases d3 with ⟨d, _⟩ | ⟨d, _⟩
          · rw [d]; simp
          · rw [d]; exact hev1

/-- What the loop does with the entry of one monitor. -/
theorem finish_frame {k : Conf} {pa : Bool} {t : Clock} {dm : Verif.DM.DM} {map : List Entry} (i : Nat) :
    ∀ {uid : Nat} {r : List Entry × Nat × List Event}, MapOk map → finish k pa t dm uid map = some r →
    MapOk r.1 ∧ (∀ e ∈ r.1, ∃ e0 ∈ map, e.mon = e0.mon) ∧
    (entryOf map i = none → entryOf r.1 i = none ∧ r.2.2.filter (fun ev => ev.monId == i) = []) ∧
    (∀ e, entryOf map i = some e → ∃ uid1 uid2 e' evs, turn k pa t dm uid1 e = .moves e' evs uid2 ∧
      entryOf r.1 i = e' ∧ r.2.2.filter (fun ev => ev.monId == i) = evs) := by
  induction map with
  | nil =>
    intro uid r _ h
    simp only [finish] at h
    injection h with h; subst h
    exact ⟨⟨by simp, by simp⟩, by simp, fun _ => ⟨rfl, rfl⟩, by simp [Mon.entryOf]⟩
  | cons e0 rest ih =>
    intro uid r hm h
    simp only [finish] at h
    cases ht : turn k pa t dm uid e0 with
    | stays e' => simp [ht] at h
    | throws => simp [ht] at h
    | moves e' evs uid' =>
      simp only [ht] at h
      rw [Option.map_eq_some_iff] at h
      obtain ⟨x, hx, rfl⟩ := h
      obtain ⟨i1, i2, i3, i4⟩ := ih hm.tail hx
      have hne : ∀ y ∈ rest, e0.mon.id ≠ y.mon.id := (List.pairwise_cons.mp hm.unique).1
      obtain ⟨t1, t2⟩ := turn_frame ht (hm.events e0 (List.mem_cons_self ..))
      have hsub : ∀ e ∈ x.1, e0.mon.id ≠ e.mon.id := by
        intro e he
        obtain ⟨y, hy, hye⟩ := i2 e he
        rw [hye]; exact hne y hy
      have hok : MapOk (e'.toList ++ x.1) := by
        cases e' with
        | none => simpa using i1
        | some e1 =>
          obtain ⟨q1, q2⟩ := t1 e1 rfl
          refine ⟨?_, ?_⟩
          · simp only [Option.toList_some, List.cons_append, List.nil_append, List.pairwise_cons]
            exact ⟨fun y hy => by rw [q1]; exact hsub y hy, i1.unique⟩
          · intro y hy
            simp only [Option.toList_some, List.cons_append, List.nil_append, List.mem_cons] at hy
            rcases hy with rfl | hy
            · rw [q1]; exact q2
            · exact i1.events y hy
      refine ⟨hok, ?_, ?_, ?_⟩
      · intro e he
        rcases List.mem_append.mp he with he | he
        · rw [Option.mem_toList] at he
          exact ⟨e0, List.mem_cons_self .., (t1 e he).1⟩
        · obtain ⟨y, hy, hye⟩ := i2 e he
          exact ⟨y, List.mem_cons_of_mem _ hy, hye⟩
      · intro hn
        have h0 : e0.mon.id ≠ i := entryOf_none.mp hn e0 (List.mem_cons_self ..)
        obtain ⟨k1, k2⟩ := i3 (entryOf_none.mpr fun y hy => entryOf_none.mp hn y (List.mem_cons_of_mem _ hy))
        refine ⟨?_, ?_⟩
        · rw [entryOf_none]
          intro y hy
          rcases List.mem_append.mp hy with hy | hy
          · rw [Option.mem_toList] at hy; rw [(t1 y hy).1]; exact h0
          · exact entryOf_none.mp k1 y hy
        · rw [List.filter_append, k2, List.append_nil, List.filter_eq_nil_iff]
          intro ev hev; rw [t2 ev hev]; simpa using h0
      · intro e he
        by_cases h0 : e0.mon.id = i
        · have : e = e0 := by
            have := hm.entryOf (List.mem_cons_self (a := e0) (l := rest))
            rw [h0, he] at this; injection this
          subst this
          have hrn : entryOf rest i = none := entryOf_none.mpr fun y hy => by rw [← h0]; exact (hne y hy).symm
          obtain ⟨k1, k2⟩ := i3 hrn
          refine ⟨uid, uid', e', evs, ht, ?_, ?_⟩
          · rw [entryOf_append, k1]
            cases e' with
            | none => rfl
            | some e1 => simp only [Option.toList_some]; rw [entryOf_single, (t1 e1 rfl).1, if_pos h0]; rfl
          · rw [List.filter_append, k2, List.append_nil, List.filter_eq_self]
            intro ev hev; rw [t2 ev hev, h0]; simp
        · have her : entryOf rest i = some e := by
            have hb : (e0.mon.id == i) = false := by simpa using h0
            simpa [Mon.entryOf, List.find?_cons, hb] using he
          obtain ⟨u1, u2, e2, evs2, k1, k2, k3⟩ := i4 e her
          refine ⟨u1, u2, e2, evs2, k1, ?_, ?_⟩
          · rw [entryOf_append]
            have : entryOf e'.toList i = none := by
              cases e' with
              | none => rfl
              | some e1 => simp only [Option.toList_some]; rw [entryOf_single, (t1 e1 rfl).1, if_neg h0]
            rw [this, k2]; rfl
          · rw [List.filter_append, k3]
            have : evs.filter (fun ev => ev.monId == i) = [] := by
              rw [List.filter_eq_nil_iff]
              intro ev hev; rw [t2 ev hev]; simpa using h0
            rw [this]; rfl

/-! ### The list of periodic monitors -/

theorem newPeriodic_frame {t : Clock} {x : Item} {e : Entry} (h : newPeriodic t x = some e) :
    e.mon = x.mon ∧ e.events = [] ∧ e.periodic = true := by
  unfold newPeriodic at h
  split at h
  · injection h with h; subst h; exact ⟨rfl, rfl, rfl⟩
  · rw [Option.map_eq_some_iff] at h
    obtain ⟨p, _, rfl⟩ := h
    exact ⟨rfl, rfl, rfl⟩

theorem addPeriodics_frame {t : Clock} (xs : List Item) : ∀ {map map' : List Entry}, MapOk map →
    addPeriodics t xs map = some map' →
    MapOk map' ∧ (∀ j, (∀ x ∈ xs, x.mon.id ≠ j) → entryOf map' j = entryOf map j) ∧
    ∃ k, map'.map (·.events) = map.map (·.events) ++ List.replicate k [] := by
  induction xs with
  | nil =>
    intro map map' hm h
    simp only [addPeriodics] at h
    injection h with h; subst h
    exact ⟨hm, fun _ _ => rfl, 0, by simp⟩
  | cons x r ih =>
    intro map map' hm h
    simp only [addPeriodics] at h
    split at h
    · obtain ⟨h1, h2, h3⟩ := ih hm h
      exact ⟨h1, fun j hj => h2 j fun y hy => hj y (List.mem_cons_of_mem _ hy), h3⟩
    · rename_i hn
      cases he : newPeriodic t x with
      | none => simp [he] at h
      | some e =>
        simp only [he] at h
        obtain ⟨f1, f2, _⟩ := newPeriodic_frame he
        have hn' : entryOf map e.mon.id = none := by
          rw [f1]; simpa using hn
        obtain ⟨h1, h2, k, h3⟩ := ih (hm.snoc e hn' (by simp [f2])) h
        refine ⟨h1, ?_, k + 1, ?_⟩
        · intro j hj
          rw [h2 j fun y hy => hj y (List.mem_cons_of_mem _ hy), entryOf_append, entryOf_single, f1,
            if_neg (hj x (List.mem_cons_self ..))]
          simp
        · rw [h3]; simp [f2, List.replicate_succ]

theorem entryOf_filter {map : List Entry} {p : Entry → Bool} {i : Nat}
    (h : ∀ e ∈ map, e.mon.id = i → p e = true) : entryOf (map.filter p) i = entryOf map i := by
  induction map with
  | nil => rfl
  | cons e r ih =>
    have ih' := ih fun x hx => h x (List.mem_cons_of_mem _ hx)
    unfold Mon.entryOf at ih' ⊢
    by_cases he : e.mon.id = i
    · rw [List.filter_cons_of_pos (h e (List.mem_cons_self ..) he)]
      simp [he]
    · have hb : (e.mon.id == i) = false := by simpa using he
      rw [List.filter_cons]
      split
      · rw [List.find?_cons, List.find?_cons, hb]; exact ih'
      · rw [List.find?_cons, hb]; exact ih'

theorem updatePeriodics_frame {t : Clock} {s : Store} {map map' : List Entry} (hm : MapOk map)
    (h : updatePeriodics t s map = some map') :
    MapOk map' ∧ (∀ j, (∀ x ∈ periodics s, x.mon.id ≠ j) → (∀ e, entryOf map j = some e → e.periodic = false) →
      entryOf map' j = entryOf map j) := by
  unfold updatePeriodics at h
  rw [Option.map_eq_some_iff] at h
  obtain ⟨m1, h1, rfl⟩ := h
  obtain ⟨a1, a2, _⟩ := addPeriodics_frame _ hm h1
  refine ⟨a1.filter _, ?_⟩
  intro j hj hp
  rw [entryOf_filter, a2 j hj]
  intro e he hej
  have h2 := a1.entryOf he
  rw [hej, a2 j hj] at h2
  simp [hp e h2]

end Verif.Mon
