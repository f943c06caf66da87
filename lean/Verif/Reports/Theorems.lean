import Verif.Reports.Model
/-
Reports that are split into several messages (C38, C39, C40).
-/
namespace Verif.Rep

/-! ### Numbering: what "numbered from 0, to be continued except for the last" means -/

/-- The messages are numbered from 0 and all but the last say that they will be continued. -/
def Numbered (ms : List (Nat × Bool)) : Prop :=
  ms ≠ [] ∧ ∀ i, ∀ h : i < ms.length, ms[i] = (i, decide (i + 1 < ms.length))

/-! ### C40: NotifyReport -/

theorem grow_append (m : Nat) (l : List Text) : ∀ s, (grow m s l).1 ++ (grow m s l).2 = l := by
  induction l with
  | nil => intro s; rfl
  | cons x r ih =>
    intro s
    simp only [grow]
    split
    · simp [ih]
    · rfl

theorem nextItems_append (m : Nat) (l : List Text) : (nextItems m l).1 ++ (nextItems m l).2 = l := by
  match l with
  | [] => rfl
  | [x] => rfl
  | x :: y :: r => simp [nextItems, grow_append]

theorem nextItems_nonempty (m : Nat) (l : List Text) (h : l ≠ []) : (nextItems m l).1 ≠ [] := by
  match l with
  | [] => exact absurd rfl h
  | [x] => simp [nextItems]
  | x :: y :: r => simp [nextItems]

theorem nextItems_shorter (m : Nat) (l : List Text) (h : l ≠ []) : (nextItems m l).2.length < l.length := by
  have h1 := congrArg List.length (nextItems_append m l)
  have h2 := List.length_pos_iff.mpr (nextItems_nonempty m l h)
  rw [List.length_append] at h1
  omega

theorem payloads_spec (q : Req) (maxSize : Nat) (ids : Nat → Text) (fuel : Nat) :
    ∀ seq items, items.length < fuel →
      (payloadsFrom q maxSize ids fuel seq items).flatMap (·.items) = items ∧
      (items ≠ [] → payloadsFrom q maxSize ids fuel seq items ≠ []) ∧
      (∀ i, ∀ h : i < (payloadsFrom q maxSize ids fuel seq items).length,
        (payloadsFrom q maxSize ids fuel seq items)[i].seqNo = seq + i ∧
        (payloadsFrom q maxSize ids fuel seq items)[i].id = ids (seq + i) ∧
        (items ≠ [] → (payloadsFrom q maxSize ids fuel seq items)[i].items ≠ []) ∧
        (payloadsFrom q maxSize ids fuel seq items)[i].tbc =
          decide (i + 1 < (payloadsFrom q maxSize ids fuel seq items).length)) := by
  induction fuel with
  | zero => intro seq items h; omega
  | succ fuel ih =>
    intro seq items hlen
    by_cases hc : seq = 0 ∨ items ≠ []
    · have e : payloadsFrom q maxSize ids (fuel + 1) seq items =
        (nextPayload q maxSize (ids seq) seq items).1 ::
          payloadsFrom q maxSize ids fuel (seq + 1) (nextPayload q maxSize (ids seq) seq items).2 := by
        rw [payloadsFrom, if_pos hc]
      have happ : (nextPayload q maxSize (ids seq) seq items).1.items ++
          (nextPayload q maxSize (ids seq) seq items).2 = items := nextItems_append _ _
      have hrest : (nextPayload q maxSize (ids seq) seq items).2.length < fuel ∨
          (items = [] ∧ (nextPayload q maxSize (ids seq) seq items).2 = []) := by
        by_cases hi : items = []
        · right; subst hi; exact ⟨rfl, rfl⟩
        · left
          have := nextItems_shorter (maxSize - (skeletonSize q + (ids seq).length)) items hi
          have : (nextPayload q maxSize (ids seq) seq items).2.length < items.length := this
          omega
      have hempty : ∀ s, payloadsFrom q maxSize ids fuel (s + 1) [] = [] := by
        intro s; cases fuel <;> simp [payloadsFrom]
      have key : (payloadsFrom q maxSize ids fuel (seq + 1) (nextPayload q maxSize (ids seq) seq items).2).flatMap (·.items)
            = (nextPayload q maxSize (ids seq) seq items).2 ∧
          ((nextPayload q maxSize (ids seq) seq items).2 ≠ [] →
            payloadsFrom q maxSize ids fuel (seq + 1) (nextPayload q maxSize (ids seq) seq items).2 ≠ []) ∧
          ((nextPayload q maxSize (ids seq) seq items).2 = [] →
            payloadsFrom q maxSize ids fuel (seq + 1) (nextPayload q maxSize (ids seq) seq items).2 = []) := by
        rcases hrest with h | ⟨_, h⟩
        · obtain ⟨a, b, _⟩ := ih (seq + 1) _ h
          refine ⟨a, b, fun h => by rw [h]; exact hempty seq⟩
        · rw [h]
          exact ⟨by rw [hempty]; rfl, fun h => absurd rfl h, fun _ => hempty seq⟩
      rw [e]
      refine ⟨?_, by simp, ?_⟩
      · rw [List.flatMap_cons, key.1, happ]
      · intro i h
        cases i with
        | zero =>
          refine ⟨rfl, rfl, fun hi => nextItems_nonempty _ _ hi, ?_⟩
          show decide ((nextPayload q maxSize (ids seq) seq items).2 ≠ []) = _
          by_cases hr : (nextPayload q maxSize (ids seq) seq items).2 = []
          · simp [hr, hempty]
          · have := List.length_pos_iff.mpr (key.2.1 hr)
            simp only [List.length_cons, ne_eq, hr, not_false_eq_true, decide_true]
            symm; rw [decide_eq_true_eq]; omega
        | succ i =>
          simp only [List.length_cons, Nat.add_lt_add_iff_right] at h
          have hr : (nextPayload q maxSize (ids seq) seq items).2 ≠ [] := by
            intro hr; rw [key.2.2 hr] at h; simp at h
          rcases hrest with hl | ⟨_, hl⟩
          · obtain ⟨_, _, c⟩ := ih (seq + 1) _ hl
            obtain ⟨c1, c2, c3, c4⟩ := c i h
            refine ⟨?_, ?_, fun _ => c3 hr, ?_⟩
            · simp only [List.getElem_cons_succ, c1]; omega
            · simp only [List.getElem_cons_succ, c2]; congr 1; omega
            · simp only [List.getElem_cons_succ, c4, List.length_cons, Nat.add_lt_add_iff_right]
          · exact absurd hl hr
    · have hi : items = [] := by
        by_cases hi : items = []
        · exact hi
        · exact absurd (.inr hi) hc
      have e : payloadsFrom q maxSize ids (fuel + 1) seq items = [] := by rw [payloadsFrom, if_neg hc]
      rw [e, hi]
      refine ⟨rfl, fun h => absurd rfl h, fun i h => by simp at h⟩

/-- C40: the messages into which a report is split contain its entries completely and in order; they are
numbered from 0, all but the last are marked to be continued, none is empty (unless the report is), and
each has its own id. -/
theorem C40_complete (q : Req) (maxSize : Nat) (ids : Nat → Text) (items : List Text) :
    (notifyReport q maxSize ids items).flatMap (·.items) = items ∧
    Numbered ((notifyReport q maxSize ids items).map fun p => (p.seqNo, p.tbc)) ∧
    (∀ p ∈ notifyReport q maxSize ids items, p.id = ids p.seqNo ∧ (items ≠ [] → p.items ≠ [])) := by
  unfold notifyReport
  split
  · rename_i hl
    refine ⟨by simp, ⟨by simp, ?_⟩, ?_⟩
    · intro i h
      simp only [List.map_cons, List.map_nil, List.length_singleton] at h
      have : i = 0 := by omega
      subst this; simp
    · intro p hp
      simp only [List.mem_singleton] at hp
      subst hp; exact ⟨rfl, fun h => h⟩
  · rename_i hl
    have hne : items ≠ [] := by intro h; subst h; simp at hl
    obtain ⟨a, b, c⟩ := payloads_spec q maxSize ids (items.length + 1) 0 items (by omega)
    refine ⟨a, ⟨by simp [b hne], ?_⟩, ?_⟩
    · intro i h
      simp only [List.length_map] at h
      obtain ⟨c1, c2, c3, c4⟩ := c i h
      simp only [List.getElem_map, c1, c4, List.length_map, Nat.zero_add]
    · intro p hp
      obtain ⟨i, hi, rfl⟩ := List.getElem_of_mem hp
      obtain ⟨c1, c2, c3, c4⟩ := c i hi
      refine ⟨?_, fun h => c3 h⟩
      rw [c2, c1]

theorem commaSep_length (x : Text) (r : List Text) :
    (commaSep (x :: r)).length = x.length + (r.map (fun y => y.length + 1)).sum := by
  induction r generalizing x with
  | nil => simp [commaSep]
  | cons y r ih => simp only [commaSep, List.length_append, List.length_cons, ih, List.map_cons, List.sum_cons]; omega

theorem array_length (x : Text) (r : List Text) :
    (arrayText (x :: r)).length = (arrayText [x]).length + (r.map (fun y => y.length + 1)).sum := by
  simp only [arrayText, List.cons_append, List.length_cons, List.length_append, commaSep_length]
  simp; omega

theorem grow_size (m : Nat) (l : List Text) : ∀ s, s + ((grow m s l).1.map (fun y => y.length + 1)).sum ≤ m ∨
    (grow m s l).1 = [] := by
  induction l with
  | nil => intro s; right; rfl
  | cons x r ih =>
    intro s
    simp only [grow]
    split
    · rename_i h
      left
      rcases ih (s + (x.length + 1)) with h1 | h1
      · simp only [List.map_cons, List.sum_cons]; omega
      · simp only [h1, List.map_cons, List.map_nil, List.sum_cons, List.sum_nil]; omega
    · right; rfl

theorem nextItems_size (m : Nat) (l : List Text) (h : 1 < (nextItems m l).1.length) :
    (arrayText (nextItems m l).1).length ≤ m := by
  match l with
  | [] => simp [nextItems] at h
  | [x] => simp [nextItems] at h
  | x :: y :: r =>
    simp only [nextItems] at h ⊢
    rw [array_length]
    rcases grow_size m (y :: r) (arrayText [x]).length with h1 | h1
    · exact h1
    · rw [h1] at h; simp at h

/-- The arithmetic of `render_length`, for any constant parts. -/
theorem render_length_aux (t1 t2 t3 t3' t4 t4' t5 t6 t7 id gen rq n0 n1 b0 b1 arr : Text)
    (h3 : t3.length = t3'.length + 1) (h4 : t4.length = t4'.length + 1) :
    (t1 ++ id ++ t2 ++ gen ++ t3 ++ arr ++ t4' ++ rq ++ t5 ++ n1 ++ t6 ++ b1 ++ t7).length + b0.length + n0.length =
      (t1 ++ t2 ++ gen ++ t4 ++ rq ++ t5 ++ n0 ++ t6 ++ b0 ++ t7).length + t3'.length + id.length + arr.length +
        n1.length + b1.length := by
  simp only [List.length_append]; omega

theorem render_length (q : Req) (p : Payload) :
    (render q p).length + (boolText false).length + (natText 0).length =
      skeletonSize q + p.id.length + (arrayText p.items).length + (natText p.seqNo).length + (boolText p.tbc).length :=
  render_length_aux _ _ _ _ _ _ _ _ _ _ _ _ _ _ _ _ _ (by decide) (by decide)

theorem payloads_from (q : Req) (maxSize : Nat) (ids : Nat → Text) (fuel : Nat) :
    ∀ seq items, ∀ p ∈ payloadsFrom q maxSize ids fuel seq items,
      ∃ l, p.items = (nextItems (maxSize - (skeletonSize q + p.id.length)) l).1 := by
  induction fuel with
  | zero => intro seq items p hp; simp [payloadsFrom] at hp
  | succ fuel ih =>
    intro seq items p hp
    rw [payloadsFrom] at hp
    split at hp
    · rcases List.mem_cons.mp hp with rfl | hp
      · exact ⟨items, rfl⟩
      · exact ih _ _ p hp
    · simp at hp

theorem natText_one (n : Nat) (h : n < 10) : (natText n).length = 1 := by
  simp [natText, natTextAux, h]

theorem natText_two (n : Nat) (h : n < 100) : (natText n).length ≤ 2 := by
  unfold natText
  rw [natTextAux]
  split
  · simp
  · rename_i h1
    obtain ⟨m, hm⟩ : ∃ m, n = m + 1 := ⟨n - 1, by omega⟩
    rw [List.length_append, hm, natTextAux, if_pos (by omega)]; simp

/-- C40: a message with more than one entry is not longer than the limit.  Partial: for the first ten
messages, and the first hundred except for the last one; `C40_size_violated` shows that later ones can be
too long. -/
theorem C40_size_partial (q : Req) (maxSize : Nat) (ids : Nat → Text) (items : List Text) (p : Payload)
    (hp : p ∈ notifyReport q maxSize ids items) (h1 : 1 < p.items.length)
    (hn : p.seqNo < 10 ∨ (p.seqNo < 100 ∧ p.tbc = true)) : (render q p).length ≤ maxSize := by
  unfold notifyReport at hp
  split at hp
  · rename_i hl
    simp only [List.mem_singleton] at hp
    subst hp
    simp only at h1; omega
  · obtain ⟨l, hl⟩ := payloads_from q maxSize ids _ 0 items p hp
    have hs := nextItems_size (maxSize - (skeletonSize q + p.id.length)) l (by rw [← hl]; exact h1)
    rw [← hl] at hs
    have hr := render_length q p
    have h0 : (natText 0).length = 1 := natText_one 0 (by omega)
    have hb : (boolText false).length = 5 := by decide
    have hb' : (boolText true).length = 4 := by decide
    have ha : 0 < (arrayText p.items).length := by simp [arrayText]
    rcases hn with hn | ⟨hn, ht⟩
    · have := natText_one _ hn
      have : (boolText p.tbc).length ≤ 5 := by cases p.tbc <;> decide
      omega
    · have := natText_two _ hn
      rw [ht] at hr
      omega

/-- Twenty-two entries of the shape `{}`. -/
def exItems : List Text := List.replicate 22 "{}".toList

def exReq : Req := ⟨"T".toList, "1".toList⟩

/-- Non-vacuity of `C40_complete` and `C40_size_partial`: three entries in two messages. -/
example : (notifyReport exReq 99 (fun _ => "a".toList) (List.replicate 3 "{}".toList)).map
    (fun p => (p.seqNo, p.tbc, p.items.length)) = [(0, true, 2), (1, false, 1)] := by
  decide +kernel

/-- C40 is violated: the length of the sequence number is not taken into account.  The eleventh message of
a report, with two entries, is longer than the limit. -/
theorem C40_size_violated : ∃ (q : Req) (maxSize : Nat) (ids : Nat → Text) (items : List Text) (p : Payload),
    p ∈ notifyReport q maxSize ids items ∧ p.items.length = 2 ∧ p.seqNo = 10 ∧
    maxSize < (render q p).length :=
  ⟨exReq, 99, fun _ => "a".toList, exItems, ⟨"a".toList, 10, false, ["{}".toList, "{}".toList]⟩,
    by decide +kernel, rfl, rfl, by decide +kernel⟩

/-! ### C38: NotifyMonitoringReport -/

/-- C38: the messages of a monitoring report are numbered from 0 and marked correctly, and if there are at
most ten monitored variables the one message contains them all.  Partial: for more than ten the contents
are lost, see `C38_violated`. -/
theorem C38_partial {α : Type} (data : List α) :
    Numbered ((monitoringReport data).map fun p => (p.seqNo, p.tbc)) ∧
    (data.length ≤ 10 → (monitoringReport data).flatMap (·.items) = data) := by
  unfold monitoringReport
  split
  · refine ⟨⟨by simp, ?_⟩, fun _ => by simp⟩
    intro i h
    simp only [List.map_cons, List.map_nil, List.length_singleton] at h
    have : i = 0 := by omega
    subst this; simp
  · rename_i h
    refine ⟨⟨?_, ?_⟩, fun h' => absurd h' h⟩
    · intro hh
      have := congrArg List.length hh
      simp only [List.length_map, List.length_range, List.length_nil] at this
      omega
    · intro i hi
      simp only [List.length_map, List.length_range] at hi
      simp only [List.map_map, List.getElem_map, List.getElem_range, Function.comp, List.length_map,
        List.length_range, Prod.mk.injEq, true_and]
      by_cases hc : i * 10 + 10 ≥ data.length
      · have : ¬ (i + 1 < (data.length + 9) / 10) := by omega
        simp [hc, this]
      · have : i + 1 < (data.length + 9) / 10 := by omega
        simp [hc, this]

/-- Non-vacuity of `C38_partial`. -/
example : (monitoringReport (List.range 21)).map (fun p => (p.seqNo, p.tbc)) = [(0, true), (1, true), (2, false)] ∧
    (monitoringReport [7, 8, 9]).flatMap (·.items) = [7, 8, 9] := by
  decide +kernel

theorem range_filterMap {α : Type} (data : List α) (n : Nat) :
    (List.range n).filterMap (fun j => data[j]?) = data.take n := by
  induction n with
  | zero => rfl
  | succ n ih =>
    rw [List.range_succ, List.filterMap_append, ih, List.take_add_one]
    cases h : data[n]? <;> simp [h]

/-- C38 is violated by every report of more than ten monitored variables: only the first ten are sent, all
messages but the first are empty. -/
theorem C38_violated {α : Type} (data : List α) (h : 10 < data.length) :
    (monitoringReport data).flatMap (·.items) = data.take 10 ∧
    (monitoringReport data).flatMap (·.items) ≠ data ∧
    ∀ p ∈ monitoringReport data, 0 < p.seqNo → p.items = [] := by
  have e : monitoringReport data = (List.range ((data.length + 9) / 10)).map fun k =>
      ⟨k, !decide (k * 10 + 10 ≥ data.length), subData data (k * 10)⟩ := by
    unfold monitoringReport; rw [if_neg (by omega)]
  have hm : min 10 data.length = 10 := by omega
  have hz : subData data 0 = data.take 10 := by
    unfold subData
    rw [hm]
    have e1 : (List.range 10).filter (fun j => decide (0 ≤ j)) = List.range 10 := by
      apply List.filter_eq_self.mpr; intro a _; simp
    rw [e1]
    simp only [Nat.zero_add]
    exact range_filterMap data 10
  have hs : ∀ k, 0 < k → subData data (k * 10) = [] := by
    intro k hk
    unfold subData
    rw [hm]
    have : (List.range 10).filter (fun j => decide (k * 10 ≤ j)) = [] := by
      apply List.filter_eq_nil_iff.mpr
      intro a ha; rw [List.mem_range] at ha; simp; omega
    rw [this]; rfl
  have hall : (monitoringReport data).flatMap (·.items) = data.take 10 := by
    rw [e]
    obtain ⟨n, hn⟩ : ∃ n, (data.length + 9) / 10 = n + 1 := ⟨(data.length + 9) / 10 - 1, by omega⟩
    rw [hn, List.range_succ_eq_map, List.map_cons, List.flatMap_cons]
    simp only [Nat.zero_mul, hz]
    rw [show (List.flatMap (fun p : Part α => p.items)
        (List.map (fun k => ({ seqNo := k, tbc := !decide (k * 10 + 10 ≥ data.length), items := subData data (k * 10) } : Part α))
          (List.map Nat.succ (List.range n)))) = [] from ?_]
    · simp
    · rw [List.flatMap_eq_nil_iff]
      intro p hp
      simp only [List.mem_map, List.mem_range] at hp
      obtain ⟨k, ⟨j, _, rfl⟩, rfl⟩ := hp
      exact hs _ (by omega)
  refine ⟨hall, ?_, ?_⟩
  · rw [hall]
    intro hh
    have := congrArg List.length hh
    rw [List.length_take] at this; omega
  · intro p hp hpos
    rw [e] at hp
    simp only [List.mem_map, List.mem_range] at hp
    obtain ⟨k, _, rfl⟩ := hp
    exact hs k hpos

/-! ### C39: NotifyCustomerInformation -/

theorem chunks_spec (data : Text) (fuel : Nat) : ∀ pos seq, data.length - pos < fuel →
    (chunksFrom data fuel pos seq).flatMap (·.data) = data.drop pos ∧
    (pos < data.length → chunksFrom data fuel pos seq ≠ []) ∧
    (0 < pos → data.length ≤ pos → chunksFrom data fuel pos seq = []) ∧
    (∀ i, ∀ h : i < (chunksFrom data fuel pos seq).length,
      (chunksFrom data fuel pos seq)[i].seqNo = seq + i ∧
      (chunksFrom data fuel pos seq)[i].data.length ≤ 512 ∧
      (chunksFrom data fuel pos seq)[i].tbc = decide (i + 1 < (chunksFrom data fuel pos seq).length)) := by
  induction fuel with
  | zero => intro pos seq h; omega
  | succ fuel ih =>
    intro pos seq hf
    by_cases hc : pos < data.length ∨ (pos = 0 ∧ data = [])
    · have e : chunksFrom data (fuel + 1) pos seq =
          ⟨seq, decide (data.length - pos > 512), (data.drop pos).take 512⟩ ::
            chunksFrom data fuel (pos + 512) (seq + 1) := by rw [chunksFrom, if_pos hc]
      have hnil : pos = 0 ∧ data = [] → chunksFrom data fuel (pos + 512) (seq + 1) = [] := by
        rintro ⟨rfl, rfl⟩; cases fuel <;> simp [chunksFrom]
      have key : (chunksFrom data fuel (pos + 512) (seq + 1)).flatMap (·.data) = data.drop (pos + 512) ∧
          (pos + 512 < data.length → chunksFrom data fuel (pos + 512) (seq + 1) ≠ []) ∧
          (data.length ≤ pos + 512 → chunksFrom data fuel (pos + 512) (seq + 1) = []) ∧
          (∀ i, ∀ h : i < (chunksFrom data fuel (pos + 512) (seq + 1)).length,
            (chunksFrom data fuel (pos + 512) (seq + 1))[i].seqNo = seq + 1 + i ∧
            (chunksFrom data fuel (pos + 512) (seq + 1))[i].data.length ≤ 512 ∧
            (chunksFrom data fuel (pos + 512) (seq + 1))[i].tbc =
              decide (i + 1 < (chunksFrom data fuel (pos + 512) (seq + 1)).length)) := by
        rcases hc with hc | hc
        · obtain ⟨a, b, c, d⟩ := ih (pos + 512) (seq + 1) (by omega)
          exact ⟨a, b, c (by omega), d⟩
        · have hn := hnil hc
          obtain ⟨rfl, rfl⟩ := hc
          rw [hn]
          exact ⟨by simp, by simp, fun _ => rfl, fun i h => by simp at h⟩
      rw [e]
      refine ⟨?_, by simp, ?_, ?_⟩
      · rw [List.flatMap_cons, key.1]
        simp only
        rw [← List.drop_drop, List.take_append_drop]
      · intro h1 h2
        rcases hc with hc | ⟨hc, _⟩ <;> omega
      · intro i h
        cases i with
        | zero =>
          refine ⟨rfl, by simp [List.length_take]; omega, ?_⟩
          by_cases hl : data.length - pos > 512
          · have := List.length_pos_iff.mpr (key.2.1 (by omega))
            simp only [List.getElem_cons_zero, hl, decide_true, List.length_cons]
            symm; rw [decide_eq_true_eq]; omega
          · have := key.2.2.1 (by omega)
            simp [hl, this]
        | succ i =>
          simp only [List.length_cons, Nat.add_lt_add_iff_right] at h
          obtain ⟨d1, d2, d3⟩ := key.2.2.2 i h
          refine ⟨?_, d2, ?_⟩
          · simp only [List.getElem_cons_succ, d1]; omega
          · simp only [List.getElem_cons_succ, d3, List.length_cons, Nat.add_lt_add_iff_right]
    · have e : chunksFrom data (fuel + 1) pos seq = [] := by rw [chunksFrom, if_neg hc]
      rw [e]
      refine ⟨?_, fun h => absurd (.inl h) hc, fun _ _ => rfl, fun i h => by simp at h⟩
      have : data.length ≤ pos := by
        rcases Nat.lt_or_ge pos data.length with h | h
        · exact absurd (.inl h) hc
        · exact h
      rw [List.drop_eq_nil_of_le this]; rfl

/-- C39: the messages contain the text completely and in order, in pieces of at most 512 characters,
numbered from 0, all but the last marked to be continued; an empty text is sent in one message. -/
theorem C39 (data : Text) :
    (customerChunks data).flatMap (·.data) = data ∧
    Numbered ((customerChunks data).map fun c => (c.seqNo, c.tbc)) ∧
    ∀ c ∈ customerChunks data, c.data.length ≤ 512 := by
  unfold customerChunks
  obtain ⟨a, b, _, d⟩ := chunks_spec data (data.length + 1) 0 0 (by omega)
  refine ⟨by simpa using a, ⟨?_, ?_⟩, ?_⟩
  · by_cases h : 0 < data.length
    · simp [b h]
    · have : data = [] := List.eq_nil_of_length_eq_zero (by omega)
      subst this; simp [chunksFrom]
  · intro i h
    simp only [List.length_map] at h
    obtain ⟨d1, d2, d3⟩ := d i h
    simp only [List.getElem_map, d1, d3, List.length_map, Nat.zero_add]
  · intro c hc
    obtain ⟨i, hi, rfl⟩ := List.getElem_of_mem hc
    exact (d i hi).2.1

/-- C39, for the request: it is Invalid if it names no customer, Rejected if it asks for nothing, else
Accepted; then the information is sent up to the configured length if a report was asked for (an empty
message otherwise), and it is cleared exactly if that was asked for. -/
theorem C39_request (r : CReq) (maxLen : Int) (hm : 0 ≤ maxLen) (info : Text) :
    ((customerInformation r maxLen info).1 = .invalid ↔ r.identified = false) ∧
    ((customerInformation r maxLen info).1 = .rejected ↔ r.identified = true ∧ r.report = false ∧ r.clear = false) ∧
    ((customerInformation r maxLen info).2.2 = true ↔ r.identified = true ∧ r.clear = true) ∧
    ((customerInformation r maxLen info).1 ≠ .accepted → (customerInformation r maxLen info).2.1 = []) ∧
    ((customerInformation r maxLen info).1 = .accepted →
      (customerInformation r maxLen info).2.1.flatMap (·.data) = if r.report then info.take maxLen.toNat else []) := by
  have hcrop : ∀ l : Text, (if 0 ≤ maxLen ∧ l.length > maxLen.toNat then l.take maxLen.toNat else l) = l.take maxLen.toNat := by
    intro l
    by_cases h : l.length > maxLen.toNat
    · rw [if_pos ⟨hm, h⟩]
    · rw [if_neg (fun hh => h hh.2), List.take_of_length_le (by omega)]
  obtain ⟨rp, cl, idn⟩ := r
  simp only [customerInformation, hcrop]
  cases rp <;> cases cl <;> cases idn <;> simp [(C39 _).1]

/-- Non-vacuity of `C39`: 600 characters in two messages. -/
example : (customerChunks (List.replicate 600 'x')).map (fun c => (c.seqNo, c.tbc, c.data.length)) =
    [(0, true, 512), (1, false, 88)] ∧ (customerChunks []).map (fun c => (c.seqNo, c.tbc, c.data)) = [(0, false, [])] := by
  decide +kernel

end Verif.Rep
