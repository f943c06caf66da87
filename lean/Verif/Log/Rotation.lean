import Verif.Log.Lemmas
/-! C179: what is lost when logs are rotated. -/
set_option linter.unusedSimpArgs false

namespace Verif.Log

open Verif.Conf16 (Text stoi Stoi bytes)

/-! ## Lists of files -/

theorem numbered_cons (c : List Item) (cs : List (List Item)) : numbered (c :: cs) = (0, c) :: shift (numbered cs) := by
  unfold numbered shift
  rw [List.length_cons, List.range_succ_eq_map, List.zip_cons_cons, List.zip_map_left]
  rfl

theorem numbered_length (cs : List (List Item)) : (numbered cs).length = cs.length := by
  unfold numbered
  simp

theorem numbered_sorted (cs : List (List Item)) : (numbered cs).Pairwise (fun a b => a.1 < b.1) := by
  induction cs with
  | nil => exact .nil
  | cons c cs ih =>
    rw [numbered_cons]
    refine List.pairwise_cons.2 ⟨fun f hf => ?_, shift_sorted ih⟩
    obtain ⟨g, _, rfl⟩ := List.mem_map.1 hf
    exact Nat.succ_pos _

theorem numbered_lt (cs : List (List Item)) : ∀ f ∈ numbered cs, f.1 < cs.length := by
  induction cs with
  | nil => intro f hf; cases hf
  | cons c cs ih =>
    intro f hf
    rw [numbered_cons] at hf
    rcases List.mem_cons.1 hf with rfl | hf
    · exact Nat.succ_pos _
    · exact shift_lt ih f hf

theorem numbered_dropLast (cs : List (List Item)) : numbered cs.dropLast = (numbered cs).dropLast := by
  induction cs with
  | nil => rfl
  | cons c cs ih =>
    cases cs with
    | nil => rfl
    | cons c' cs =>
      rw [List.dropLast_cons_cons, numbered_cons, ih, numbered_cons c]
      have hne : shift (numbered (c' :: cs)) ≠ [] := by rw [numbered_cons]; simp [shift]
      rw [List.dropLast_cons_of_ne_nil hne]
      unfold shift
      rw [List.map_dropLast]

/-- What is kept of files without gaps. -/
def keptFiles (m : Nat) (cs : List (List Item)) : List (List Item) := if 0 < m ∧ m ≤ cs.length then cs.dropLast else cs

theorem kept_numbered (m : Nat) (cs : List (List Item)) : kept m (numbered cs) = numbered (keptFiles m cs) := by
  unfold kept keptFiles
  rw [numbered_length]
  split
  · exact (numbered_dropLast cs).symm
  · rfl

theorem chronicle_cons (f : Nat × List Item) (fs : List (Nat × List Item)) : chronicle (f :: fs) = chronicle fs ++ logged f.2 := by
  unfold chronicle
  simp

theorem chronicle_snoc (f : Nat × List Item) (fs : List (Nat × List Item)) : chronicle (fs ++ [f]) = logged f.2 ++ chronicle fs := by
  unfold chronicle
  simp

theorem chronicle_shift (fs : List (Nat × List Item)) : chronicle (shift fs) = chronicle fs := by
  induction fs with
  | nil => rfl
  | cons f fs ih =>
    have : shift (f :: fs) = (f.1 + 1, f.2) :: shift fs := rfl
    rw [this, chronicle_cons, chronicle_cons, ih]

theorem chronicle_dropLast (fs : List (Nat × List Item)) : chronicle fs.dropLast <:+ chronicle fs := by
  by_cases h : fs = []
  · subst h; exact List.suffix_refl _
  · obtain ⟨a, x, rfl⟩ : ∃ a' x, fs = a' ++ [x] := ⟨fs.dropLast, fs.getLast h, (List.dropLast_concat_getLast h).symm⟩
    rw [List.dropLast_concat, chronicle_snoc]
    exact List.suffix_append _ _

theorem logged_append (a b : List Item) : logged (a ++ b) = logged a ++ logged b := by unfold logged; simp

theorem logged_tags (ts : List Text) : logged (ts.map Item.tags) = [] := by
  unfold logged
  induction ts with
  | nil => rfl
  | cons t ts ih => rw [List.map_cons, List.filterMap_cons]; exact ih

/-! ## The base file -/

theorem pos_name {i : Nat} (h : 0 < i) : suffix i ≠ [] := by
  cases i with
  | zero => omega
  | succ i => simp [suffix]

theorem append_canon {c : List Item} {rest : List (Nat × List Item)} (h : ∀ f ∈ rest, 0 < f.1) (es : List Item) :
    append (canon ((0, c) :: rest)) es = canon ((0, c ++ es) :: rest) := by
  unfold append canon
  simp only [List.map_cons, List.map_map, show suffix 0 = [] from rfl, if_true]
  congr 1
  refine List.map_congr_left fun f hf => ?_
  simp only [Function.comp, if_neg (pos_name (h f hf))]

theorem find_perm {d d' : Dir} (h : d.Perm d') (hn : (names d).Nodup) (n : Text) : d.find? (fun f => f.1 == n) = d'.find? (fun f => f.1 == n) := by
  induction h with
  | nil => rfl
  | cons x _ ih =>
    simp only [List.find?_cons]
    rw [ih (List.nodup_cons.1 hn).2]
  | swap x y l =>
    simp only [List.find?_cons]
    have hne : x.1 ≠ y.1 := by
      intro he
      have := (List.nodup_cons.1 hn).1
      apply this
      simp [names, he]
    cases hx : (x.1 == n) <;> cases hy : (y.1 == n) <;> simp
    rw [beq_iff_eq] at hx hy
    exact absurd (hx.trans hy.symm) hne
  | trans h1 h2 ih1 ih2 => rw [ih1 hn, ih2 ((h1.map _).nodup_iff.1 hn)]

theorem canon_nodup {fs : List (Nat × List Item)} (hs : fs.Pairwise (fun a b => a.1 < b.1)) (h : ∀ f ∈ fs, f.1 < 12) : (names (canon fs)).Nodup := by
  unfold names canon
  rw [List.map_map]
  unfold List.Nodup
  rw [List.pairwise_map]
  refine List.Pairwise.imp_of_mem ?_ hs
  intro a b ha hb hlt he
  have := suffix_inj a.1 (h a ha) b.1 (h b hb) he
  omega

theorem content_base {d : Dir} {c : List Item} {rest : List (Nat × List Item)} (h : d.Perm (canon ((0, c) :: rest)))
    (hs : ((0, c) :: rest).Pairwise (fun a b : Nat × List Item => a.1 < b.1)) (h12 : ∀ f ∈ (0, c) :: rest, f.1 < 12) : content d [] = c := by
  unfold content
  have hn : (names d).Nodup := (h.map _).nodup_iff.2 (canon_nodup hs h12)
  rw [find_perm h hn]
  simp [canon, suffix]

/-- After the renamings a new file is created. -/
theorem openBase_shift {d : Dir} {fs : List (Nat × List Item)} (h : d.Perm (canon (shift fs))) : (openBase d).Perm (canon ((0, []) :: shift fs)) := by
  have hno : d.any (fun f => f.1 == []) = false := by
    rw [List.any_eq_false]
    intro f hf
    have := h.mem_iff.1 hf
    unfold canon shift at this
    rw [List.map_map] at this
    obtain ⟨g, _, rfl⟩ := List.mem_map.1 this
    simp [suffix]
  unfold openBase
  rw [hno]
  exact h.cons _

/-! ## One step -/

/-- What is reported when a file is rotated. -/
def reported (cfg : Cfg) (n : Nat) : Status := if 0 < cfg.maxCount ∧ cfg.maxCount ≤ n then .rotatedWithDeletion else .rotated

theorem rotateIfNeeded_numbered {cfg : Cfg} {stamp : Text} (hd : cfg.date = false) {d : Dir} {c : List Item} {cs : List (List Item)}
    (h : d.Perm (canon (numbered (c :: cs)))) (hl : cs.length ≤ 10) :
    rotateIfNeeded cfg stamp d = some (d, .notRotated) ∨
    ∃ d', rotateIfNeeded cfg stamp d = some (d', reported cfg (cs.length + 1)) ∧
      d'.Perm (canon (numbered (cfg.post.map .tags :: keptFiles cfg.maxCount ((c ++ cfg.pre.map .tags) :: cs)))) := by
  unfold rotateIfNeeded
  split
  · exact .inl rfl
  split
  · exact .inl rfl
  split
  · right
    have hpos : ∀ f ∈ shift (numbered cs), 0 < f.1 := by
      intro f hf
      obtain ⟨g, _, rfl⟩ := List.mem_map.1 hf
      exact Nat.succ_pos _
    have h1 : (append d (cfg.pre.map .tags)).Perm (canon (numbered ((c ++ cfg.pre.map .tags) :: cs))) := by
      have := append_perm h (cfg.pre.map .tags)
      rw [numbered_cons, append_canon hpos, ← numbered_cons] at this
      exact this
    obtain ⟨d', h2, h3⟩ := rotateLog_canon (cfg := cfg) (stamp := stamp) hd h1 (numbered_sorted _) (fun f hf => by
      have := numbered_lt _ f hf
      rw [List.length_cons] at this
      omega) (by rw [numbered_cons]; simp)
    rw [numbered_length, List.length_cons] at h2
    rw [h2]
    refine ⟨_, rfl, ?_⟩
    rw [kept_numbered] at h3
    have h4 := append_perm (openBase_shift h3) (cfg.post.map .tags)
    rw [append_canon (by
      intro f hf
      obtain ⟨g, _, rfl⟩ := List.mem_map.1 hf
      exact Nat.succ_pos _), List.nil_append, ← numbered_cons] at h4
    exact h4
  · exact .inl rfl

theorem keptFiles_length {m n : Nat} {cs : List (List Item)} (hne : cs ≠ []) (hm : 1 ≤ m) (h : cs.length ≤ m) (hn : n = cs.length) :
    (keptFiles m cs).length + 1 ≤ m ∧ (m ≤ n → (keptFiles m cs).length + 1 = m) := by
  unfold keptFiles
  have : 0 < cs.length := List.length_pos_iff.2 hne
  split
  · rw [List.length_dropLast]; omega
  · omega

theorem chronicle_numbered_cons (c : List Item) (cs : List (List Item)) : chronicle (numbered (c :: cs)) = chronicle (numbered cs) ++ logged c := by
  rw [numbered_cons, chronicle_cons, chronicle_shift]

theorem keptFiles_suffix (m : Nat) (cs : List (List Item)) : chronicle (numbered (keptFiles m cs)) <:+ chronicle (numbered cs) := by
  unfold keptFiles
  split
  · rw [numbered_dropLast]; exact chronicle_dropLast _
  · exact List.suffix_refl _

/-- The state after a step: what is there is the end of what was there and what was written, and nothing is missing unless a deletion is reported. -/
theorem step_numbered {cfg : Cfg} (hd : cfg.date = false) {d : Dir} {cs : List (List Item)} (hne : cs ≠ []) (h : d.Perm (canon (numbered cs))) (hl : cs.length ≤ 11) (o : Op) :
    ∃ d' st cs', step cfg d o = some (d', st) ∧ d'.Perm (canon (numbered cs')) ∧ cs' ≠ [] ∧
      chronicle (numbered cs') <:+ chronicle (numbered cs) ++ entries [o] ∧
      (st ≠ .rotatedWithDeletion → chronicle (numbered cs') = chronicle (numbered cs) ++ entries [o]) ∧
      ((st = .notRotated ∧ cs'.length = cs.length) ∨ (st = reported cfg cs.length ∧ ∃ c', c'.length = cs.length ∧ c' ≠ [] ∧ cs'.length = (keptFiles cfg.maxCount c').length + 1)) := by
  cases cs with
  | nil => exact absurd rfl hne
  | cons c cs =>
    rw [List.length_cons] at hl
    have hpos : ∀ (l : List (List Item)), ∀ f ∈ shift (numbered l), 0 < f.1 := by
      intro l f hf
      obtain ⟨g, _, rfl⟩ := List.mem_map.1 hf
      exact Nat.succ_pos _
    -- the files after the rotation
    have key : ∀ (stamp : Text), ∃ d' st c1 cs1, rotateIfNeeded cfg stamp d = some (d', st) ∧ d'.Perm (canon (numbered (c1 :: cs1))) ∧
        chronicle (numbered (c1 :: cs1)) <:+ chronicle (numbered (c :: cs)) ∧
        (st ≠ .rotatedWithDeletion → chronicle (numbered (c1 :: cs1)) = chronicle (numbered (c :: cs))) ∧
        ((st = .notRotated ∧ cs1.length = cs.length ∧ c1 = c) ∨ (st = reported cfg (cs.length + 1) ∧ ∃ c', c'.length = cs.length + 1 ∧ c' ≠ [] ∧
          cs1 = keptFiles cfg.maxCount c')) := by
      intro stamp
      rcases rotateIfNeeded_numbered (stamp := stamp) hd h (by omega) with hr | ⟨d', hr, hp⟩
      · exact ⟨d, _, c, cs, hr, h, List.suffix_refl _, fun _ => rfl, .inl ⟨rfl, rfl, rfl⟩⟩
      · have hsame : chronicle (numbered ((c ++ cfg.pre.map .tags) :: cs)) = chronicle (numbered (c :: cs)) := by
          rw [chronicle_numbered_cons, chronicle_numbered_cons, logged_append, logged_tags, List.append_nil]
        refine ⟨d', _, _, _, hr, hp, ?_, ?_, .inr ⟨rfl, (c ++ cfg.pre.map .tags) :: cs, rfl, by simp, rfl⟩⟩
        · rw [chronicle_numbered_cons, logged_tags, List.append_nil, ← hsame]
          exact keptFiles_suffix _ _
        · intro hst
          rw [chronicle_numbered_cons, logged_tags, List.append_nil, ← hsame]
          unfold keptFiles
          unfold reported at hst
          rw [List.length_cons]
          split
          · rename_i hc
            rw [if_pos hc] at hst
            exact absurd rfl hst
          · rfl
    cases o with
    | write stamp e =>
      obtain ⟨d', st, c1, cs1, hr, hp, hsuf, heq, hlen⟩ := key stamp
      have hstep : step cfg d (.write stamp e) = some (append d' [.entry e], st) := by
        show write cfg d stamp e = _
        unfold write
        rw [hr]
      have hch : chronicle (numbered ((c1 ++ [.entry e]) :: cs1)) = chronicle (numbered (c1 :: cs1)) ++ [e] := by
        rw [chronicle_numbered_cons, chronicle_numbered_cons, logged_append, List.append_assoc]
        rfl
      refine ⟨_, st, (c1 ++ [.entry e]) :: cs1, hstep, ?_, by simp, ?_, ?_, ?_⟩
      · have := append_perm hp [.entry e]
        rw [numbered_cons, append_canon (hpos cs1), ← numbered_cons] at this
        exact this
      · rw [hch]
        obtain ⟨p, hp⟩ := hsuf
        refine ⟨p, ?_⟩
        rw [← hp, ← List.append_assoc]
        rfl
      · intro hst
        rw [hch, heq hst]
        rfl
      · rcases hlen with ⟨h1, h2, _⟩ | ⟨h1, c', h2, h3, h4⟩
        · exact .inl ⟨h1, by simp [h2]⟩
        · exact .inr ⟨h1, c', h2, h3, by simp [h4]⟩
    | restart stamp =>
      obtain ⟨d', st, c1, cs1, hr, hp, hsuf, heq, hlen⟩ := key stamp
      have hopen : openBase d = d := by
        unfold openBase
        have : d.any (fun f => f.1 == []) = true := by
          rw [List.any_eq_true]
          refine ⟨([], c), h.mem_iff.2 ?_, by simp⟩
          rw [numbered_cons]
          simp [canon, suffix]
        rw [if_pos this]
      have hstep : step cfg d (.restart stamp) = some (if size (content d' []) = 0 then append d' (cfg.post.map .tags) else d', st) := by
        show start cfg d stamp = _
        unfold start
        rw [hopen, hr]
      have hlast : ((st = .notRotated ∧ (c1 :: cs1).length = (c :: cs).length) ∨ (st = reported cfg (c :: cs).length ∧ ∃ c', c'.length = (c :: cs).length ∧ c' ≠ [] ∧
          (c1 :: cs1).length = (keptFiles cfg.maxCount c').length + 1)) := by
        rcases hlen with ⟨h1, h2, _⟩ | ⟨h1, c', h2, h3, h4⟩
        · exact .inl ⟨h1, by simp [h2]⟩
        · exact .inr ⟨h1, c', h2, h3, by simp [h4]⟩
      have hent : entries [Op.restart stamp] = [] := rfl
      rw [hstep]
      by_cases hz : size (content d' []) = 0
      · refine ⟨_, st, (c1 ++ cfg.post.map .tags) :: cs1, by rw [if_pos hz], ?_, by simp, ?_, ?_, by simpa using hlast⟩
        · have := append_perm hp (cfg.post.map .tags)
          rw [numbered_cons, append_canon (hpos cs1), ← numbered_cons] at this
          exact this
        · rw [hent, List.append_nil, chronicle_numbered_cons, logged_append, logged_tags, List.append_nil, ← chronicle_numbered_cons]
          exact hsuf
        · intro hst
          rw [hent, List.append_nil, chronicle_numbered_cons, logged_append, logged_tags, List.append_nil, ← chronicle_numbered_cons]
          exact heq hst
      · refine ⟨_, st, c1 :: cs1, by rw [if_neg hz], hp, by simp, ?_, ?_, hlast⟩
        · rw [hent, List.append_nil]; exact hsuf
        · intro hst; rw [hent, List.append_nil]; exact heq hst
    | close =>
      have hent : entries [Op.close] = [] := rfl
      refine ⟨_, _, (c ++ cfg.pre.map .tags) :: cs, rfl, ?_, by simp, ?_, ?_, .inl ⟨rfl, rfl⟩⟩
      · have := append_perm h (cfg.pre.map .tags)
        rw [numbered_cons, append_canon (hpos cs), ← numbered_cons] at this
        exact this
      · rw [hent, List.append_nil, chronicle_numbered_cons, logged_append, logged_tags, List.append_nil, ← chronicle_numbered_cons]
        exact List.suffix_refl _
      · intro _
        rw [hent, List.append_nil, chronicle_numbered_cons, logged_append, logged_tags, List.append_nil, ← chronicle_numbered_cons]

theorem entries_cons (o : Op) (os : List Op) : entries (o :: os) = entries [o] ++ entries os := by cases o <;> rfl

/-! ## C179 -/

/-- C179, partial: with numbered files and a limit of one to eleven files, and a directory with such files without gaps in the numbers, whatever is written and whenever
the process restarts: the files that are there contain, from the oldest file to the newest, the end of what was there before and was written since, in this order.
Nothing is lost unless a deletion is reported, and then the log has as many files as allowed.
Missing: other limits, dates as suffixes, other files with the name of the log: see the negations below. -/
theorem C179_partial {cfg : Cfg} (hd : cfg.date = false) (h1 : 1 ≤ cfg.maxCount) (h11 : cfg.maxCount ≤ 11) {d : Dir} {cs : List (List Item)} (hne : cs ≠ [])
    (h : Holds d (numbered cs)) (hl : cs.length ≤ cfg.maxCount) (ops : List Op) :
    ∃ d' sts cs', run cfg d ops = some (d', sts) ∧ Holds d' (numbered cs') ∧ cs' ≠ [] ∧ cs'.length ≤ cfg.maxCount ∧
      chronicle (numbered cs') <:+ chronicle (numbered cs) ++ entries ops ∧
      (.rotatedWithDeletion ∉ sts → chronicle (numbered cs') = chronicle (numbered cs) ++ entries ops) ∧
      (.rotatedWithDeletion ∈ sts → cs'.length = cfg.maxCount) := by
  have main : ∀ (ops : List Op) (d : Dir) (cs : List (List Item)), cs ≠ [] → d.Perm (canon (numbered cs)) → cs.length ≤ cfg.maxCount →
      ∃ d' sts cs', run cfg d ops = some (d', sts) ∧ d'.Perm (canon (numbered cs')) ∧ cs' ≠ [] ∧ cs'.length ≤ cfg.maxCount ∧
        chronicle (numbered cs') <:+ chronicle (numbered cs) ++ entries ops ∧
        (.rotatedWithDeletion ∉ sts → chronicle (numbered cs') = chronicle (numbered cs) ++ entries ops) ∧
        ((.rotatedWithDeletion ∈ sts ∨ cs.length = cfg.maxCount) → cs'.length = cfg.maxCount) := by
    intro ops
    induction ops with
    | nil =>
      intro d cs hne h hl
      refine ⟨d, [], cs, rfl, h, hne, hl, by simp [entries], fun _ => by simp [entries], ?_⟩
      rintro (h | h)
      · cases h
      · exact h
    | cons o os ih =>
      intro d cs hne h hl
      obtain ⟨d1, st, cs1, hs, hp, hne1, hsuf, heq, hlen⟩ := step_numbered hd hne h (by omega) o
      have hl1 : cs1.length ≤ cfg.maxCount ∧ ((st = .rotatedWithDeletion ∨ cs.length = cfg.maxCount) → cs1.length = cfg.maxCount) := by
        rcases hlen with ⟨hst, hle⟩ | ⟨hst, c', hc', hcne, hle⟩
        · refine ⟨by omega, ?_⟩
          rintro (h | h)
          · rw [hst] at h; cases h
          · omega
        · have hk := keptFiles_length hcne h1 (by omega) hc'.symm
          refine ⟨by omega, ?_⟩
          rintro (h | h)
          · rw [hst] at h
            unfold reported at h
            split at h
            · rename_i hm
              have := hk.2 hm.2
              omega
            · cases h
          · have := hk.2 (by omega)
            omega
      obtain ⟨d', sts, cs', hr, hp', hne', hl', hsuf', heq', hful⟩ := ih d1 cs1 hne1 hp hl1.1
      refine ⟨d', st :: sts, cs', ?_, hp', hne', hl', ?_, ?_, ?_⟩
      · show (match step cfg d o with
          | some (d', st) => match run cfg d' os with
            | some (d'', sts) => some (d'', st :: sts)
            | none => none
          | none => none) = _
        rw [hs]
        dsimp only
        rw [hr]
      · rw [entries_cons, ← List.append_assoc]
        refine hsuf'.trans ?_
        obtain ⟨p, hp⟩ := hsuf
        exact ⟨p, by rw [← hp, List.append_assoc]⟩
      · intro hno
        simp only [List.mem_cons, not_or] at hno
        rw [heq' hno.2, heq (Ne.symm hno.1), entries_cons o os, List.append_assoc]
      · rintro (hm | hm)
        · rcases List.mem_cons.1 hm with rfl | hm
          · exact hful (.inr (hl1.2 (.inl rfl)))
          · exact hful (.inl hm)
        · exact hful (.inr (hl1.2 (.inr hm)))
  obtain ⟨d', sts, cs', a1, a2, a3, a4, a5, a6, a7⟩ := main ops d cs hne h.1 hl
  exact ⟨d', sts, cs', a1, ⟨a2, numbered_sorted _⟩, a3, a4, a5, a6, fun hm => a7 (.inl hm)⟩

/-- C179, partial: without a limit, and with a limit that is not reached, nothing is lost as long as there are at most twelve files.
Missing: more files, see `C179_unlimited_violated`. -/
theorem C179_unlimited_partial {cfg : Cfg} (hd : cfg.date = false) (h0 : cfg.maxCount = 0) {d : Dir} {cs : List (List Item)} (hne : cs ≠ [])
    (h : Holds d (numbered cs)) (ops : List Op) (hl : cs.length + ops.length ≤ 12) :
    ∃ d' sts cs', run cfg d ops = some (d', sts) ∧ Holds d' (numbered cs') ∧ chronicle (numbered cs') = chronicle (numbered cs) ++ entries ops := by
  have main : ∀ (ops : List Op) (d : Dir) (cs : List (List Item)), cs ≠ [] → d.Perm (canon (numbered cs)) → cs.length + ops.length ≤ 12 →
      ∃ d' sts cs', run cfg d ops = some (d', sts) ∧ d'.Perm (canon (numbered cs')) ∧ chronicle (numbered cs') = chronicle (numbered cs) ++ entries ops := by
    intro ops
    induction ops with
    | nil => intro d cs _ h _; exact ⟨d, [], cs, rfl, h, by simp [entries]⟩
    | cons o os ih =>
      intro d cs hne h hl
      rw [List.length_cons] at hl
      obtain ⟨d1, st, cs1, hs, hp, hne1, hsuf, heq, hlen⟩ := step_numbered hd hne h (by omega) o
      have hst : st ≠ .rotatedWithDeletion ∧ cs1.length ≤ cs.length + 1 := by
        rcases hlen with ⟨hst, hle⟩ | ⟨hst, c', hc', hcne, hle⟩
        · exact ⟨by rw [hst]; decide, by omega⟩
        · refine ⟨?_, ?_⟩
          · rw [hst]; unfold reported; rw [if_neg (by omega)]; decide
          · unfold keptFiles at hle
            rw [if_neg (by omega)] at hle
            omega
      obtain ⟨d', sts, cs', hr, hp', heq'⟩ := ih d1 cs1 hne1 hp (by omega)
      refine ⟨d', st :: sts, cs', ?_, hp', ?_⟩
      · show (match step cfg d o with
          | some (d', st) => match run cfg d' os with
            | some (d'', sts) => some (d'', st :: sts)
            | none => none
          | none => none) = _
        rw [hs]
        dsimp only
        rw [hr]
      · rw [heq', heq hst.1, entries_cons o os, List.append_assoc]
  obtain ⟨d', sts, cs', a1, a2, a3⟩ := main ops d cs hne h.1 hl
  exact ⟨d', sts, cs', a1, ⟨a2, numbered_sorted _⟩, a3⟩

/-! ## A rotation that is interrupted -/

theorem perform_rename_canon {fs : List (Nat × List Item)} (hs : fs.Pairwise (fun a b => a.1 < b.1)) (h11 : ∀ f ∈ fs, f.1 < 11) (k : Nat) {d : Dir} (h : d.Perm (canon fs)) :
    ∃ a b, fs = a ++ b ∧ (((fs.reverse.map (fun f => FsOp.rename (suffix f.1) (suffix (f.1 + 1)))).take k).foldl perform d).Perm (canon (a ++ shift b)) := by
  induction k with
  | zero => exact ⟨fs, [], by simp, by simpa [shift] using h⟩
  | succ k ih =>
    -- the files after `k` operations are split at the place given by `k`
    have main : ∀ (a b : List (Nat × List Item)) (d : Dir) (k : Nat), (a ++ b).Pairwise (fun x y => x.1 < y.1) → (∀ f ∈ a ++ b, f.1 < 11) → d.Perm (canon (a ++ shift b)) →
        ∃ a' b', a ++ b = a' ++ b' ∧ (((a.reverse.map (fun f => FsOp.rename (suffix f.1) (suffix (f.1 + 1)))).take k).foldl perform d).Perm (canon (a' ++ shift b')) := by
      intro a
      generalize hn : a.length = n
      induction n generalizing a with
      | zero =>
        intro b d k _ _ hp
        have : a = [] := List.length_eq_zero_iff.1 hn
        subst this
        exact ⟨[], b, rfl, by simpa using hp⟩
      | succ n ih =>
        intro b d k hs h11 hp
        have hne : a ≠ [] := by intro h; subst h; simp at hn
        obtain ⟨a', x, rfl⟩ : ∃ a' x, a = a' ++ [x] := ⟨a.dropLast, a.getLast hne, (List.dropLast_concat_getLast hne).symm⟩
        cases k with
        | zero => exact ⟨a' ++ [x], b, rfl, by simpa using hp⟩
        | succ k =>
          have hlen : a'.length = n := by simp at hn; exact hn
          have hs' : (a' ++ x :: b).Pairwise (fun x y => x.1 < y.1) := by simpa using hs
          have h11' : ∀ f ∈ a' ++ x :: b, f.1 < 11 := by simpa using h11
          have hap := List.pairwise_append.1 hs'
          have hlt : ∀ f ∈ a', f.1 < x.1 := fun f hf => hap.2.2 f hf x (by simp)
          have hgt : ∀ f ∈ b, x.1 < f.1 := fun f hf => (List.pairwise_cons.1 hap.2.1).1 f hf
          have hp2 : (rename d (suffix x.1) (suffix (x.1 + 1))).Perm (canon (a' ++ shift (x :: b))) := by
            have e : a' ++ [x] ++ shift b = a' ++ (x.1, x.2) :: shift b := by simp
            rw [e] at hp
            have := rename_perm hp (suffix x.1) (suffix (x.1 + 1))
            rw [rename_canon hlt (shift_gt hgt) (shift_lt (fun f hf => h11' f (by simp [hf]))) (h11' x (by simp))] at this
            exact this
          obtain ⟨a2, b2, h1, h2⟩ := ih a' hlen (x :: b) _ k hs' h11' hp2
          refine ⟨a2, b2, by simpa using h1, ?_⟩
          rw [List.reverse_append, List.reverse_singleton, List.singleton_append, List.map_cons, List.take_succ_cons, List.foldl_cons]
          exact h2
    obtain ⟨a, b, h1, h2⟩ := main fs [] d (k + 1) (by rw [List.append_nil]; exact hs) (by rw [List.append_nil]; exact h11) (by simpa [shift] using h)
    rw [List.append_nil] at h1
    exact ⟨a, b, h1, h2⟩

theorem split_holds {d : Dir} {a b : List (Nat × List Item)} (hs : (a ++ b).Pairwise (fun x y => x.1 < y.1)) (h : d.Perm (canon (a ++ shift b))) : Holds d (a ++ shift b) := by
  refine ⟨h, List.pairwise_append.2 ⟨(List.pairwise_append.1 hs).1, shift_sorted (List.pairwise_append.1 hs).2.1, fun x hx y hy => ?_⟩⟩
  obtain ⟨g, hg, rfl⟩ := List.mem_map.1 hy
  have := (List.pairwise_append.1 hs).2.2 x hx g hg
  show x.1 < g.1 + 1
  omega

theorem split_chronicle (a b : List (Nat × List Item)) : chronicle (a ++ shift b) = chronicle (a ++ b) := by
  have : ∀ l, chronicle (a ++ l) = chronicle l ++ chronicle a := by
    intro l
    unfold chronicle
    simp
  rw [this, this, chronicle_shift]

/-- C179, partial: the process may end at any point of a rotation: what is in the files then is everything that was there, or everything but the oldest file if there were as
many files as allowed, in the same order.  The numbers of the files, with or without gaps, have to be below ten. -/
theorem C179_interrupted_partial {cfg : Cfg} {stamp : Text} (hd : cfg.date = false) {d : Dir} {fs : List (Nat × List Item)} (h : Holds d fs) (h11 : ∀ f ∈ fs, f.1 ≤ 10) (k : Nat) :
    ∃ fs', Holds (((operations cfg stamp d).take k).foldl perform d) fs' ∧
      (chronicle fs' = chronicle fs ∨ (0 < cfg.maxCount ∧ cfg.maxCount ≤ fs.length ∧ chronicle fs' = chronicle fs.dropLast)) := by
  have h11' : ∀ f ∈ fs, f.1 < 11 := fun f hf => by have := h11 f hf; omega
  have hlen : d.length = fs.length := by have := h.1.length_eq; rwa [List.length_map] at this
  unfold operations
  rw [holds_names h.1 h.2 h11', hlen]
  by_cases hc : 0 < cfg.maxCount ∧ cfg.maxCount ≤ fs.length
  · rw [if_pos hc]
    have hne : fs ≠ [] := by intro he; subst he; simp at hc; omega
    obtain ⟨a, x, rfl⟩ : ∃ a' x, fs = a' ++ [x] := ⟨fs.dropLast, fs.getLast hne, (List.dropLast_concat_getLast hne).symm⟩
    have e : (a ++ [x]).reverse.map (fun f => suffix f.1) = suffix x.1 :: a.reverse.map (fun f => suffix f.1) := by simp
    rw [e]
    dsimp only
    cases k with
    | zero => exact ⟨a ++ [x], by simpa using h, .inl rfl⟩
    | succ k =>
      rw [List.take_succ_cons, List.foldl_cons, List.dropLast_concat, renamings_canon hd a (fun f hf => h11' f (by simp [hf]))]
      have hp : (remove d (suffix x.1)).Perm (canon a) := by
        have := remove_perm h.1 (suffix x.1)
        rwa [show (a ++ [x]).map (fun f : Nat × List Item => (suffix f.1, f.2)) = canon (a ++ [x]) from rfl, remove_last h.2 h11'] at this
      obtain ⟨a1, b1, h1, h2⟩ := perform_rename_canon (List.pairwise_append.1 h.2).1 (fun f hf => h11' f (by simp [hf])) k hp
      refine ⟨a1 ++ shift b1, split_holds (by rw [← h1]; exact (List.pairwise_append.1 h.2).1) h2, .inr ⟨hc.1, hc.2, ?_⟩⟩
      rw [split_chronicle, h1]
  · rw [if_neg hc, renamings_canon hd fs h11']
    obtain ⟨a1, b1, h1, h2⟩ := perform_rename_canon h.2 h11' k h.1
    exact ⟨a1 ++ shift b1, split_holds (by rw [← h1]; exact h.2) h2, .inl (by rw [split_chronicle, h1])⟩

/-! ## Cases, and what goes wrong -/

/-- Numbered files, at most `n` bytes, at most `m` files. -/
def demoCfg (n m : Nat) : Cfg := { rotate := true, date := false, maxSize := n, maxCount := m }

/-- An entry of one character, written at the time `s`. -/
def one (s : String) (c : Char) : Op := .write s.toList [c]

def twelve : List Op := ['a', 'b', 'c', 'd', 'e', 'f', 'g', 'h', 'i', 'j', 'k', 'l', 'm'].map (one "")

/-- The entries of all files. -/
def allEntries (d : Dir) : List Text := (d.map (fun f => logged f.2)).flatten

/-- The first start: the directory is empty. -/
example : start (demoCfg 1 3) [] [] = some ([([], [])], .notRotated) ∧ Holds [([], [])] (numbered [[]]) := by
  refine ⟨by decide, ?_, ?_⟩
  · exact .refl _
  · exact numbered_sorted _

/-- Five entries of one byte, at most one byte for each file and three files. -/
example : (run (demoCfg 1 3) [([], [])] (['a', 'b', 'c', 'd', 'e'].map (one ""))).map (fun r => (allEntries r.1, r.2)) =
    some ([['e'], ['d'], ['c']], [.notRotated, .rotated, .rotated, .rotatedWithDeletion, .rotatedWithDeletion]) := by decide +kernel

/-- C179 is violated: without a limit for the number of files entries are lost, and no deletion is reported: `.10` is before `.9` in the order of texts, so `.9` is renamed to
`.10` while there still is a file with this name. -/
theorem C179_unlimited_violated : ∃ d sts, run (demoCfg 1 0) [([], [])] twelve = some (d, sts) ∧ .rotatedWithDeletion ∉ sts ∧
    ['a'] ∈ entries twelve ∧ ['a'] ∉ allEntries d := by
  refine ⟨_, _, rfl, by decide +kernel, by decide +kernel, by decide +kernel⟩

/-- C179 is violated: with a limit of twelve files it is not the oldest file that is deleted: the oldest entry, "a", is kept, and the second one, "b", is lost. -/
theorem C179_twelve_violated : ∃ d sts, run (demoCfg 1 12) [([], [])] twelve = some (d, sts) ∧ ['a'] ∈ allEntries d ∧ ['b'] ∉ allEntries d := by
  refine ⟨_, _, rfl, by decide +kernel, by decide +kernel⟩

/-- Dates as suffixes. -/
def datedCfg (n m : Nat) : Cfg := { rotate := true, date := true, maxSize := n, maxCount := m }

/-- Entries on four days. -/
def fourDays : List Op := [one "20260101000000" 'a', one "20260102000000" 'b', one "20260103000000" 'c', one "20260104000000" 'd']

/-- C179 is violated: with dates as suffixes it is the newest of the rotated files that is deleted: "b" is lost, the older "a" is kept. -/
theorem C179_dated_violated : ∃ d sts, run (datedCfg 1 3) [([], [])] fourDays = some (d, sts) ∧ ['a'] ∈ allEntries d ∧ ['b'] ∉ allEntries d ∧
    ['c'] ∈ allEntries d := by
  refine ⟨_, _, rfl, by decide +kernel, by decide +kernel, by decide +kernel⟩

/-- C179 is violated: two rotations within a second: the file of the first one is replaced, and no deletion is reported. -/
theorem C179_second_violated : ∃ d sts, run (datedCfg 1 0) [([], [])] [one "20260101000000" 'a', one "20260101000000" 'b', one "20260101000000" 'c'] = some (d, sts) ∧
    .rotatedWithDeletion ∉ sts ∧ ['a'] ∉ allEntries d := by
  refine ⟨_, _, rfl, by decide +kernel, by decide +kernel⟩

/-- C179 is violated: a copy of a log, made by someone else, is taken for the oldest file, and deleted. -/
theorem C179_copy_violated : ∃ d sts, run (demoCfg 1 3) [([], []), (".bak".toList, [.entry "copy".toList])] [one "" 'a', one "" 'b', one "" 'c'] = some (d, sts) ∧
    "copy".toList ∉ allEntries d ∧ ['a'] ∈ allEntries d := by
  refine ⟨_, _, rfl, by decide +kernel, by decide +kernel⟩

end Verif.Log
