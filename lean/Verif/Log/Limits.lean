import Verif.Log.Rotation
/-! C179 for logs with dates as suffixes, C180: the number of files and their size. -/
set_option linter.unusedSimpArgs false

namespace Verif.Log

open Verif.Conf16 (Text stoi Stoi bytes)

/-! ## Any files -/

theorem newName_to {cfg : Cfg} {stamp n m : Text} (h : newName cfg stamp n = .to m) : m ≠ [] := by
  unfold newName at h
  split at h
  · injection h with h; rw [← h]; simp
  split at h
  · cases h
  split at h
  · split at h
    · cases h
    · injection h with h; rw [← h]; simp
  · cases h

theorem newName_base (cfg : Cfg) (stamp : Text) : newName cfg stamp [] = .to ('.' :: (if cfg.date then stamp else "0".toList)) := by
  unfold newName
  rw [if_pos rfl]

theorem rename_contents {d : Dir} {a b : Text} : ∀ f ∈ rename d a b, ∃ g ∈ d, f.2 = g.2 := by
  intro f hf
  obtain ⟨g, hg, rfl⟩ := List.mem_map.1 hf
  refine ⟨g, (List.mem_filter.1 hg).1, ?_⟩
  split <;> rfl

theorem rename_length (d : Dir) (a b : Text) : (rename d a b).length ≤ d.length := by
  unfold rename
  rw [List.length_map]
  exact List.length_filter_le _ _

theorem mem_names {d : Dir} {n : Text} : n ∈ names d ↔ ∃ f ∈ d, f.1 = n := by
  unfold names
  rw [List.mem_map]

/-- Renaming does not give a file the name of the log, and takes it from the log itself. -/
theorem rename_base {d : Dir} {a b : Text} (hb : b ≠ []) (h : [] ∈ names (rename d a b)) : [] ∈ names d ∧ a ≠ [] := by
  obtain ⟨f, hf, hn⟩ := mem_names.1 h
  obtain ⟨g, hg, rfl⟩ := List.mem_map.1 hf
  split at hn
  · exact absurd hn hb
  · rename_i hne
    refine ⟨mem_names.2 ⟨g, (List.mem_filter.1 hg).1, hn⟩, ?_⟩
    intro ha
    rw [ha] at hne
    exact hne hn

theorem renameAll_any {cfg : Cfg} {stamp : Text} : ∀ (ns : List Text) (d : Dir) (st : Status) (d' : Dir) (st' : Status), renameAll cfg stamp ns (d, st) = some (d', st') →
    (∀ f ∈ d', ∃ g ∈ d, f.2 = g.2) ∧ d'.length ≤ d.length ∧ ([] ∈ names d' → [] ∈ names d ∧ [] ∉ ns) := by
  intro ns
  induction ns with
  | nil =>
    intro d st d' st' h
    unfold renameAll at h
    injection h with h
    injection h with h1 h2
    subst h1
    exact ⟨fun f hf => ⟨f, hf, rfl⟩, Nat.le_refl _, fun h => ⟨h, by simp⟩⟩
  | cons n ns ih =>
    intro d st d' st' h
    have he : renameAll cfg stamp (n :: ns) (d, st) = (match newName cfg stamp n with
      | .skip => renameAll cfg stamp ns (d, st)
      | .to m => renameAll cfg stamp ns (rename d n m, if st = .notRotated then .rotated else st)
      | .overflow => none) := rfl
    rw [he] at h
    cases hn : newName cfg stamp n with
    | skip =>
      rw [hn] at h
      obtain ⟨h1, h2, h3⟩ := ih _ _ _ _ h
      refine ⟨h1, h2, fun hb => ⟨(h3 hb).1, ?_⟩⟩
      intro hm
      rcases List.mem_cons.1 hm with rfl | hm
      · rw [newName_base] at hn; cases hn
      · exact (h3 hb).2 hm
    | to m =>
      rw [hn] at h
      obtain ⟨h1, h2, h3⟩ := ih _ _ _ _ h
      refine ⟨fun f hf => ?_, Nat.le_trans h2 (rename_length _ _ _), fun hb => ?_⟩
      · obtain ⟨g, hg, hfg⟩ := h1 f hf
        obtain ⟨g', hg', hgg⟩ := rename_contents g hg
        exact ⟨g', hg', hfg.trans hgg⟩
      · obtain ⟨hb1, hb2⟩ := h3 hb
        obtain ⟨hc1, hc2⟩ := rename_base (newName_to hn) hb1
        refine ⟨hc1, fun hm => ?_⟩
        rcases List.mem_cons.1 hm with rfl | hm
        · exact hc2 rfl
        · exact hb2 hm
    | overflow => rw [hn] at h; cases h

theorem remove_length {d : Dir} {n : Text} (h : n ∈ names d) : (remove d n).length + 1 ≤ d.length := by
  obtain ⟨f, hf, hn⟩ := mem_names.1 h
  unfold remove
  have : (d.filter (fun f => f.1 != n)).length < d.length := by
    rw [List.length_filter_lt_length_iff_exists]
    exact ⟨f, hf, by simp [hn]⟩
  omega

/-- A rotation: nothing but the contents of files that were there, one file less if there are as many as allowed, and no file with the name of the log. -/
theorem rotateLog_any {cfg : Cfg} {stamp : Text} {d d' : Dir} {st : Status} (hb : [] ∈ names d) (h : rotateLog cfg stamp d = some (d', st)) :
    (∀ f ∈ d', ∃ g ∈ d, f.2 = g.2) ∧ d'.length ≤ d.length ∧ (0 < cfg.maxCount → cfg.maxCount ≤ d.length → d'.length + 1 ≤ d.length) ∧ [] ∉ names d' := by
  unfold rotateLog at h
  have hin : [] ∈ descending (names d) := (descending_perm _).mem_iff.2 hb
  split at h
  · rename_i hc
    cases hd : descending (names d) with
    | nil => rw [hd] at hin; cases hin
    | cons n ns =>
      rw [hd] at h hin
      dsimp only at h
      have hn : n ∈ names d := (descending_perm _).mem_iff.1 (by rw [hd]; simp)
      have hl := remove_length hn
      obtain ⟨h1, h2, h3⟩ := renameAll_any _ _ _ _ _ h
      refine ⟨fun f hf => ?_, by omega, fun _ _ => by omega, fun hb' => ?_⟩
      · obtain ⟨g, hg, hfg⟩ := h1 f hf
        exact ⟨g, (List.mem_filter.1 hg).1, hfg⟩
      · obtain ⟨h4, h5⟩ := h3 hb'
        rcases List.mem_cons.1 hin with he | he
        · obtain ⟨g, hg, hgn⟩ := mem_names.1 h4
          have := (List.mem_filter.1 hg).2
          rw [hgn, ← he] at this
          simp at this
        · exact h5 he
  · rename_i hc
    obtain ⟨h1, h2, h3⟩ := renameAll_any _ _ _ _ _ h
    refine ⟨h1, h2, fun ha hb => absurd ⟨ha, hb⟩ hc, fun hb' => (h3 hb').2 hin⟩

theorem append_length (d : Dir) (es : List Item) : (append d es).length = d.length := by unfold append; simp

theorem append_names (d : Dir) (es : List Item) : names (append d es) = names d := by
  unfold append names
  rw [List.map_map]
  refine List.map_congr_left fun f _ => ?_
  simp only [Function.comp]
  split <;> rfl

theorem openBase_new {d : Dir} (h : [] ∉ names d) : openBase d = ([], []) :: d := by
  unfold openBase
  rw [if_neg]
  intro hc
  obtain ⟨f, hf, hn⟩ := List.any_eq_true.1 hc
  exact h (mem_names.2 ⟨f, hf, by simpa using hn⟩)

theorem openBase_old {d : Dir} (h : [] ∈ names d) : openBase d = d := by
  unfold openBase
  obtain ⟨f, hf, hn⟩ := mem_names.1 h
  rw [if_pos]
  exact List.any_eq_true.2 ⟨f, hf, by simp [hn]⟩

/-! ## C180: the number of files -/

theorem rotateIfNeeded_count {cfg : Cfg} {stamp : Text} {d d' : Dir} {st : Status} (hm : 1 ≤ cfg.maxCount) (hb : [] ∈ names d) (h : rotateIfNeeded cfg stamp d = some (d', st)) :
    [] ∈ names d' ∧ d'.length ≤ max cfg.maxCount d.length := by
  unfold rotateIfNeeded at h
  split at h
  · injection h with h; injection h with h1 _; subst h1; exact ⟨hb, by omega⟩
  split at h
  · injection h with h; injection h with h1 _; subst h1; exact ⟨hb, by omega⟩
  split at h
  · cases hr : rotateLog cfg stamp (append d (cfg.pre.map .tags)) with
    | none => rw [hr] at h; cases h
    | some r =>
      obtain ⟨d1, st1⟩ := r
      rw [hr] at h
      dsimp only at h
      injection h with h
      injection h with h1 _
      subst h1
      obtain ⟨_, h2, h3, h4⟩ := rotateLog_any (by rw [append_names]; exact hb) hr
      rw [append_length] at h2 h3
      rw [append_names, append_length, openBase_new h4]
      refine ⟨by simp [names], ?_⟩
      rw [List.length_cons]
      by_cases hc : cfg.maxCount ≤ d.length
      · have := h3 (by omega) hc; omega
      · omega
  · injection h with h; injection h with h1 _; subst h1; exact ⟨hb, by omega⟩

/-- C180, partial: whatever is written, whenever the process restarts, with numbers or dates, and whatever other files have the name of the log: there are never more files
than allowed, if there were not more at the start.
Missing: directories with more files than allowed, see `C180_violated`. -/
theorem C180_count_partial {cfg : Cfg} (hm : 1 ≤ cfg.maxCount) {d d' : Dir} {ops : List Op} {sts : List Status} (hb : [] ∈ names d) (hl : d.length ≤ cfg.maxCount)
    (h : run cfg d ops = some (d', sts)) : d'.length ≤ cfg.maxCount := by
  induction ops generalizing d sts with
  | nil => unfold run at h; injection h with h; injection h with h1 _; subst h1; exact hl
  | cons o os ih =>
    have he : run cfg d (o :: os) = (match step cfg d o with
      | some (d', st) => match run cfg d' os with
        | some (d'', sts) => some (d'', st :: sts)
        | none => none
      | none => none) := rfl
    rw [he] at h
    cases hs : step cfg d o with
    | none => rw [hs] at h; cases h
    | some r =>
      obtain ⟨d1, st⟩ := r
      rw [hs] at h
      dsimp only at h
      cases hr : run cfg d1 os with
      | none => rw [hr] at h; cases h
      | some r2 =>
        obtain ⟨d2, sts2⟩ := r2
        rw [hr] at h
        dsimp only at h
        injection h with h
        injection h with h1 _
        subst h1
        have hstep : [] ∈ names d1 ∧ d1.length ≤ cfg.maxCount := by
          cases o with
          | write stamp e =>
            have hw : write cfg d stamp e = some (d1, st) := hs
            unfold write at hw
            cases hq : rotateIfNeeded cfg stamp d with
            | none => rw [hq] at hw; cases hw
            | some q =>
              rw [hq] at hw
              dsimp only at hw
              injection hw with hw
              injection hw with hw1 _
              subst hw1
              obtain ⟨h1, h2⟩ := rotateIfNeeded_count hm hb (d' := q.1) (st := q.2) hq
              rw [append_names, append_length]
              exact ⟨h1, by omega⟩
          | restart stamp =>
            have hw : start cfg d stamp = some (d1, st) := hs
            unfold start at hw
            rw [openBase_old hb] at hw
            cases hq : rotateIfNeeded cfg stamp d with
            | none => rw [hq] at hw; cases hw
            | some q =>
              rw [hq] at hw
              dsimp only at hw
              injection hw with hw
              injection hw with hw1 _
              subst hw1
              obtain ⟨h1, h2⟩ := rotateIfNeeded_count hm hb (d' := q.1) (st := q.2) hq
              split
              · rw [append_names, append_length]; exact ⟨h1, by omega⟩
              · exact ⟨h1, by omega⟩
          | close =>
            have hw : some (append d (cfg.pre.map .tags), Status.notRotated) = some (d1, st) := hs
            injection hw with hw
            injection hw with hw1 _
            rw [← hw1, append_names, append_length]
            exact ⟨hb, hl⟩
        exact ih hstep.1 hstep.2 hr

/-- C180 is violated: when there are more files than allowed, as after a change of the limit, their number does not decrease: only one file is deleted for each new one. -/
theorem C180_violated : ∃ d sts, run (demoCfg 1 2) [([], []), (".0".toList, []), (".1".toList, []), (".2".toList, []), (".3".toList, [])] twelve = some (d, sts) ∧
    d.length = 5 := by
  refine ⟨_, _, rfl, by decide +kernel⟩

/-! ## C180: the size of the files -/

theorem size_append (a b : List Item) : size (a ++ b) = size a + size b := by unfold size; simp

/-- There is one file with the name of the log. -/
def Single (d : Dir) : Prop := [] ∈ names d ∧ ∀ f ∈ d, f.1 = [] → f.2 = content d []

theorem content_cons_base (c : List Item) (d : Dir) : content (([], c) :: d) [] = c := by
  unfold content
  simp

theorem content_append {d : Dir} (h : [] ∈ names d) (es : List Item) : content (append d es) [] = content d [] ++ es := by
  unfold content append
  induction d with
  | nil => cases h
  | cons f d ih =>
    rw [List.map_cons, List.find?_cons, List.find?_cons]
    by_cases hf : f.1 = []
    · simp [hf]
    · have h1 : (f.1 == []) = false := by simp [hf]
      rw [if_neg hf, h1]
      refine ih ?_
      obtain ⟨g, hg, hn⟩ := mem_names.1 h
      rcases List.mem_cons.1 hg with rfl | hg
      · exact absurd hn hf
      · exact mem_names.2 ⟨g, hg, hn⟩

theorem single_append {d : Dir} (h : Single d) (es : List Item) : Single (append d es) := by
  refine ⟨by rw [append_names]; exact h.1, fun f hf hn => ?_⟩
  rw [content_append h.1]
  obtain ⟨g, hg, rfl⟩ := List.mem_map.1 hf
  by_cases hgn : g.1 = []
  · rw [if_pos hgn]
    show g.2 ++ es = _
    rw [h.2 g hg hgn]
  · rw [if_neg hgn] at hn
    exact absurd hn hgn

theorem append_none (d : Dir) : append d [] = d := by
  unfold append
  have : (fun f : File => if f.1 = [] then (f.1, f.2 ++ []) else f) = id := by
    funext f
    split <;> simp
  rw [this, List.map_id]

theorem rotateIfNeeded_size {cfg : Cfg} {stamp : Text} {d d' : Dir} {st : Status} {b : Nat} (hr : cfg.rotate = true) (hm : 0 < cfg.maxSize) (hpre : cfg.pre = []) (hpost : cfg.post = [])
    (hs : Single d) (hl : ∀ f ∈ d, size f.2 < cfg.maxSize + b) (h : rotateIfNeeded cfg stamp d = some (d', st)) :
    Single d' ∧ (∀ f ∈ d', size f.2 < cfg.maxSize + b) ∧ size (content d' []) < cfg.maxSize := by
  unfold rotateIfNeeded at h
  rw [if_neg (by simp [hr]), if_neg (by omega)] at h
  split at h
  · rw [hpre, hpost, List.map_nil, append_none] at h
    cases hq : rotateLog cfg stamp d with
    | none => rw [hq] at h; cases h
    | some r =>
      obtain ⟨d1, st1⟩ := r
      rw [hq] at h
      dsimp only at h
      rw [append_none] at h
      injection h with h
      injection h with h1 _
      subst h1
      obtain ⟨h2, _, _, h4⟩ := rotateLog_any hs.1 hq
      rw [openBase_new h4]
      refine ⟨⟨by simp [names], fun f hf hn => ?_⟩, fun f hf => ?_, ?_⟩
      · rw [content_cons_base]
        rcases List.mem_cons.1 hf with rfl | hf
        · rfl
        · exact absurd (mem_names.2 ⟨f, hf, hn⟩) h4
      · rcases List.mem_cons.1 hf with rfl | hf
        · show (0 : Nat) < _; omega
        · obtain ⟨g, hg, hfg⟩ := h2 f hf
          rw [hfg]
          exact hl g hg
      · rw [content_cons_base]; exact hm
  · rename_i hlt
    injection h with h
    injection h with h1 _
    subst h1
    exact ⟨hs, hl, by omega⟩

/-- C180: when files are rotated at a size, no file of a log without tags ever has this size plus the size of the longest entry, with numbers or dates and whatever other files
have the name of the log, if there was no such file at the start. -/
theorem C180_size {cfg : Cfg} {b : Nat} (hr : cfg.rotate = true) (hm : 0 < cfg.maxSize) (hpre : cfg.pre = []) (hpost : cfg.post = []) {d d' : Dir} {ops : List Op} {sts : List Status}
    (hn : (names d).Nodup) (hb : [] ∈ names d) (hl : ∀ f ∈ d, size f.2 < cfg.maxSize + b) (hent : ∀ e ∈ entries ops, bytes e ≤ b) (h : run cfg d ops = some (d', sts)) :
    ∀ f ∈ d', size f.2 < cfg.maxSize + b := by
  have hs : Single d := by
    refine ⟨hb, ?_⟩
    clear hl h hb
    induction d with
    | nil => intro f hf; cases hf
    | cons g d ih =>
      intro f hf hfn
      have hc := List.nodup_cons.1 (show (g.1 :: names d).Nodup from hn)
      rcases List.mem_cons.1 hf with rfl | hf
      · unfold content; simp [hfn]
      · have hg : g.1 ≠ [] := by
          intro he
          exact hc.1 (mem_names.2 ⟨f, hf, by rw [hfn, he]⟩)
        rw [ih hc.2 f hf hfn]
        unfold content
        rw [List.find?_cons]
        have : (g.1 == []) = false := by simp [hg]
        rw [this]
  clear hn hb
  induction ops generalizing d sts with
  | nil => unfold run at h; injection h with h; injection h with h1 _; subst h1; exact hl
  | cons o os ih =>
    have he : run cfg d (o :: os) = (match step cfg d o with
      | some (d', st) => match run cfg d' os with
        | some (d'', sts) => some (d'', st :: sts)
        | none => none
      | none => none) := rfl
    rw [he] at h
    cases hs1 : step cfg d o with
    | none => rw [hs1] at h; cases h
    | some r =>
      obtain ⟨d1, st⟩ := r
      rw [hs1] at h
      dsimp only at h
      cases hr1 : run cfg d1 os with
      | none => rw [hr1] at h; cases h
      | some r2 =>
        obtain ⟨d2, sts2⟩ := r2
        rw [hr1] at h
        dsimp only at h
        injection h with h
        injection h with h1 _
        subst h1
        have hstep : Single d1 ∧ ∀ f ∈ d1, size f.2 < cfg.maxSize + b := by
          cases o with
          | write stamp e =>
            have hw : write cfg d stamp e = some (d1, st) := hs1
            unfold write at hw
            cases hq : rotateIfNeeded cfg stamp d with
            | none => rw [hq] at hw; cases hw
            | some q =>
              rw [hq] at hw
              dsimp only at hw
              injection hw with hw
              injection hw with hw1 _
              subst hw1
              obtain ⟨h1, h2, h3⟩ := rotateIfNeeded_size (d' := q.1) (st := q.2) hr hm hpre hpost hs hl hq
              refine ⟨single_append h1 _, fun f hf => ?_⟩
              obtain ⟨g, hg, rfl⟩ := List.mem_map.1 hf
              split
              · rename_i hgn
                show size (g.2 ++ [.entry e]) < _
                rw [size_append, h1.2 g hg hgn]
                have hbe : size [Item.entry e] ≤ b := by
                  have := hent e (by simp [entries])
                  unfold size
                  simpa [Item.text] using this
                omega
              · exact h2 g hg
          | restart stamp =>
            have hw : start cfg d stamp = some (d1, st) := hs1
            unfold start at hw
            rw [openBase_old hs.1] at hw
            cases hq : rotateIfNeeded cfg stamp d with
            | none => rw [hq] at hw; cases hw
            | some q =>
              rw [hq, hpost, List.map_nil] at hw
              dsimp only at hw
              rw [append_none, ite_self] at hw
              injection hw with hw
              injection hw with hw1 _
              subst hw1
              obtain ⟨h1, h2, _⟩ := rotateIfNeeded_size (d' := q.1) (st := q.2) hr hm hpre hpost hs hl hq
              exact ⟨h1, h2⟩
          | close =>
            have hw : some (append d (cfg.pre.map .tags), Status.notRotated) = some (d1, st) := hs1
            rw [hpre, List.map_nil, append_none] at hw
            injection hw with hw
            injection hw with hw1 _
            rw [← hw1]
            exact ⟨hs, hl⟩
        exact ih hstep.2 (fun e hem => hent e (by rw [entries_cons]; exact List.mem_append_right _ hem)) hr1 hstep.1

example : (names [([], []), (".0".toList, [Item.entry "x".toList])]).Nodup ∧ [] ∈ names [([], []), (".0".toList, [Item.entry "x".toList])] ∧
    (∀ f ∈ [(([], []) : File), (".0".toList, [Item.entry "x".toList])], size f.2 < (demoCfg 1 3).maxSize + 1) ∧ ∀ e ∈ entries twelve, bytes e ≤ 1 := by
  refine ⟨by decide +kernel, by decide, by decide +kernel, by decide +kernel⟩

/-! ## C179: dates as suffixes -/

/-- The files of the log: the log itself with the entries `c`, and the older ones, oldest first, with their dates. -/
def HoldsDated (d : Dir) (olds : List (Text × List Item)) (c : List Item) : Prop :=
  d.Perm (([], c) :: olds.map (fun o => ('.' :: o.1, o.2))) ∧ (olds.map (·.1)).Pairwise (fun a b => a < b)

/-- All entries, the oldest first. -/
def datedChronicle (olds : List (Text × List Item)) (c : List Item) : List Text := (olds.map (fun o => logged o.2)).flatten ++ logged c

def Op.stamp : Op → Text
  | .write s _ => s
  | .restart s => s
  | .close => []

/-- The dates at which files were rotated. -/
def rotatedAt : List Op → List Status → List Text
  | o :: os, st :: sts => (if st = .notRotated then [] else [o.stamp]) ++ rotatedAt os sts
  | _, _ => []

theorem renameAll_dated_skip {cfg : Cfg} {stamp : Text} (hd : cfg.date = true) : ∀ (ns : List Text) (r : Dir × Status), [] ∉ ns → renameAll cfg stamp ns r = some r := by
  intro ns
  induction ns with
  | nil => intro r _; rfl
  | cons n ns ih =>
    intro r h
    simp only [List.mem_cons, not_or] at h
    obtain ⟨d, st⟩ := r
    have : newName cfg stamp n = .skip := by
      unfold newName
      rw [if_neg (Ne.symm h.1), hd]
      rfl
    show (match newName cfg stamp n with
      | .skip => renameAll cfg stamp ns (d, st)
      | .to m => renameAll cfg stamp ns (rename d n m, if st = Status.notRotated then Status.rotated else st)
      | .overflow => none) = _
    rw [this]
    exact ih _ h.2

theorem renameAll_dated {cfg : Cfg} {stamp : Text} (hd : cfg.date = true) : ∀ (ns : List Text) (d : Dir) (st : Status), ns.Nodup → [] ∈ ns →
    renameAll cfg stamp ns (d, st) = some (rename d [] ('.' :: stamp), renamed st) := by
  intro ns
  induction ns with
  | nil => intro d st _ h; cases h
  | cons n ns ih =>
    intro d st hn h
    have hc := List.nodup_cons.1 hn
    show (match newName cfg stamp n with
      | .skip => renameAll cfg stamp ns (d, st)
      | .to m => renameAll cfg stamp ns (rename d n m, if st = Status.notRotated then Status.rotated else st)
      | .overflow => none) = _
    by_cases hz : n = []
    · subst hz
      rw [newName_base, hd]
      exact renameAll_dated_skip hd ns _ hc.1
    · have : newName cfg stamp n = .skip := by
        unfold newName
        rw [if_neg hz, hd]
        rfl
      rw [this]
      exact ih d st hc.2 (by
        rcases List.mem_cons.1 h with h | h
        · exact absurd h.symm hz
        · exact h)

theorem dated_append {d : Dir} {olds : List (Text × List Item)} {c : List Item} (h : HoldsDated d olds c) (es : List Item) : HoldsDated (append d es) olds (c ++ es) := by
  refine ⟨?_, h.2⟩
  have := append_perm h.1 es
  refine this.trans (.of_eq ?_)
  unfold append
  simp only [List.map_cons, List.map_map, if_true]
  congr 1

theorem dated_content {d : Dir} {olds : List (Text × List Item)} {c : List Item} (h : HoldsDated d olds c) : [] ∈ names d ∧ (names d).Nodup := by
  refine ⟨mem_names.2 ⟨([], c), h.1.mem_iff.2 (by simp), rfl⟩, (h.1.map (fun f : File => f.1)).nodup_iff.2 ?_⟩
  rw [List.map_cons, List.map_map, List.nodup_cons]
  refine ⟨?_, ?_⟩
  · intro hm
    obtain ⟨o, _, ho⟩ := List.mem_map.1 hm
    simp at ho
  · unfold List.Nodup
    rw [List.pairwise_map]
    have := h.2
    rw [List.pairwise_map] at this
    refine this.imp ?_
    intro a b hlt he
    simp only [Function.comp, List.cons.injEq, true_and] at he
    rw [he] at hlt
    exact List.lt_irrefl _ hlt

theorem dated_rotate {cfg : Cfg} {stamp : Text} (hd : cfg.date = true) (h0 : cfg.maxCount = 0) {d d' : Dir} {st : Status} {olds : List (Text × List Item)} {c : List Item}
    (h : HoldsDated d olds c) (hr : rotateIfNeeded cfg stamp d = some (d', st)) :
    (st = .notRotated ∧ d' = d) ∨ (st = .rotated ∧ ((∀ o ∈ olds, o.1 < stamp) → HoldsDated d' (olds ++ [(stamp, c ++ cfg.pre.map .tags)]) (cfg.post.map .tags))) := by
  unfold rotateIfNeeded at hr
  split at hr
  · injection hr with hr; injection hr with h1 h2; exact .inl ⟨h2.symm, h1.symm⟩
  split at hr
  · injection hr with hr; injection hr with h1 h2; exact .inl ⟨h2.symm, h1.symm⟩
  split at hr
  · right
    have ha := dated_append h (cfg.pre.map .tags)
    obtain ⟨hb, hn⟩ := dated_content ha
    have hlog : rotateLog cfg stamp (append d (cfg.pre.map .tags)) = some (rename (append d (cfg.pre.map .tags)) [] ('.' :: stamp), .rotated) := by
      unfold rotateLog
      rw [if_neg (by omega)]
      exact renameAll_dated hd _ _ _ ((descending_perm _).nodup_iff.2 hn) ((descending_perm _).mem_iff.2 hb)
    rw [hlog] at hr
    dsimp only at hr
    injection hr with hr
    injection hr with h1 h2
    refine ⟨h2.symm, fun hlt => ?_⟩
    subst h1
    have hp : (rename (append d (cfg.pre.map .tags)) [] ('.' :: stamp)).Perm (('.' :: stamp, c ++ cfg.pre.map .tags) :: olds.map (fun o => ('.' :: o.1, o.2))) := by
      refine (rename_perm ha.1 _ _).trans (.of_eq ?_)
      unfold rename
      rw [List.filter_cons, if_pos (by simp)]
      have e : List.filter (fun f : File => f.1 != '.' :: stamp) (olds.map (fun o => ('.' :: o.1, o.2))) = olds.map (fun o => ('.' :: o.1, o.2)) := by
        rw [List.filter_eq_self]
        intro f hf
        obtain ⟨o, ho, rfl⟩ := List.mem_map.1 hf
        rw [bne_iff_ne]
        intro he
        simp only [List.cons.injEq, true_and] at he
        have := hlt o ho
        rw [he] at this
        exact List.lt_irrefl _ this
      rw [e]
      simp
    have hno : [] ∉ names (rename (append d (cfg.pre.map .tags)) [] ('.' :: stamp)) := by
      intro hm
      exact (rename_base (by simp) hm).2 rfl
    rw [openBase_new hno]
    refine ⟨?_, ?_⟩
    · have hq : (([], []) :: rename (append d (cfg.pre.map .tags)) [] ('.' :: stamp)).Perm (([], []) :: (olds ++ [(stamp, c ++ cfg.pre.map Item.tags)]).map (fun o : Text × List Item => (('.' :: o.1, o.2) : File))) := by
        refine List.Perm.cons _ (hp.trans ?_)
        rw [List.map_append]
        exact (List.perm_append_singleton _ _).symm
      refine (append_perm hq (cfg.post.map .tags)).trans (.of_eq ?_)
      unfold append
      simp only [List.map_cons, List.map_append, List.map_map, if_true, List.nil_append]
      rfl
    · rw [List.map_append]
      refine List.pairwise_append.2 ⟨h.2, by simp, fun a ha b hb => ?_⟩
      obtain ⟨o, ho, rfl⟩ := List.mem_map.1 ha
      simp only [List.map_cons, List.map_nil, List.mem_singleton] at hb
      rw [hb]
      exact hlt o ho
  · injection hr with hr; injection hr with h1 h2; exact .inl ⟨h2.symm, h1.symm⟩

/-- C179, partial: with dates as suffixes and no limit for the number of files nothing is lost, if the dates of the rotations are different and in the right order.
Missing: see `C179_dated_violated` and `C179_second_violated`. -/
theorem C179_dated_partial {cfg : Cfg} (hd : cfg.date = true) (h0 : cfg.maxCount = 0) {d d' : Dir} {olds : List (Text × List Item)} {c : List Item} {ops : List Op} {sts : List Status}
    (h : HoldsDated d olds c) (hr : run cfg d ops = some (d', sts)) (ht : (olds.map (·.1) ++ rotatedAt ops sts).Pairwise (fun a b => a < b)) :
    ∃ olds' c', HoldsDated d' olds' c' ∧ datedChronicle olds' c' = datedChronicle olds c ++ entries ops := by
  induction ops generalizing d olds c sts with
  | nil =>
    unfold run at hr
    injection hr with hr
    injection hr with h1 _
    subst h1
    exact ⟨olds, c, h, by simp [entries]⟩
  | cons o os ih =>
    have he : run cfg d (o :: os) = (match step cfg d o with
      | some (d', st) => match run cfg d' os with
        | some (d'', sts) => some (d'', st :: sts)
        | none => none
      | none => none) := rfl
    rw [he] at hr
    cases hs1 : step cfg d o with
    | none => rw [hs1] at hr; cases hr
    | some r =>
      obtain ⟨d1, st⟩ := r
      rw [hs1] at hr
      dsimp only at hr
      cases hr1 : run cfg d1 os with
      | none => rw [hr1] at hr; cases hr
      | some r2 =>
        obtain ⟨d2, sts2⟩ := r2
        rw [hr1] at hr
        dsimp only at hr
        injection hr with hr
        injection hr with h1 h2
        subst h1 h2
        -- after the rotation
        have key : ∀ q : Dir, rotateIfNeeded cfg o.stamp d = some (q, st) →
            ∃ olds1 c1, HoldsDated q olds1 c1 ∧ datedChronicle olds1 c1 = datedChronicle olds c ∧ (olds1.map (·.1) ++ rotatedAt os sts2).Pairwise (fun a b => a < b) := by
          intro q hq
          have hat : rotatedAt (o :: os) (st :: sts2) = (if st = .notRotated then [] else [o.stamp]) ++ rotatedAt os sts2 := rfl
          rw [hat] at ht
          rcases dated_rotate hd h0 h hq with ⟨hst, hqd⟩ | ⟨hst, hrot⟩
          · subst hqd
            rw [hst, if_pos rfl, List.nil_append] at ht
            exact ⟨olds, c, h, rfl, ht⟩
          · rw [hst, if_neg (by decide)] at ht
            have hlt : ∀ x ∈ olds, x.1 < o.stamp := fun x hx =>
              (List.pairwise_append.1 ht).2.2 x.1 (List.mem_map.2 ⟨x, hx, rfl⟩) o.stamp (by simp)
            refine ⟨_, _, hrot hlt, ?_, ?_⟩
            · unfold datedChronicle
              rw [logged_tags, List.append_nil, List.map_append, List.flatten_append]
              simp [logged_append, logged_tags]
            · rw [List.map_append, List.append_assoc]
              exact ht
        cases o with
        | write stamp e =>
          have hw : write cfg d stamp e = some (d1, st) := hs1
          unfold write at hw
          cases hq : rotateIfNeeded cfg stamp d with
          | none => rw [hq] at hw; cases hw
          | some q =>
            rw [hq] at hw
            dsimp only at hw
            injection hw with hw
            injection hw with hw1 hw2
            subst hw1
            obtain ⟨olds1, c1, ha, hb, hc⟩ := key q.1 (by show rotateIfNeeded cfg stamp d = _; rw [hq, ← hw2])
            obtain ⟨olds2, c2, he1, he2⟩ := ih (dated_append ha [.entry e]) hr1 hc
            refine ⟨olds2, c2, he1, ?_⟩
            rw [he2, ← hb, entries_cons (.write stamp e) os]
            unfold datedChronicle
            rw [logged_append]
            simp [entries, logged]
        | restart stamp =>
          have hw : start cfg d stamp = some (d1, st) := hs1
          unfold start at hw
          rw [openBase_old (dated_content h).1] at hw
          cases hq : rotateIfNeeded cfg stamp d with
          | none => rw [hq] at hw; cases hw
          | some q =>
            rw [hq] at hw
            dsimp only at hw
            injection hw with hw
            injection hw with hw1 hw2
            obtain ⟨olds1, c1, ha, hb, hc⟩ := key q.1 (by show rotateIfNeeded cfg stamp d = _; rw [hq, ← hw2])
            have hent : entries (Op.restart stamp :: os) = entries os := rfl
            by_cases hz : size (content q.1 []) = 0
            · rw [if_pos hz] at hw1
              subst hw1
              obtain ⟨olds2, c2, he1, he2⟩ := ih (dated_append ha (cfg.post.map .tags)) hr1 hc
              refine ⟨olds2, c2, he1, ?_⟩
              rw [he2, ← hb, hent]
              unfold datedChronicle
              rw [logged_append, logged_tags, List.append_nil]
            · rw [if_neg hz] at hw1
              subst hw1
              obtain ⟨olds2, c2, he1, he2⟩ := ih ha hr1 hc
              exact ⟨olds2, c2, he1, by rw [he2, ← hb, hent]⟩
        | close =>
          have hw : some (append d (cfg.pre.map .tags), Status.notRotated) = some (d1, st) := hs1
          injection hw with hw
          injection hw with hw1 hw2
          subst hw1
          have hat : rotatedAt (Op.close :: os) (st :: sts2) = (if st = .notRotated then [] else [Op.close.stamp]) ++ rotatedAt os sts2 := rfl
          rw [hat, if_pos hw2.symm, List.nil_append] at ht
          obtain ⟨olds2, c2, he1, he2⟩ := ih (dated_append h (cfg.pre.map .tags)) hr1 ht
          refine ⟨olds2, c2, he1, ?_⟩
          have hent : entries (Op.close :: os) = entries os := rfl
          rw [he2, hent]
          unfold datedChronicle
          rw [logged_append, logged_tags, List.append_nil]

example : HoldsDated [([], [])] [] [] ∧ ∃ d, run (datedCfg 1 0) [([], [])] fourDays = some (d, [.notRotated, .rotated, .rotated, .rotated]) ∧
    ((([] : List (Text × List Item)).map (·.1)) ++ rotatedAt fourDays [.notRotated, .rotated, .rotated, .rotated]).Pairwise (fun a b => a < b) := by
  refine ⟨⟨.refl _, .nil⟩, _, rfl, by decide +kernel⟩

end Verif.Log
