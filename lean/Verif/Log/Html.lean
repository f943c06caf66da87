import Verif.Log.Sessions
/-! C183: the HTML log shows messages as they are. -/

namespace Verif.Log

open Verif.Conf16 (Text bytes)

/-- What is displayed of a text in HTML: no tags (`true` inside of one), and the three characters that have to be written as entities. -/
def displayed : Bool → Text → Text
  | _, [] => []
  | true, c :: r => if c = '>' then displayed false r else displayed true r
  | false, '&' :: 'l' :: 't' :: ';' :: r => '<' :: displayed false r
  | false, '&' :: 'g' :: 't' :: ';' :: r => '>' :: displayed false r
  | false, '&' :: 'a' :: 'm' :: 'p' :: ';' :: r => '&' :: displayed false r
  | false, c :: r => if c = '<' then displayed true r else c :: displayed false r

/-- What is displayed of a text without `&`, and whether it ends inside of a tag. -/
def scan : Bool → Text → Text × Bool
  | b, [] => ([], b)
  | true, c :: r => if c = '>' then scan false r else scan true r
  | false, c :: r => if c = '<' then scan true r else (c :: (scan false r).1, (scan false r).2)

theorem displayed_plain {c : Char} (r : Text) (h : c ≠ '&') (h2 : c ≠ '<') : displayed false (c :: r) = c :: displayed false r := by
  rw [displayed.eq_6]
  · rw [if_neg h2]
  · intro r' he; exact absurd he h
  · intro r' he; exact absurd he h
  · intro r' he; exact absurd he h

theorem displayed_open (r : Text) : displayed false ('<' :: r) = displayed true r := by
  rw [displayed.eq_6] <;> simp

theorem displayed_tag (c : Char) (r : Text) : displayed true (c :: r) = if c = '>' then displayed false r else displayed true r := by
  rw [displayed.eq_2]

theorem displayed_append : ∀ (a : Text) (b : Bool) (r : Text), '&' ∉ a → displayed b (a ++ r) = (scan b a).1 ++ displayed (scan b a).2 r := by
  intro a
  induction a with
  | nil => intro b r _; cases b <;> rfl
  | cons c a ih =>
    intro b r h
    simp only [List.mem_cons, not_or] at h
    rw [List.cons_append]
    cases b with
    | true =>
      rw [displayed_tag]
      show _ = (if c = '>' then scan false a else scan true a).1 ++ displayed (if c = '>' then scan false a else scan true a).2 r
      split
      · exact ih false r h.2
      · exact ih true r h.2
    | false =>
      show _ = (if c = '<' then scan true a else (c :: (scan false a).1, (scan false a).2)).1 ++ displayed (if c = '<' then scan true a else (c :: (scan false a).1, (scan false a).2)).2 r
      by_cases hc : c = '<'
      · rw [if_pos hc, hc, displayed_open]
        exact ih true r h.2
      · rw [if_neg hc, displayed_plain _ (Ne.symm h.1) hc, ih false r h.2]
        rfl

/-- Characters that are displayed as they are. -/
theorem scan_plain : ∀ (a : Text), '<' ∉ a → scan false a = (a, false) := by
  intro a
  induction a with
  | nil => intro _; rfl
  | cons c a ih =>
    intro h
    simp only [List.mem_cons, not_or] at h
    show (if c = '<' then _ else _) = _
    rw [if_neg (Ne.symm h.1), ih h.2]

theorem encode_cons (c : Char) (t : Text) : encode (c :: t) = (if c = '<' then "&lt;".toList else if c = '>' then "&gt;".toList else [c]) ++ encode t := by
  unfold encode replaceAll
  rw [List.flatMap_cons, List.flatMap_append]
  congr 1
  by_cases h : c = '<'
  · subst h
    decide +kernel
  · rw [if_neg h, if_neg h]
    simp

theorem displayed_lt (r : Text) : displayed false ("&lt;".toList ++ r) = '<' :: displayed false r := by
  show displayed false ('&' :: 'l' :: 't' :: ';' :: r) = _
  rw [displayed.eq_3]

theorem displayed_gt (r : Text) : displayed false ("&gt;".toList ++ r) = '>' :: displayed false r := by
  show displayed false ('&' :: 'g' :: 't' :: ';' :: r) = _
  rw [displayed.eq_4]

theorem displayed_encode : ∀ (t : Text) (r : Text), '&' ∉ t → displayed false (encode t ++ r) = t ++ displayed false r := by
  intro t
  induction t with
  | nil => intro r _; rfl
  | cons c t ih =>
    intro r h
    simp only [List.mem_cons, not_or] at h
    rw [encode_cons, List.append_assoc]
    by_cases h1 : c = '<'
    · rw [if_pos h1, displayed_lt, ih r h.2, h1]; rfl
    · by_cases h2 : c = '>'
      · rw [if_neg h1, if_pos h2, displayed_gt, ih r h.2, h2]; rfl
      · rw [if_neg h1, if_neg h2]
        show displayed false (c :: (encode t ++ r)) = _
        rw [displayed_plain _ (Ne.symm h.1) h1, ih r h.2]
        rfl

/-- What should be displayed of a line: the time, from whom and to whom, the type, and the text. -/
def lineShown (time : Text) (l : Line) : Text :=
  " ".toList ++ time ++ " ".toList ++ origin l.typ ++ ">".toList ++ target l.typ ++ " ".toList ++ l.type ++ " ".toList ++ l.json ++ " \n".toList

theorem displayed_literal {a x : Text} (h : '&' ∉ a) (hs : scan false a = (x, false)) (r : Text) : displayed false (a ++ r) = x ++ displayed false r := by
  rw [displayed_append a false r h, hs]

theorem displayed_text {a : Text} (h : '&' ∉ a) (h2 : '<' ∉ a) (r : Text) : displayed false (a ++ r) = a ++ displayed false r :=
  displayed_literal h (scan_plain a h2) r

theorem displayed_attribute {a : Text} (h : '&' ∉ a) (hs : ∀ c ∈ a, c ≠ '>') (r : Text) : displayed true (a ++ r) = displayed true r := by
  induction a with
  | nil => rfl
  | cons c a ih =>
    simp only [List.mem_cons, not_or] at h
    rw [List.cons_append, displayed_tag, if_neg (hs c (by simp))]
    exact ih h.2 (fun c hc => hs c (List.mem_cons_of_mem _ hc))

/-- C183, partial: the line of a message is displayed as it should be, with every character of the message, if the type has no `<` or `&` and the message has no `&`.
Missing: other types and messages, see `C183_violated`, `C183_raw_violated` and `C183_ampersand_violated`. -/
theorem C183_partial (time : Text) (l : Line) (ht : '<' ∉ time ∧ '&' ∉ time) (hty : '<' ∉ l.type ∧ '&' ∉ l.type) (hj : '&' ∉ l.json) :
    displayed false (row time l) = lineShown time l := by
  have horigin : ∀ t, ('&' ∉ origin t ∧ '<' ∉ origin t) ∧ (∀ c ∈ origin t, c ≠ '>') ∧ '&' ∉ target t ∧ '<' ∉ target t := by
    intro t; cases t <;> decide +kernel
  obtain ⟨⟨ho1, ho2⟩, ho3, ht1, ht2⟩ := horigin l.typ
  have e1 : ∀ r, displayed false ("<tr class=\"".toList ++ r) = displayed true r := fun r => by
    rw [displayed_append _ _ _ (by decide +kernel)]
    rw [show scan false "<tr class=\"".toList = ([], true) by decide +kernel]
    rfl
  have e2 : ∀ r, displayed true ("\"> <td>".toList ++ r) = " ".toList ++ displayed false r := fun r => by
    rw [displayed_append _ _ _ (by decide +kernel), show scan true "\"> <td>".toList = (" ".toList, false) by decide +kernel]
  have e3 : ∀ r, displayed false ("</td> <td>".toList ++ r) = " ".toList ++ displayed false r := fun r =>
    displayed_literal (by decide +kernel) (by decide +kernel) r
  have e4 : ∀ r, displayed false ("</td> <td><b>".toList ++ r) = " ".toList ++ displayed false r := fun r =>
    displayed_literal (by decide +kernel) (by decide +kernel) r
  have e5 : ∀ r, displayed false ("</b></td><td><b>".toList ++ r) = displayed false r := fun r =>
    displayed_literal (x := []) (by decide +kernel) (by decide +kernel) r
  have e6 : ∀ r, displayed false ("</b></td> <td><pre lang=\"json\">".toList ++ r) = " ".toList ++ displayed false r := fun r =>
    displayed_literal (by decide +kernel) (by decide +kernel) r
  have e7 : displayed false "</pre></td> </tr>\n".toList = " \n".toList := by
    have := displayed_literal (a := "</pre></td> </tr>\n".toList) (x := " \n".toList) (by decide +kernel) (by decide +kernel) []
    rw [List.append_nil] at this
    rw [this]
    show _ ++ [] = _
    rw [List.append_nil]
  have htype : ∀ r, displayed false ((if l.typ = .chargePoint ∨ l.typ = .system then l.type else []) ++ ("</b></td><td><b>".toList ++
      ((if l.typ = .centralSystem then l.type else []) ++ r))) = l.type ++ displayed false r := fun r => by
    by_cases h : l.typ = .centralSystem
    · rw [if_neg (by rw [h]; decide), if_pos h, List.nil_append, e5, displayed_text hty.2 hty.1]
    · rw [if_pos (by cases hl : l.typ <;> first | exact absurd hl h | simp), if_neg h, displayed_text hty.2 hty.1, e5, List.nil_append]
  unfold row lineShown
  simp only [List.append_assoc]
  rw [e1, displayed_attribute ho1 ho3, e2, displayed_text ht.2 ht.1, e3, displayed_text ho1 ho2, displayed_gt, displayed_text ht1 ht2, e4, htype, e6, displayed_encode _ _ hj, e7]
  rfl

example : ('<' ∉ "2026-01-01T00:00:00.000Z".toList ∧ '&' ∉ "2026-01-01T00:00:00.000Z".toList) ∧ ('<' ∉ "DataTransfer".toList ∧ '&' ∉ "DataTransfer".toList) ∧
    '&' ∉ "{\"data\": \"<script>alert(1)</script>\"}".toList := by decide +kernel

/-- C183: no text of a message is ever taken for markup. -/
theorem C183_no_markup (t : Text) : '<' ∉ encode t ∧ '>' ∉ encode t := by
  induction t with
  | nil => exact ⟨by simp [encode, replaceAll], by simp [encode, replaceAll]⟩
  | cons c t ih =>
    rw [encode_cons]
    constructor
    · intro h
      rcases List.mem_append.1 h with h | h
      · split at h
        · revert h; decide +kernel
        · split at h
          · revert h; decide +kernel
          · rename_i h1 _; simp only [List.mem_singleton] at h; exact h1 h.symm
      · exact ih.1 h
    · intro h
      rcases List.mem_append.1 h with h | h
      · split at h
        · revert h; decide +kernel
        · split at h
          · revert h; decide +kernel
          · rename_i _ h1; simp only [List.mem_singleton] at h; exact h1 h.symm
      · exact ih.2 h

/-- C183 is violated by the action of a message of the CSMS: it is written as it is, and what it has of tags becomes part of the page. -/
theorem C183_violated : ∃ (m : Msg) (l : Line), m.doc = .call "1".toList "<script>alert(1)</script>".toList ∧
    (history { session := false, raw := false } [.message false "Unknown".toList m]).main.lines = [l] ∧ ∃ a b, row [] l = a ++ "<script>alert(1)</script>".toList ++ b := by
  refine ⟨demoMsg (.call "1".toList "<script>alert(1)</script>".toList), ⟨.centralSystem, "<script>alert(1)</script>".toList, "p".toList⟩, rfl, by decide +kernel, ?_⟩
  exact ⟨"<tr class=\"CentralSystem\"> <td></td> <td>CentralSystem&gt;ChargePoint</td> <td><b></b></td><td><b>".toList, "</b></td> <td><pre lang=\"json\">p</pre></td> </tr>\n".toList,
    by decide +kernel⟩

/-- C183 is violated in the log of raw messages: the whole message is written as it is. -/
theorem C183_raw_violated : ∃ l : Line, (history { session := false, raw := true } [.raw false "<b>".toList]).main.raws = [l] ∧ displayed false (row [] l) ≠ lineShown [] l :=
  ⟨⟨.centralSystem, "<b>".toList, []⟩, by decide +kernel, by decide +kernel⟩

/-- C183 is violated by `&`: two different messages give the same page, and are both displayed as `<`. -/
theorem C183_ampersand_violated : encode "&lt;".toList = encode "<".toList ∧ displayed false (encode "&lt;".toList) = "<".toList := by
  decide +kernel

/-! ## C186: the tags of the file -/

/-- The file begins with the opening tags. -/
def Begins (cfg : Cfg) (c : List Item) : Prop := cfg.post.map Item.tags <+: c

theorem begins_append {cfg : Cfg} {d : Dir} (h : ∀ f ∈ d, Begins cfg f.2) (es : List Item) : ∀ f ∈ append d es, Begins cfg f.2 := by
  intro f hf
  obtain ⟨g, hg, rfl⟩ := List.mem_map.1 hf
  split
  · exact (h g hg).trans (List.prefix_append _ _)
  · exact h g hg

theorem rotateIfNeeded_begins {cfg : Cfg} {stamp : Text} {d d' : Dir} {st : Status} (hb : [] ∈ names d) (h : ∀ f ∈ d, Begins cfg f.2) (hr : rotateIfNeeded cfg stamp d = some (d', st)) :
    [] ∈ names d' ∧ ∀ f ∈ d', Begins cfg f.2 := by
  unfold rotateIfNeeded at hr
  split at hr
  · injection hr with hr; injection hr with h1 _; rw [← h1]; exact ⟨hb, h⟩
  split at hr
  · injection hr with hr; injection hr with h1 _; rw [← h1]; exact ⟨hb, h⟩
  split at hr
  · cases hq : rotateLog cfg stamp (append d (cfg.pre.map .tags)) with
    | none => rw [hq] at hr; cases hr
    | some q =>
      obtain ⟨d2, st2⟩ := q
      rw [hq] at hr
      dsimp only at hr
      injection hr with hr
      injection hr with h1 _
      rw [← h1]
      have hb2 : [] ∈ names (append d (cfg.pre.map .tags)) := by rw [append_names]; exact hb
      obtain ⟨h2, _, _, h4⟩ := rotateLog_any hb2 hq
      refine ⟨by rw [append_names, openBase_new h4]; simp [names], ?_⟩
      rw [openBase_new h4]
      intro f hf
      obtain ⟨g, hg, rfl⟩ := List.mem_map.1 hf
      rcases List.mem_cons.1 hg with rfl | hg
      · rw [if_pos rfl]
        exact List.prefix_refl _
      · rw [if_neg (fun hn => h4 (mem_names.2 ⟨g, hg, hn⟩))]
        obtain ⟨g', hg', he⟩ := h2 g hg
        show Begins cfg g.2
        rw [he]
        exact begins_append h _ g' hg'
  · injection hr with hr; injection hr with h1 _; rw [← h1]; exact ⟨hb, h⟩

/-- C186, partial: whatever is written, and whenever the process ends and starts, all files of a log begin with the opening tags.
Missing: what comes after the closing tags, see `C186_violated`. -/
theorem C186_partial {cfg : Cfg} {d d' : Dir} {ops : List Op} {sts : List Status} (hb : [] ∈ names d) (h : ∀ f ∈ d, Begins cfg f.2) (hr : run cfg d ops = some (d', sts)) :
    ∀ f ∈ d', Begins cfg f.2 := by
  induction ops generalizing d sts with
  | nil => unfold run at hr; injection hr with hr; injection hr with h1 _; rw [← h1]; exact h
  | cons o os ih =>
    have he : run cfg d (o :: os) = (match step cfg d o with
      | some (d', st) => match run cfg d' os with
        | some (d'', sts) => some (d'', st :: sts)
        | none => none
      | none => none) := rfl
    rw [he] at hr
    cases hs1 : step cfg d o with
    | none => rw [hs1] at hr; cases hr
    | some r =>
      obtain ⟨d1, st⟩ := r
      rw [hs1] at hr
      dsimp only at hr
      cases hr1 : run cfg d1 os with
      | none => rw [hr1] at hr; cases hr
      | some r2 =>
        obtain ⟨d2, sts2⟩ := r2
        rw [hr1] at hr
        dsimp only at hr
        injection hr with hr
        injection hr with h1 _
        subst h1
        have hstep : [] ∈ names d1 ∧ ∀ f ∈ d1, Begins cfg f.2 := by
          cases o with
          | write stamp e =>
            have hw : write cfg d stamp e = some (d1, st) := hs1
            unfold write at hw
            cases hq : rotateIfNeeded cfg stamp d with
            | none => rw [hq] at hw; cases hw
            | some q =>
              rw [hq] at hw
              dsimp only at hw
              injection hw with hw
              injection hw with hw1 _
              obtain ⟨h1, h2⟩ := rotateIfNeeded_begins (d' := q.1) (st := q.2) hb h hq
              rw [← hw1, append_names]
              exact ⟨h1, begins_append h2 _⟩
          | restart stamp =>
            have hw : start cfg d stamp = some (d1, st) := hs1
            unfold start at hw
            rw [openBase_old hb] at hw
            cases hq : rotateIfNeeded cfg stamp d with
            | none => rw [hq] at hw; cases hw
            | some q =>
              rw [hq] at hw
              dsimp only at hw
              injection hw with hw
              injection hw with hw1 _
              obtain ⟨h1, h2⟩ := rotateIfNeeded_begins (d' := q.1) (st := q.2) hb h hq
              rw [← hw1]
              split
              · rw [append_names]; exact ⟨h1, begins_append h2 _⟩
              · exact ⟨h1, h2⟩
          | close =>
            have hw : some (append d (cfg.pre.map .tags), Status.notRotated) = some (d1, st) := hs1
            injection hw with hw
            injection hw with hw1 _
            rw [← hw1, append_names]
            exact ⟨hb, begins_append h _⟩
        exact ih hstep.1 hstep.2 hr1

/-- An HTML log. -/
def htmlCfg : Cfg := { rotate := true, date := false, maxSize := 8, maxCount := 3, pre := ["</html>".toList], post := ["<html>".toList] }

/-- C186: so it is for a log that did not exist before. -/
theorem C186_new {cfg : Cfg} {stamp : Text} {d' : Dir} {ops : List Op} {sts : List Status} (hr : run cfg [] (.restart stamp :: ops) = some (d', sts)) :
    ∀ f ∈ d', Begins cfg f.2 := by
  have he : run cfg [] (.restart stamp :: ops) = (match step cfg [] (.restart stamp) with
    | some (d', st) => match run cfg d' ops with
      | some (d'', sts) => some (d'', st :: sts)
      | none => none
    | none => none) := rfl
  have hs : step cfg [] (.restart stamp) = some ([([], cfg.post.map .tags)], .notRotated) := by
    show start cfg [] stamp = _
    unfold start
    have h1 : openBase [] = [([], [])] := rfl
    rw [h1]
    have h2 : rotateIfNeeded cfg stamp [([], [])] = some ([([], [])], .notRotated) := by
      unfold rotateIfNeeded
      split
      · rfl
      split
      · rfl
      rw [if_neg]
      show ¬ cfg.maxSize ≤ 0
      omega
    rw [h2]
    dsimp only
    rw [if_pos (show size (content [([], [])] []) = 0 from rfl)]
    rfl
  rw [he, hs] at hr
  dsimp only at hr
  cases hr1 : run cfg [([], cfg.post.map .tags)] ops with
  | none => rw [hr1] at hr; cases hr
  | some r =>
    obtain ⟨d2, sts2⟩ := r
    rw [hr1] at hr
    dsimp only at hr
    injection hr with hr
    injection hr with h1 _
    subst h1
    refine C186_partial (by simp [names]) ?_ hr1
    intro f hf
    simp only [List.mem_singleton] at hf
    rw [hf]
    exact List.prefix_refl _

example : ∃ d sts, run htmlCfg [] [.restart [], .write [] "a".toList, .write [] "bc".toList, .write [] "d".toList] = some (d, sts) ∧ d.length = 2 := ⟨_, _, rfl, by decide +kernel⟩

/-- C186 is violated when the process ends and starts again: entries follow the closing tags. -/
theorem C186_violated : ∃ sts, run { htmlCfg with maxSize := 100 } [] [.restart [], .close, .restart [], .write [] "a".toList] =
    some ([([], [.tags "<html>".toList, .tags "</html>".toList, .entry "a".toList])], sts) :=
  ⟨[.notRotated, .notRotated, .notRotated, .notRotated], by decide +kernel⟩

end Verif.Log
