import Verif.DeviceModel.Text
/-! Which logs a charging station writes: `ChargePoint::configure_message_logging_format` (`lib/ocpp/v2/charge_point.cpp` l.260-308), the constructor of `ChargePointImpl`
(`lib/ocpp/v16/charge_point_impl.cpp` l.67-98) and `MessageLogging` (`lib/ocpp/common/ocpp_logging.cpp` l.30-147, l.315-486). -/

namespace Verif.Log.Formats

open Verif.DM (Str Piece)

/-- Where something is written to. `short` is the type of a message on the console, `detailed` its text. -/
inductive Place
  | callback
  | short
  | detailed
  | text
  | html
  | rawText
  | rawHtml
  | security
  deriving DecidableEq, Repr

/-! ## Model -/

/-- The arguments of the constructors of `MessageLogging` (ocpp_logging.cpp l.30-74) that choose the logs; whether `message_callback` is set. -/
structure Setup where
  logMessages : Bool
  console : Bool
  detailed : Bool
  file : Bool
  html : Bool
  raw : Bool
  security : Bool
  callback : Bool
  deriving DecidableEq, Repr

/-- The files that `MessageLogging::initialize` opens (l.76-147), in this order. Simplified: all of them can be opened. -/
def opened (s : Setup) : List Place :=
  if s.logMessages then
    (if s.file then (if s.raw then [.rawText] else []) ++ [.text] else []) ++
      (if s.html then (if s.raw then [.rawHtml] else []) ++ [.html] else []) ++ (if s.security then [.security] else [])
  else []

/-- Writing to a stream: nothing happens if its file was not opened. -/
def writeTo (s : Setup) (p : Place) : List Place := if p ∈ opened s then [p] else []

/-- `MessageLogging::log_output` (l.408-486) for a message of the charging station or of the CSMS. -/
def output (s : Setup) (raw : Bool) : List Place :=
  if s.logMessages then
    (if s.detailed then [.detailed] else if s.console then [.short] else []) ++
      (if s.file then writeTo s (if raw && s.raw then .rawText else .text) else []) ++
      (if s.html then writeTo s (if raw && s.raw then .rawHtml else .html) else [])
  else []

/-- `MessageLogging::charge_point` and `central_system` (l.315-341). The logs of sessions are not modelled here. -/
def message (s : Setup) : List Place := (if s.callback then [.callback] else []) ++ output s false

/-- `MessageLogging::raw` (l.363-373). -/
def rawMessage (s : Setup) : List Place := if s.raw then output s true else []

/-- `MessageLogging::security` (l.353-361). -/
def securityEvent (s : Setup) : List Place := writeTo s .security

/-- `find(needle) != std::string::npos`. -/
def finds (needle : Str) : Str → Bool
  | [] => needle.isPrefixOf []
  | c :: r => needle.isPrefixOf (c :: r) || finds needle r

/-- The logger of a station for OCPP 2.x (charge_point.cpp l.260-308): the text of LogMessagesFormat, the value of LogMessagesRaw, and whether the user of the library has
given a callback for messages. -/
def setup2 (v : Str) (raw : Option Bool) (cb : Bool) : Setup where
  logMessages := !v.isEmpty
  console := finds "console".toList v
  detailed := finds "console_detailed".toList v
  file := finds "log".toList v
  html := finds "html".toList v
  raw := raw.getD false
  security := finds "security".toList v
  callback := finds "callback".toList v && cb

/-- The logger of a station for OCPP 1.6 (charge_point_impl.cpp l.67-98): LogMessages, LogMessagesFormat, LogMessagesRaw. The callback is null. -/
def setup16 (on : Bool) (fs : List Str) (raw : Bool) : Setup where
  logMessages := on
  console := fs.contains "console".toList
  detailed := fs.contains "console_detailed".toList
  file := fs.contains "log".toList
  html := fs.contains "html".toList
  raw := raw
  security := fs.contains "security".toList
  callback := false

/-! ## Specification -/

/-- The places where messages are to be written if `named` are the formats that the setting names and `cb` says whether there is a callback. -/
def Wanted (named : Str → Prop) (cb : Bool) : Place → Prop
  | .callback => named "callback".toList ∧ cb = true
  | .short => named "console".toList ∧ ¬ named "console_detailed".toList
  | .detailed => named "console_detailed".toList
  | .text => named "log".toList
  | .html => named "html".toList
  | _ => False

/-- The files that raw messages are to be written to. -/
def WantedRaw (named : Str → Prop) (raw : Bool) : Place → Prop
  | .rawText => named "log".toList ∧ raw = true
  | .rawHtml => named "html".toList ∧ raw = true
  | _ => False

def IsFile (p : Place) : Prop := p ≠ .callback ∧ p ≠ .short ∧ p ≠ .detailed

/-- What the setting asks for: messages go once to each place that is named, raw messages to the files for them, security events to their file, and the files that are
there are those that something is written to. -/
def Follows (s : Setup) (on : Prop) (named : Str → Prop) (raw cb : Bool) : Prop :=
  ((message s).Nodup ∧ ∀ p, p ∈ message s ↔ on ∧ Wanted named cb p) ∧
  ((rawMessage s).Nodup ∧ ∀ p, IsFile p → (p ∈ rawMessage s ↔ on ∧ WantedRaw named raw p)) ∧
  ((securityEvent s = [.security] ∧ on ∧ named "security".toList) ∨ (securityEvent s = [] ∧ ¬ (on ∧ named "security".toList))) ∧
  ∀ p, p ∈ opened s ↔ IsFile p ∧ (p ∈ message s ∨ p ∈ rawMessage s ∨ p ∈ securityEvent s)

/-- The formats of a station for OCPP 2.x, apart from the one for logs of sessions. -/
def formats2 : List Str :=
  ["log".toList, "html".toList, "console".toList, "console_detailed".toList, "security".toList, "callback".toList]

/-! ## Lemmas -/

theorem isPrefixOf_iff (a b : Str) : a.isPrefixOf b = true ↔ ∃ q, b = a ++ q := by
  rw [List.isPrefixOf_iff_prefix]
  exact ⟨fun ⟨q, h⟩ => ⟨q, h.symm⟩, fun ⟨q, h⟩ => ⟨q, h.symm⟩⟩

theorem finds_iff (w v : Str) : finds w v = true ↔ ∃ p q, v = p ++ w ++ q := by
  induction v with
  | nil =>
    show w.isPrefixOf [] = true ↔ _
    rw [isPrefixOf_iff]
    constructor
    · rintro ⟨q, h⟩
      exact ⟨[], q, by simpa using h⟩
    · rintro ⟨p, q, h⟩
      have h' := h.symm
      simp only [List.append_eq_nil_iff] at h'
      exact ⟨[], by simp [h'.1.2]⟩
  | cons c r ih =>
    show (w.isPrefixOf (c :: r) || finds w r) = true ↔ _
    rw [Bool.or_eq_true, isPrefixOf_iff, ih]
    constructor
    · rintro (⟨q, h⟩ | ⟨p, q, h⟩)
      · exact ⟨[], q, by simpa using h⟩
      · exact ⟨c :: p, q, by simp [h]⟩
    · rintro ⟨p, q, h⟩
      cases p with
      | nil => exact .inl ⟨q, by simpa using h⟩
      | cons d p =>
        simp only [List.cons_append, List.cons.injEq] at h
        exact .inr ⟨p, q, h.2⟩

/-- The end of a text after its last comma. -/
theorem lastPart (s : Str) : ∃ p a, s = p ++ a ∧ ',' ∉ a ∧ (p = [] ∨ ∃ p', p = p' ++ [',']) := by
  induction s with
  | nil => exact ⟨[], [], rfl, by simp, .inl rfl⟩
  | cons c r ih =>
    obtain ⟨p, a, h, ha, hp⟩ := ih
    rcases hp with rfl | ⟨p', rfl⟩
    · by_cases hc : c = ','
      · exact ⟨[','], a, by simp [h, hc], ha, .inr ⟨[], rfl⟩⟩
      · exact ⟨[], c :: a, by simp [h], by
          simp only [List.mem_cons, not_or]
          exact ⟨fun e => hc e.symm, ha⟩, .inl rfl⟩
    · exact ⟨c :: (p' ++ [',']), a, by simp [h], ha, .inr ⟨c :: p', by simp⟩⟩

/-- The beginning of a text up to its first comma. -/
theorem firstPart (s : Str) : ∃ a q, s = a ++ q ∧ ',' ∉ a ∧ (q = [] ∨ ∃ q', q = ',' :: q') := by
  induction s with
  | nil => exact ⟨[], [], rfl, by simp, .inl rfl⟩
  | cons c r ih =>
    by_cases hc : c = ','
    · exact ⟨[], c :: r, rfl, by simp, .inr ⟨r, by rw [hc]⟩⟩
    · obtain ⟨a, q, h, ha, hq⟩ := ih
      exact ⟨c :: a, q, by simp [h], by
        simp only [List.mem_cons, not_or]
        exact ⟨fun e => hc e.symm, ha⟩, hq⟩

/-- A text without a comma is found exactly in the pieces. -/
theorem finds_pieces (w v : Str) (hw : w ≠ []) (hc : ',' ∉ w) : finds w v = true ↔ ∃ x, Piece x v ∧ finds w x = true := by
  constructor
  · intro h
    obtain ⟨p, q, rfl⟩ := (finds_iff w v).1 h
    obtain ⟨p₁, a, rfl, ha, hp⟩ := lastPart p
    obtain ⟨b, q₁, rfl, hb, hq⟩ := firstPart q
    refine ⟨a ++ w ++ b, ⟨p₁, q₁, by simp, ?_, hp, ?_⟩, (finds_iff _ _).2 ⟨a, b, rfl⟩⟩
    · simp only [List.mem_append, not_or]
      exact ⟨⟨ha, hc⟩, hb⟩
    · rcases hq with rfl | hq
      · exact .inl ⟨rfl, by simp [hw]⟩
      · exact .inr hq
  · rintro ⟨x, ⟨pre, post, rfl, -⟩, h⟩
    obtain ⟨p, q, rfl⟩ := (finds_iff w x).1 h
    exact (finds_iff _ _).2 ⟨pre ++ p, q ++ post, by simp⟩

theorem finds_named (w v : Str) (hw : w ≠ []) (hc : ',' ∉ w) (hf : ∀ x, Piece x v → x ∈ formats2) (hx : ∀ x ∈ formats2, finds w x = true ↔ x = w) :
    finds w v = true ↔ Piece w v := by
  rw [finds_pieces w v hw hc]
  constructor
  · rintro ⟨x, h, h'⟩
    rw [← (hx x (hf x h)).1 h']
    exact h
  · exact fun h => ⟨w, h, (hx w (hf w h)).2 rfl⟩

theorem finds_console (v : Str) (hf : ∀ x, Piece x v → x ∈ formats2) :
    finds "console".toList v = true ↔ Piece "console".toList v ∨ Piece "console_detailed".toList v := by
  rw [finds_pieces _ v (by decide) (by decide)]
  have hx : ∀ x ∈ formats2, finds "console".toList x = true ↔ x = "console".toList ∨ x = "console_detailed".toList := by decide
  constructor
  · rintro ⟨x, h, h'⟩
    rcases (hx x (hf x h)).1 h' with rfl | rfl
    · exact .inl h
    · exact .inr h
  · rintro (h | h)
    · exact ⟨_, h, by decide⟩
    · exact ⟨_, h, by decide⟩

/-- What is written, in terms of the arguments. -/
def Written (s : Setup) : Prop :=
    ((message s).Nodup ∧ (rawMessage s).Nodup) ∧
    ((Place.callback ∈ message s ↔ s.callback = true) ∧ (Place.short ∈ message s ↔ s.logMessages = true ∧ s.console = true ∧ ¬ s.detailed = true) ∧ (Place.detailed ∈ message s ↔ s.logMessages = true ∧ s.detailed = true) ∧
      (Place.text ∈ message s ↔ s.logMessages = true ∧ s.file = true) ∧ (Place.html ∈ message s ↔ s.logMessages = true ∧ s.html = true) ∧ Place.rawText ∉ message s ∧ Place.rawHtml ∉ message s ∧ Place.security ∉ message s) ∧
    (Place.text ∉ rawMessage s ∧ Place.html ∉ rawMessage s ∧ Place.security ∉ rawMessage s ∧ (Place.rawText ∈ rawMessage s ↔ s.logMessages = true ∧ s.file = true ∧ s.raw = true) ∧
      (Place.rawHtml ∈ rawMessage s ↔ s.logMessages = true ∧ s.html = true ∧ s.raw = true)) ∧
    (securityEvent s = if s.logMessages && s.security then [.security] else []) ∧
    (Place.callback ∉ opened s ∧ Place.short ∉ opened s ∧ Place.detailed ∉ opened s ∧ (Place.text ∈ opened s ↔ s.logMessages = true ∧ s.file = true) ∧ (Place.html ∈ opened s ↔ s.logMessages = true ∧ s.html = true) ∧
      (Place.rawText ∈ opened s ↔ s.logMessages = true ∧ s.file = true ∧ s.raw = true) ∧ (Place.rawHtml ∈ opened s ↔ s.logMessages = true ∧ s.html = true ∧ s.raw = true) ∧ (Place.security ∈ opened s ↔ s.logMessages = true ∧ s.security = true))

set_option synthInstance.maxSize 2000 in
set_option synthInstance.maxHeartbeats 400000 in
instance (s : Setup) : Decidable (Written s) := by
  unfold Written
  infer_instance

theorem places : ∀ l c d f h r se k : Bool, Written ⟨l, c, d, f, h, r, se, k⟩ := by
  decide +kernel

/-- A logger whose arguments are those the setting names. -/
theorem follows (s : Setup) (on : Prop) (named : Str → Prop) (raw cb : Bool) (h0 : s.logMessages = true ↔ on) (h1 : s.detailed = true ↔ named "console_detailed".toList)
    (h2 : s.detailed = true ∨ (s.console = true ↔ named "console".toList))
    (h3 : s.file = true ↔ named "log".toList) (h4 : s.html = true ↔ named "html".toList) (h5 : s.raw = raw) (h6 : s.security = true ↔ named "security".toList)
    (h7 : s.callback = true ↔ on ∧ named "callback".toList ∧ cb = true) : Follows s on named raw cb := by
  obtain ⟨l, c, d, f, h, r, se, k⟩ := s
  dsimp only at h0 h1 h2 h3 h4 h5 h6 h7
  subst h5
  obtain ⟨⟨n1, n2⟩, ⟨m1, m2, m3, m4, m5, m6, m7, m8⟩, ⟨r1, r2, r3, r4, r5⟩, se1, ⟨o1, o2, o3, o4, o5, o6, o7, o8⟩⟩ := places l c d f h r se k
  refine ⟨⟨n1, fun p => ?_⟩, ⟨n2, fun p hp => ?_⟩, ?_, fun p => ?_⟩
  · cases p <;> unfold Wanted
    · rw [m1, h7]
    · rw [m2, h0, ← h1]
      rcases h2 with h2 | h2
      · simp [h2]
      · rw [h2]
    · rw [m3, h0, h1]
    · rw [m4, h0, h3]
    · rw [m5, h0, h4]
    · simp [m6]
    · simp [m7]
    · simp [m8]
  · obtain ⟨p1, p2, p3⟩ := hp
    cases p <;> unfold WantedRaw
    · exact absurd rfl p1
    · exact absurd rfl p2
    · exact absurd rfl p3
    · simp [r1]
    · simp [r2]
    · rw [r4, h0, h3]
    · rw [r5, h0, h4]
    · simp [r3]
  · rw [se1, ← h0, ← h6]
    cases l <;> cases se <;> simp
  · rw [se1]
    cases p <;> simp only [o1, o2, o3, o4, o5, o6, o7, o8, m1, m2, m3, m4, m5, m6, m7, m8, r1, r2, r3, r4, r5, IsFile]
    all_goals (cases l <;> cases se <;> simp)

/-! ## Theorems -/

/-- OCPP 1.6: the logs are those that LogMessages, LogMessagesFormat and LogMessagesRaw ask for. There is no callback for messages. -/
theorem C258_16 (on : Bool) (fs : List Str) (raw : Bool) : Follows (setup16 on fs raw) (on = true) (· ∈ fs) raw false := by
  apply follows
  · exact Iff.rfl
  · simp [setup16]
  · exact .inr (by simp [setup16])
  · simp [setup16]
  · simp [setup16]
  · rfl
  · simp [setup16]
  · simp [setup16]

/-- OCPP 2.x: the logs are those that LogMessagesFormat and LogMessagesRaw ask for, if everything between the commas of LogMessagesFormat is a format, but not the one for logs
of sessions. Missing: that format (`C258_violated`) and texts that are no formats. -/
theorem C258_2_partial (v : Str) (raw : Option Bool) (cb : Bool) (hf : ∀ x, Piece x v → x ∈ formats2) :
    Follows (setup2 v raw cb) (v ≠ []) (Piece · v) (raw.getD false) cb := by
  have hd := finds_named "console_detailed".toList v (by decide) (by decide) hf (by decide)
  apply follows
  · cases v <;> simp [setup2]
  · exact hd
  · show finds "console_detailed".toList v = true ∨ (finds "console".toList v = true ↔ _)
    rw [finds_console v hf, hd]
    by_cases h : Piece "console_detailed".toList v
    · exact .inl h
    · exact .inr ⟨fun h' => h'.resolve_right h, .inl⟩
  · exact finds_named _ v (by decide) (by decide) hf (by decide)
  · exact finds_named _ v (by decide) (by decide) hf (by decide)
  · rfl
  · exact finds_named _ v (by decide) (by decide) hf (by decide)
  · show (finds "callback".toList v && cb) = true ↔ _
    rw [Bool.and_eq_true, finds_named _ v (by decide) (by decide) hf (by decide)]
    constructor
    · rintro ⟨h, h'⟩
      refine ⟨?_, h, h'⟩
      rintro rfl
      obtain ⟨pre, post, e, -⟩ := h
      have := e.symm
      simp only [List.append_eq_nil_iff] at this
      exact absurd this.1.2 (by decide)
    · rintro ⟨-, h, h'⟩
      exact ⟨h, h'⟩

/-- A list of formats as in the configuration that the library comes with. -/
theorem usual_pieces (x : Str) (h : Piece x "log,html,security".toList) : x ∈ ["log".toList, "html".toList, "security".toList] :=
  (Verif.DM.mem_split x _).2 h

example : (∀ x, Piece x "log,html,security".toList → x ∈ formats2) ∧ message (setup2 "log,html,security".toList (some true) true) = [.text, .html] ∧
    opened (setup2 "log,html,security".toList (some true) true) = [.rawText, .text, .rawHtml, .html, .security] :=
  ⟨fun x h => (by decide : ∀ x ∈ ["log".toList, "html".toList, "security".toList], x ∈ formats2) x (usual_pieces x h), by decide +kernel, by decide +kernel⟩

example : message (setup16 true ["console".toList, "log".toList] false) = [.short, .text] := by decide +kernel

/-- OCPP 2.x, in contrast to 1.6: with logs of sessions only, all messages are also written to a log in text, which the setting does not name. -/
theorem C258_violated :
    ¬ Piece "log".toList "session_logging".toList ∧ .text ∈ opened (setup2 "session_logging".toList none false) ∧
    .text ∈ message (setup2 "session_logging".toList none false) ∧ .text ∉ message (setup16 true ["session_logging".toList] false) := by
  refine ⟨fun h => ?_, by decide +kernel, by decide +kernel, by decide +kernel⟩
  exact absurd ((Verif.DM.mem_split _ _).2 h) (by decide +kernel)

end Verif.Log.Formats
