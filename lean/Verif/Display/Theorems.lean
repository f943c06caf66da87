import Verif.Display.Model
import Verif.DeviceModel.Text
/-! C192, C193: display messages of OCPP 2.x. -/
set_option linter.unusedSimpArgs false

namespace Verif.Display
open Verif.DM (Str splitString Piece mem_split)

/-! ## The specification -/

/-- The comma separated text `s` names `x`, perhaps with spaces around it. -/
def Names (s x : Str) : Prop := ∃ n m, Piece (List.replicate n ' ' ++ x ++ List.replicate m ' ') s

/-- One of the open transactions has the id `t`, whatever the case of the letters. -/
def Running (ids : List Str) (t : Str) : Prop := ∃ x ∈ ids, x.map Char.toLower = t.map Char.toLower

/-- Display messages are available. -/
def Available (c : Config) : Prop := c.available = some true

/-- The transaction of the message, if it has one, is running. -/
def TransactionOk (ids : List Str) (i : Info) : Prop := ∀ t, i.transaction = some t → Running ids t

/-- The state of the message, if it has one and there is a list of states, is in that list. -/
def StateOk (c : Config) (i : Info) : Prop := ∀ s l, i.state = some s → c.states = some l → Names l s.text

/-- The status says which of the conditions is the first that does not hold. -/
def FirstFailure (c : Config) (ps fs : Str) (ids : List Str) (i : Info) : Status → Prop
  | .accepted => False
  | .rejected => ¬ Available c
  | .notSupportedPriority => Available c ∧ ¬ Names ps i.priority.text
  | .notSupportedMessageFormat => Available c ∧ Names ps i.priority.text ∧ ¬ Names fs i.message.format.text
  | .unknownTransaction => Available c ∧ Names ps i.priority.text ∧ Names fs i.message.format.text ∧ ¬ TransactionOk ids i
  | .notSupportedState => Available c ∧ Names ps i.priority.text ∧ Names fs i.message.format.text ∧ TransactionOk ids i ∧ ¬ StateOk c i

/-- The message of the application says what the one of the management system says, but for the component of the display and the
further texts. -/
structure Says (m : Message) (i : Info) : Prop where
  id : m.id = some i.id
  priority : m.priority = some i.priority
  state : m.state = i.state
  start : m.start = i.start
  stop : m.stop = i.stop
  transaction : m.identifier = i.transaction
  kind : m.identifierType = some .transactionId
  text : m.text = i.message.content
  language : m.language = i.message.language
  format : m.format = some i.message.format
  qr : m.qrCode = none

/-! ## Lemmas -/

theorem dropSpaces_split (t : Str) : ∃ n, t = List.replicate n ' ' ++ dropSpaces t := by
  induction t with
  | nil => exact ⟨0, rfl⟩
  | cons c r ih =>
    by_cases h : c = ' '
    · obtain ⟨n, hn⟩ := ih
      refine ⟨n + 1, ?_⟩
      rw [show dropSpaces (c :: r) = dropSpaces r from by rw [dropSpaces, if_pos h]]
      rw [List.replicate_succ, List.cons_append, ← hn, h]
    · exact ⟨0, by rw [show dropSpaces (c :: r) = c :: r from by rw [dropSpaces, if_neg h]]; rfl⟩

theorem dropSpaces_head {t : Str} {c : Char} {r : Str} (h : dropSpaces t = c :: r) : c ≠ ' ' := by
  induction t with
  | nil => exact absurd h (by simp [dropSpaces])
  | cons d t ih =>
    rw [dropSpaces] at h
    by_cases hd : d = ' '
    · rw [if_pos hd] at h; exact ih h
    · rw [if_neg hd] at h
      injection h with h1 _
      exact h1 ▸ hd

theorem dropSpaces_replicate (n : Nat) {c : Char} (hc : c ≠ ' ') (r : Str) :
    dropSpaces (List.replicate n ' ' ++ c :: r) = c :: r := by
  induction n with
  | zero => show dropSpaces (c :: r) = _; rw [dropSpaces, if_neg hc]
  | succ n ih => rw [List.replicate_succ, List.cons_append, dropSpaces, if_pos rfl, ih]

/-- A name: it begins and ends with something else than a space. -/
def IsName (x : Str) : Prop := (∃ c r, x = c :: r ∧ c ≠ ' ') ∧ ∃ c r, x = r ++ [c] ∧ c ≠ ' '

theorem trim_eq {p x : Str} (hx : IsName x) : trim p = x ↔ ∃ n m, p = List.replicate n ' ' ++ x ++ List.replicate m ' ' := by
  constructor
  · intro h
    unfold trim at h
    by_cases h0 : dropSpaces p = []
    · rw [if_pos h0] at h
      exact ⟨0, 0, by simpa using h⟩
    · rw [if_neg h0] at h
      obtain ⟨n, hn⟩ := dropSpaces_split p
      obtain ⟨m, hm⟩ := dropSpaces_split (dropSpaces p).reverse
      refine ⟨n, m, ?_⟩
      have h2 : dropSpaces p = (dropSpaces (dropSpaces p).reverse).reverse ++ List.replicate m ' ' := by
        have := congrArg List.reverse hm
        rw [List.reverse_reverse, List.reverse_append, List.reverse_replicate] at this
        exact this
      rw [h] at h2
      rw [h2, ← List.append_assoc] at hn
      exact hn
  · rintro ⟨n, m, rfl⟩
    obtain ⟨⟨c, r, hc, hcs⟩, d, q, hd, hds⟩ := hx
    have h1 : dropSpaces (List.replicate n ' ' ++ x ++ List.replicate m ' ') = x ++ List.replicate m ' ' := by
      rw [hc, List.append_assoc, List.cons_append, dropSpaces_replicate n hcs]
    have hne : x ++ List.replicate m ' ' ≠ [] := by rw [hc]; simp
    unfold trim
    rw [h1, if_neg hne, List.reverse_append, List.reverse_replicate]
    have h2 : x.reverse = d :: q.reverse := by rw [hd]; simp
    rw [h2, dropSpaces_replicate m hds, ← h2, List.reverse_reverse]

theorem listed_iff {s x : Str} (hx : IsName x) : listed s x = true ↔ Names s x := by
  unfold listed Names
  rw [List.contains_iff_mem, List.mem_map]
  constructor
  · rintro ⟨p, hp, ht⟩
    obtain ⟨n, m, rfl⟩ := (trim_eq hx).1 ht
    exact ⟨n, m, (mem_split _ _).1 hp⟩
  · rintro ⟨n, m, h⟩
    exact ⟨_, (mem_split _ _).2 h, (trim_eq hx).2 ⟨n, m, rfl⟩⟩

theorem isName_priority (p : Priority) : IsName p.text := by
  cases p
  · exact ⟨⟨'A', "lwaysFront".toList, by decide, by decide⟩, 't', "AlwaysFron".toList, by decide, by decide⟩
  · exact ⟨⟨'I', "nFront".toList, by decide, by decide⟩, 't', "InFron".toList, by decide, by decide⟩
  · exact ⟨⟨'N', "ormalCycle".toList, by decide, by decide⟩, 'e', "NormalCycl".toList, by decide, by decide⟩

theorem isName_format (f : Format) : IsName f.text := by
  cases f
  · exact ⟨⟨'A', "SCII".toList, by decide, by decide⟩, 'I', "ASCI".toList, by decide, by decide⟩
  · exact ⟨⟨'H', "TML".toList, by decide, by decide⟩, 'L', "HTM".toList, by decide, by decide⟩
  · exact ⟨⟨'U', "RI".toList, by decide, by decide⟩, 'I', "UR".toList, by decide, by decide⟩
  · exact ⟨⟨'U', "TF8".toList, by decide, by decide⟩, '8', "UTF".toList, by decide, by decide⟩
  · exact ⟨⟨'Q', "RCODE".toList, by decide, by decide⟩, 'E', "QRCOD".toList, by decide, by decide⟩

theorem isName_state (s : MState) : IsName s.text := by
  cases s
  · exact ⟨⟨'C', "harging".toList, by decide, by decide⟩, 'g', "Chargin".toList, by decide, by decide⟩
  · exact ⟨⟨'F', "aulted".toList, by decide, by decide⟩, 'd', "Faulte".toList, by decide, by decide⟩
  · exact ⟨⟨'I', "dle".toList, by decide, by decide⟩, 'e', "Idl".toList, by decide, by decide⟩
  · exact ⟨⟨'U', "navailable".toList, by decide, by decide⟩, 'e', "Unavailabl".toList, by decide, by decide⟩
  · exact ⟨⟨'S', "uspended".toList, by decide, by decide⟩, 'd', "Suspende".toList, by decide, by decide⟩
  · exact ⟨⟨'D', "ischarging".toList, by decide, by decide⟩, 'g', "Dischargin".toList, by decide, by decide⟩

theorem available_iff (c : Config) : c.available.getD false = true ↔ Available c := by
  unfold Available
  cases c.available with
  | none => simp
  | some b => cases b <;> simp

theorem runningOf_iff (ids : List Str) (t : Str) : runningOf ids t = true ↔ Running ids t := by
  unfold runningOf Running
  simp [List.any_eq_true]

theorem transactionValid_iff (ids : List Str) (i : Info) : transactionValid (runningOf ids) i = true ↔ TransactionOk ids i := by
  unfold transactionValid TransactionOk
  cases i.transaction with
  | none => simp
  | some t => simp [runningOf_iff]

theorem stateSupported_iff (c : Config) (i : Info) : stateSupported c i = true ↔ StateOk c i := by
  unfold stateSupported StateOk
  cases hs : i.state with
  | none => simp
  | some s =>
    cases hl : c.states with
    | none => simp
    | some l =>
      dsimp only
      rw [listed_iff (isName_state s)]
      constructor
      · intro h s' l' h1 h2; cases h1; cases h2; exact h
      · intro h; exact h s l rfl rfl

theorem refusal_iff (c : Config) (ps fs : Str) (ids : List Str) (i : Info) (s : Status) :
    refusal c ps fs (runningOf ids) i = some s ↔ FirstFailure c ps fs ids i s := by
  unfold refusal
  have e1 := available_iff c
  have e2 := listed_iff (s := ps) (isName_priority i.priority)
  have e3 := listed_iff (s := fs) (isName_format i.message.format)
  have e4 := transactionValid_iff ids i
  have e5 := stateSupported_iff c i
  cases h1 : c.available.getD false with
  | false =>
    have n1 : ¬ Available c := fun h => by rw [e1.2 h] at h1; exact absurd h1 (by decide)
    cases s <;> simp [FirstFailure, n1]
  | true =>
    have p1 := e1.1 h1
    cases h2 : listed ps i.priority.text with
    | false =>
      have n2 : ¬ Names ps i.priority.text := fun h => by rw [e2.2 h] at h2; exact absurd h2 (by decide)
      cases s <;> simp [FirstFailure, p1, n2]
    | true =>
      have p2 := e2.1 h2
      cases h3 : listed fs i.message.format.text with
      | false =>
        have n3 : ¬ Names fs i.message.format.text := fun h => by rw [e3.2 h] at h3; exact absurd h3 (by decide)
        cases s <;> simp [FirstFailure, p1, p2, n3]
      | true =>
        have p3 := e3.1 h3
        cases h4 : transactionValid (runningOf ids) i with
        | false =>
          have n4 : ¬ TransactionOk ids i := fun h => by rw [e4.2 h] at h4; exact absurd h4 (by decide)
          cases s <;> simp [FirstFailure, p1, p2, p3, n4]
        | true =>
          have p4 := e4.1 h4
          cases h5 : stateSupported c i with
          | false =>
            have n5 : ¬ StateOk c i := fun h => by rw [e5.2 h] at h5; exact absurd h5 (by decide)
            cases s <;> simp [FirstFailure, p1, p2, p3, p4, n5]
          | true =>
            have p5 := e5.1 h5
            cases s <;> simp [FirstFailure, p1, p2, p3, p4, p5]

theorem refusal_none (c : Config) (ps fs : Str) (ids : List Str) (i : Info) :
    refusal c ps fs (runningOf ids) i = none ↔
      Available c ∧ Names ps i.priority.text ∧ Names fs i.message.format.text ∧ TransactionOk ids i ∧ StateOk c i := by
  constructor
  · intro h
    have hn : ∀ s, ¬ FirstFailure c ps fs ids i s := fun s hs => by
      rw [(refusal_iff c ps fs ids i s).2 hs] at h; exact absurd h (by simp)
    have a1 : Available c := Classical.byContradiction fun hc => hn .rejected hc
    have a2 : Names ps i.priority.text := Classical.byContradiction fun hc => hn .notSupportedPriority ⟨a1, hc⟩
    have a3 : Names fs i.message.format.text := Classical.byContradiction fun hc => hn .notSupportedMessageFormat ⟨a1, a2, hc⟩
    have a4 : TransactionOk ids i := Classical.byContradiction fun hc => hn .unknownTransaction ⟨a1, a2, a3, hc⟩
    have a5 : StateOk c i := Classical.byContradiction fun hc => hn .notSupportedState ⟨a1, a2, a3, a4, hc⟩
    exact ⟨a1, a2, a3, a4, a5⟩
  · rintro ⟨a1, a2, a3, a4, a5⟩
    cases h : refusal c ps fs (runningOf ids) i with
    | none => rfl
    | some s =>
      have := (refusal_iff c ps fs ids i s).1 h
      cases s with
      | accepted => exact absurd this (by simp [FirstFailure])
      | rejected => exact absurd a1 this
      | notSupportedPriority => exact absurd a2 this.2
      | notSupportedMessageFormat => exact absurd a3 this.2.2
      | unknownTransaction => exact absurd a4 this.2.2.2
      | notSupportedState => exact absurd a5 this.2.2.2.2

theorem says_toMessage (i : Info) : Says (toMessage i) i := ⟨rfl, rfl, rfl, rfl, rfl, rfl, rfl, rfl, rfl, rfl, rfl⟩

theorem says_unique {m : Message} {i : Info} (h : Says m i) : m = toMessage i := by
  obtain ⟨h1, h2, h3, h4, h5, h6, h7, h8, h9, h10, h11⟩ := h
  cases m
  simp only at h1 h2 h3 h4 h5 h6 h7 h8 h9 h10 h11
  subst h1 h2 h3 h4 h5 h6 h7 h8 h9 h10 h11
  rfl

/-! ## C192 -/

/-- C192 (partial: the lists of priorities and formats have values): the application is asked to show a message exactly if display messages
are available, its priority and its format are named in the lists of the supported ones, its transaction is running if it has one, and its
state is named in the list of states if it has one and there is such a list; it gets all the message says but for the component of the
display and the further texts, and its answer is the station's.  Otherwise the answer names the first of those conditions that does not
hold.  Missing: the display and the further texts (`C192_dropped_violated`); stations without the lists (`C192_lists_violated`). -/
theorem C192_partial (c : Config) (ps fs : Str) (ids : List Str) (app : Message → Status) (i : Info)
    (hp : c.priorities = some ps) (hf : c.formats = some fs) :
    (∀ m a, setMessage c (runningOf ids) app i = .asked m a ↔
      (Available c ∧ Names ps i.priority.text ∧ Names fs i.message.format.text ∧ TransactionOk ids i ∧ StateOk c i) ∧
        Says m i ∧ a = app m) ∧
    (∀ s, setMessage c (runningOf ids) app i = .answered s ↔ FirstFailure c ps fs ids i s) ∧
    setMessage c (runningOf ids) app i ≠ .threw := by
  have e : setMessage c (runningOf ids) app i = setAnswer app i (refusal c ps fs (runningOf ids) i) := by
    unfold setMessage; rw [hp, hf]
  rw [e]
  have hno := refusal_none c ps fs ids i
  have hiff := refusal_iff c ps fs ids i
  cases h : refusal c ps fs (runningOf ids) i with
  | none =>
    refine ⟨fun m a => ?_, fun s => ?_, by simp [setAnswer]⟩
    · constructor
      · intro hm
        injection hm with h1 h2
        subst h1
        exact ⟨hno.1 h, says_toMessage i, h2.symm⟩
      · rintro ⟨_, hs, ha⟩
        have := says_unique hs
        subst this
        subst ha
        rfl
    · constructor
      · intro hs; exact absurd hs (by simp [setAnswer])
      · intro hs; rw [(hiff s).2 hs] at h; exact absurd h (by simp)
  | some st =>
    refine ⟨fun m a => ?_, fun s => ?_, by simp [setAnswer]⟩
    · constructor
      · intro hm; exact absurd hm (by simp [setAnswer])
      · rintro ⟨hc, _⟩
        rw [hno.2 hc] at h
        exact absurd h (by simp)
    · constructor
      · intro hs
        injection hs with hs
        subst hs
        exact (hiff st).1 h
      · intro hs
        have := (hiff s).2 hs
        rw [h] at this
        injection this with this
        rw [this]
        rfl

/-- An example: a station with spaces in its lists and a list of states. -/
def station : Config :=
  { available := some true
    priorities := some "AlwaysFront, NormalCycle".toList
    formats := some "ASCII , UTF8".toList
    states := some "Charging,Idle".toList }

/-- An example: a message for a transaction. -/
def notice : Info :=
  { id := 5
    priority := .normalCycle
    message := { format := .utf8, content := "Hello".toList, language := some "en".toList }
    state := some .idle
    transaction := some "TX1".toList }

example : setMessage station (runningOf ["tx1".toList]) (fun _ => .accepted) notice = .asked (toMessage notice) .accepted := by
  decide +kernel

example : setMessage station (runningOf []) (fun _ => .accepted) notice = .answered .unknownTransaction ∧
    setMessage station (runningOf ["tx1".toList]) (fun _ => .accepted) { notice with state := some .faulted } = .answered .notSupportedState ∧
    setMessage station (runningOf ["tx1".toList]) (fun _ => .accepted) { notice with priority := .inFront } = .answered .notSupportedPriority := by
  decide +kernel

/-- C192 violated: the application does not learn on which display a message is to be shown, nor its further texts (in other languages):
messages that differ in those alone are the same for it. -/
theorem C192_dropped_violated : ∃ i j : Info, i.display ≠ j.display ∧ i.extra ≠ j.extra ∧
    ∀ c ids app, setMessage c (runningOf ids) app i = setMessage c (runningOf ids) app j :=
  ⟨notice, { notice with display := some "Second".toList, extra := some [{ format := .utf8, content := "Hallo".toList, language := some "de".toList }] },
    by decide, by decide, fun _ _ _ => rfl⟩

/-- C192 violated: a station that offers no display messages, and has no lists of priorities and formats for that reason, does not answer
`Rejected`: the handler throws. -/
theorem C192_lists_violated : ∃ c : Config, ¬ Available c ∧ ∀ ids app i, setMessage c (runningOf ids) app i = .threw :=
  ⟨{ available := some false, priorities := none, formats := none, states := none }, by simp [Available], fun _ _ _ => rfl⟩

/-! ## C193 -/

/-- The texts of the message are not too long for the protocol. -/
def Sendable (m : Message) : Prop :=
  m.text.length ≤ 1024 ∧ (∀ l, m.language = some l → l.length ≤ 8) ∧ ∀ t, m.identifier = some t → t.length ≤ 36

/-- The message of the notification says what the one of the application says; without a format it is UTF-8. -/
structure Reports (i : Info) (m : Message) : Prop where
  id : m.id = some i.id
  priority : m.priority = some i.priority
  state : i.state = m.state
  start : i.start = m.start
  stop : i.stop = m.stop
  transaction : i.transaction = m.identifier
  text : i.message.content = m.text
  language : i.message.language = m.language
  format : (∀ f, m.format = some f → i.message.format = f) ∧ (m.format = none → i.message.format = .utf8)
  display : i.display = none
  extra : i.extra = none

/-- The message has an id and a priority. -/
def Complete (m : Message) : Prop := m.id ≠ none ∧ m.priority ≠ none

instance (m : Message) : Decidable (Complete m) := inferInstanceAs (Decidable (_ ∧ _))

theorem fits_iff (m : Message) : (fits 1024 m.text && fitsOpt 8 m.language && fitsOpt 36 m.identifier) = true ↔ Sendable m := by
  unfold Sendable fits
  cases m.language <;> cases m.identifier <;> simp [fitsOpt, fits, and_assoc]

theorem toInfo_left {m : Message} : toInfo m = .left ↔ ¬ Complete m := by
  unfold toInfo Complete
  cases m.id <;> cases m.priority <;> simp [infoOf]
  split <;> simp

theorem toInfo_threw {m : Message} (hc : Complete m) : toInfo m = .threw ↔ ¬ Sendable m := by
  have hf := fits_iff m
  unfold toInfo
  unfold Complete at hc
  cases h1 : m.id with
  | none => exact absurd h1 hc.1
  | some id =>
    cases h2 : m.priority with
    | none => exact absurd h2 hc.2
    | some p =>
      dsimp only
      unfold infoOf
      by_cases h : Sendable m
      · rw [if_pos (hf.2 h)]; simp [h]
      · rw [if_neg (fun hh => h (hf.1 hh))]; simp [h]

theorem toInfo_info {m : Message} {i : Info} : toInfo m = .info i ↔ Sendable m ∧ Reports i m := by
  have hf := fits_iff m
  unfold toInfo
  cases h1 : m.id with
  | none =>
    constructor
    · intro h; exact absurd h (by simp)
    · rintro ⟨_, h⟩; exact absurd (h1.symm.trans h.id) (by simp)
  | some id =>
    cases h2 : m.priority with
    | none =>
      constructor
      · intro h; exact absurd h (by simp)
      · rintro ⟨_, h⟩; exact absurd (h2.symm.trans h.priority) (by simp)
    | some p =>
      dsimp only
      unfold infoOf
      by_cases h : Sendable m
      · rw [if_pos (hf.2 h)]
        constructor
        · intro hi
          injection hi with hi
          subst hi
          exact ⟨h, h1, h2, rfl, rfl, rfl, rfl, rfl, rfl, ⟨fun f hm => by simp [hm], fun hm => by simp [hm]⟩, rfl, rfl⟩
        · rintro ⟨_, r⟩
          obtain ⟨r1, r2, r3, r4, r5, r6, r7, r8, r9, r10, r11⟩ := r
          obtain ⟨jid, jp, ⟨jf, jc, jl⟩, jd, js, jst, jsp, jt, je⟩ := i
          simp only at r3 r4 r5 r6 r7 r8 r9 r10 r11 r1 r2
          have q1 : id = jid := Option.some.inj (h1.symm.trans r1)
          have q2 : p = jp := Option.some.inj (h2.symm.trans r2)
          have q3 : m.format.getD .utf8 = jf := by
            cases hm : m.format with
            | none => exact (r9.2 hm).symm
            | some f => exact (r9.1 f hm).symm
          subst q1 q2 r3 r4 r5 r6 r7 r8 r10 r11
          rw [q3]
      · rw [if_neg (fun hh => h (hf.1 hh))]
        constructor
        · intro hh; exact absurd hh (by simp)
        · rintro ⟨hh, _⟩; exact absurd hh h

/-- The messages of the notification report, one by one, the complete ones of the application. -/
theorem convertAll_spec (ms : List Message) (is : List Info) :
    convertAll ms = some is ↔ (∀ m ∈ ms, Complete m → Sendable m) ∧ List.Forall₂ Reports is (ms.filter (fun m => decide (Complete m))) := by
  induction ms generalizing is with
  | nil =>
    constructor
    · intro h
      injection h with h
      subst h
      exact ⟨fun m hm => absurd hm (by simp), List.Forall₂.nil⟩
    · rintro ⟨_, h⟩
      cases h
      rfl
  | cons m r ih =>
    cases h : toInfo m with
    | left =>
      have hc := toInfo_left.1 h
      rw [show convertAll (m :: r) = (match toInfo m with
        | .left => convertAll r
        | .threw => none
        | .info i => (convertAll r).map (i :: ·)) from rfl, h]
      dsimp only
      rw [List.filter_cons_of_neg (by simpa using hc), ih]
      constructor
      · rintro ⟨h1, h2⟩
        refine ⟨fun x hx hcx => ?_, h2⟩
        rcases List.mem_cons.1 hx with hx | hx
        · exact absurd (hx ▸ hcx) hc
        · exact h1 x hx hcx
      · rintro ⟨h1, h2⟩
        exact ⟨fun x hx => h1 x (List.mem_cons_of_mem _ hx), h2⟩
    | threw =>
      have hc : Complete m := Classical.byContradiction fun hc => by rw [toInfo_left.2 hc] at h; exact absurd h (by simp)
      have hs := (toInfo_threw hc).1 h
      rw [show convertAll (m :: r) = (match toInfo m with
        | .left => convertAll r
        | .threw => none
        | .info i => (convertAll r).map (i :: ·)) from rfl, h]
      dsimp only
      constructor
      · intro hh; exact absurd hh (by simp)
      · rintro ⟨h1, _⟩; exact absurd (h1 m (List.mem_cons_self ..) hc) hs
    | info i =>
      have hi := toInfo_info.1 h
      have hc : Complete m := ⟨by rw [hi.2.id]; simp, by rw [hi.2.priority]; simp⟩
      rw [show convertAll (m :: r) = (match toInfo m with
        | .left => convertAll r
        | .threw => none
        | .info i => (convertAll r).map (i :: ·)) from rfl, h]
      dsimp only
      rw [List.filter_cons_of_pos (by simpa using hc)]
      constructor
      · intro hh
        cases hr : convertAll r with
        | none => rw [hr] at hh; exact absurd hh (by simp)
        | some js =>
          rw [hr] at hh
          injection hh with hh
          subst hh
          have := (ih js).1 hr
          refine ⟨fun x hx hcx => ?_, List.Forall₂.cons hi.2 this.2⟩
          rcases List.mem_cons.1 hx with hx | hx
          · exact hx ▸ hi.1
          · exact this.1 x hx hcx
      · rintro ⟨h1, h2⟩
        cases h2 with
        | cons hj hr =>
          rename_i j js
          have e1 : i = j := by
            have := toInfo_info.2 ⟨hi.1, hj⟩
            rw [h] at this
            injection this
          rw [(ih js).2 ⟨fun x hx => h1 x (List.mem_cons_of_mem _ hx), hr⟩, e1]
          rfl

/-- C193 (partial: of the messages with an id and a priority none is too long): the answer to a request for the display messages is
`Accepted` exactly if the application has a message with an id and a priority, and then one notification follows, with the id of the
request and all those messages, in order, with what they say; otherwise the answer is `Unknown` and nothing follows.  Missing: messages
without an id or a priority and identifiers that are no transaction ids (`C193_left_violated`, `C193_identifier_violated`) and too long
texts (`C193_long_violated`). -/
theorem C193_partial (rid : Int) (ms : List Message) (hs : ∀ m ∈ ms, Complete m → Sendable m) :
    (getMessages rid ms = some [.answer false] ∧ ∀ m ∈ ms, ¬ Complete m) ∨
    ∃ is, getMessages rid ms = some [.answer true, .notify rid is] ∧ is ≠ [] ∧
      List.Forall₂ Reports is (ms.filter (fun m => decide (Complete m))) := by
  unfold getMessages
  have key : ∃ is, convertAll ms = some is := by
    clear rid
    induction ms with
    | nil => exact ⟨[], rfl⟩
    | cons m r ih =>
      obtain ⟨is, his⟩ := ih (fun x hx => hs x (List.mem_cons_of_mem _ hx))
      rw [show convertAll (m :: r) = (match toInfo m with
        | .left => convertAll r
        | .threw => none
        | .info i => (convertAll r).map (i :: ·)) from rfl]
      cases h : toInfo m with
      | left => exact ⟨is, his⟩
      | threw =>
        have hc : Complete m := Classical.byContradiction fun hc => by rw [toInfo_left.2 hc] at h; exact absurd h (by simp)
        exact absurd (hs m (List.mem_cons_self ..) hc) ((toInfo_threw hc).1 h)
      | info i => exact ⟨i :: is, by dsimp only; rw [his]; rfl⟩
  obtain ⟨is, his⟩ := key
  have hspec := ((convertAll_spec ms is).1 his).2
  rw [his]
  show (some (getAnswer rid is) = _ ∧ _) ∨ ∃ is', some (getAnswer rid is) = _ ∧ _
  cases is with
  | nil =>
    left
    refine ⟨rfl, fun m hm hc => ?_⟩
    generalize hq : ms.filter (fun m => decide (Complete m)) = q at hspec
    cases hspec
    have : m ∈ ms.filter (fun m => decide (Complete m)) := List.mem_filter.2 ⟨hm, by simpa using hc⟩
    rw [hq] at this
    exact absurd this (by simp)
  | cons i is => exact Or.inr ⟨i :: is, rfl, by simp, hspec⟩

/-- C193: what the management system asked to show is what it gets back, if the application keeps the messages as it got them: but for
the component of the display and the further texts. -/
theorem C193_round_partial (i : Info) (hc : i.message.content.length ≤ 1024) (hl : ∀ l, i.message.language = some l → l.length ≤ 8)
    (ht : ∀ t, i.transaction = some t → t.length ≤ 36) (rid : Int) :
    getMessages rid [toMessage i] = some [.answer true, .notify rid [{ i with display := none, extra := none }]] := by
  have : toInfo (toMessage i) = .info { i with display := none, extra := none } :=
    toInfo_info.2 ⟨⟨hc, hl, ht⟩, rfl, rfl, rfl, rfl, rfl, rfl, rfl, rfl,
      ⟨fun f hf => Option.some.inj hf, fun hf => absurd hf (by simp [toMessage])⟩, rfl, rfl⟩
  show (convertAll [toMessage i]).map _ = _
  rw [show convertAll [toMessage i] = (match toInfo (toMessage i) with
        | .left => convertAll []
        | .threw => none
        | .info i => (convertAll []).map (i :: ·)) from rfl, this]
  rfl

example : getMessages 7 [toMessage notice, { text := "x".toList }] = some [.answer true, .notify 7 [notice]] := by decide +kernel

/-- C193 violated: messages the application has are not told to the management system; it is told that there are none. -/
theorem C193_left_violated : ∃ ms : List Message, ms ≠ [] ∧ (∀ m ∈ ms, Sendable m) ∧ ∀ rid, getMessages rid ms = some [.answer false] :=
  ⟨[{ text := "Welcome".toList, priority := some .inFront }], by simp, by
    intro m hm
    rw [List.mem_singleton.1 hm]
    exact ⟨by decide, fun l hl => absurd hl (by simp), fun t ht => absurd ht (by simp)⟩, fun _ => rfl⟩

/-- C193 violated: the identifier of a message is sent as a transaction id even if the application says that it is a session id or an id
token. -/
theorem C193_identifier_violated : ∃ (m : Message) (t : Str), m.identifierType = some .idToken ∧ m.identifier = some t ∧
    ∀ rid, ∃ i, getMessages rid [m] = some [.answer true, .notify rid [i]] ∧ i.transaction = some t :=
  ⟨{ id := some 1, priority := some .inFront, text := "Hi".toList, identifier := some "04A1".toList, identifierType := some .idToken },
    "04A1".toList, rfl, rfl, fun _ => ⟨_, rfl, rfl⟩⟩

theorem unsendable {m : Message} (hc : Complete m) (hs : ¬ Sendable m) (ms ns : List Message) (rid : Int) : getMessages rid (ms ++ m :: ns) = none := by
  unfold getMessages
  rw [Option.map_eq_none_iff]
  cases h : convertAll (ms ++ m :: ns) with
  | none => rfl
  | some is => exact absurd (((convertAll_spec _ is).1 h).1 m (List.mem_append_right _ (List.mem_cons_self ..)) hc) hs

/-- C193 violated: one message with a too long text, and the request for the messages is not answered by the handler, whatever the other
messages are. -/
theorem C193_long_violated (ms ns : List Message) : ∃ m : Message, ∀ rid, getMessages rid (ms ++ m :: ns) = none := by
  have h : ∀ t : Str, t.length = 1025 → ∀ rid, getMessages rid (ms ++ { id := some 1, priority := some .inFront, text := t } :: ns) = none :=
    fun t ht rid => unsendable ⟨fun h => (by cases h), fun h => (by cases h)⟩ (fun hs => by have h1 : t.length ≤ 1024 := hs.1; omega) ms ns rid
  exact ⟨_, h (List.replicate 1025 'a') List.length_replicate⟩

end Verif.Display
