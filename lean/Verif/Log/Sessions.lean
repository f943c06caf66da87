import Verif.Log.Messages
import Verif.Log.Limits
/-! C181: each message once in each log. C182: the type of a response. C183: HTML. C184: security events. C185: memory. -/
set_option linter.unusedSimpArgs false

namespace Verif.Log

open Verif.Conf16 (Text bytes)

/-! ## C181 -/

/-- The text with which a message is logged: indented if it can be. -/
def Msg.shown (m : Msg) : Text :=
  match m.doc with
  | .callBadId _ => m.text
  | .invalid => m.text
  | _ => m.pretty

/-- The messages sent and received, in order, with their directions. -/
def messagesOf : List Call → List (Typ × Text)
  | [] => []
  | .message sent _ m :: cs => (direction sent, m.shown) :: messagesOf cs
  | _ :: cs => messagesOf cs

/-- The messages since a session started, nothing if it is not running. -/
def since (id : Text) : List Call → Option (List (Typ × Text)) → Option (List (Typ × Text))
  | [], acc => acc
  | .message sent _ m :: cs, acc => since id cs (acc.map (· ++ [(direction sent, m.shown)]))
  | .startSession i :: cs, acc => since id cs (if i = id then some [] else acc)
  | .stopSession i :: cs, acc => since id cs (if i = id then none else acc)
  | _ :: cs, acc => since id cs acc

/-- The messages in a log, without the events of the connection. -/
def inLog (l : Logger) : List (Typ × Text) := (l.lines.filter (fun x => x.typ != .system)).map (fun x => (x.typ, x.json))

theorem direction_not_system (b : Bool) : (direction b != .system) = true := by cases b <;> decide

theorem format_text (m : List (Text × Text)) (t : Text) (msg : Msg) : (format m t msg).2.2 = msg.shown := by
  unfold format Msg.shown
  cases msg.doc <;> rfl

theorem inLog_message (l : Logger) (sent : Bool) (t : Text) (m : Msg) : inLog (l.message (direction sent) t m) = inLog l ++ [(direction sent, m.shown)] := by
  unfold inLog Logger.message
  rw [List.filter_append, List.map_append]
  simp [direction_not_system, format_text]

theorem inLog_output (l : Logger) (t j : Text) : inLog (l.output .system t j) = inLog l := by
  unfold inLog Logger.output
  rw [List.filter_append, List.map_append]
  simp

theorem times_invariant {α : Type} {f : Logger → Logger} {g : Logger → α} (h : ∀ l, g (f l) = g l) : ∀ n l, g (times f n l) = g l := by
  intro n
  induction n with
  | zero => intro l; rfl
  | succ n ih => intro l; exact (ih (f l)).trans (h l)

theorem act_session (s : State) (c : Call) : (act s c).session = s.session := by
  cases c with
  | raw => unfold act; dsimp only; split <;> rfl
  | _ => rfl

theorem act_main (s : State) (c : Call) : inLog (act s c).main = inLog s.main ++ messagesOf [c] := by
  cases c with
  | message sent t m => exact inLog_message _ _ _ _
  | sys t =>
    show inLog (times _ _ _) = _
    rw [times_invariant (f := fun l => l.output .system t []) (g := inLog) (fun l => inLog_output l t []), inLog_output]
    simp [messagesOf]
  | raw sent t =>
    unfold act
    dsimp only
    simp only [messagesOf, List.append_nil]
    split
    · show inLog (times _ _ _) = _
      rw [times_invariant (f := fun l => l.outputRaw (direction sent) [] t) (g := inLog) (fun l => rfl)]
      rfl
    · rfl
  | startSession i => simp [act, messagesOf]
  | stopSession i => simp [act, messagesOf]

theorem messagesOf_cons (c : Call) (cs : List Call) : messagesOf (c :: cs) = messagesOf [c] ++ messagesOf cs := by
  cases c <;> rfl

/-- C181: whatever happens, the log has every message that was sent or received exactly once and in order. -/
theorem C181_main (s : State) (cs : List Call) : inLog (history s cs).main = inLog s.main ++ messagesOf cs := by
  induction cs generalizing s with
  | nil => simp [history, messagesOf]
  | cons c cs ih =>
    have := ih (act s c)
    unfold history at this ⊢
    rw [List.foldl_cons, this, act_main, messagesOf_cons c cs, List.append_assoc]

/-- The log of a session. -/
def sessionLog (s : State) (id : Text) : Option Logger := (s.open'.find? (fun e => e.1 == id)).map (·.2)

theorem find_filter_self (l : List (Text × Logger)) (i : Text) : (l.filter (fun e => e.1 != i)).find? (fun e => e.1 == i) = none := by
  rw [List.find?_eq_none]
  intro e he
  have := (List.mem_filter.1 he).2
  simpa using this

theorem find_filter_other {l : List (Text × Logger)} {i id : Text} (h : i ≠ id) : (l.filter (fun e => e.1 != i)).find? (fun e => e.1 == id) = l.find? (fun e => e.1 == id) := by
  induction l with
  | nil => rfl
  | cons e l ih =>
    rw [List.filter_cons]
    by_cases he : e.1 = i
    · rw [if_neg (by simp [he]), ih, List.find?_cons]
      have : (e.1 == id) = false := by rw [he]; simp [h]
      rw [this]
    · rw [if_pos (by simp [he]), List.find?_cons, List.find?_cons, ih]

theorem sessionLog_act {s : State} (hs : s.session = true) (id : Text) (c : Call) : (sessionLog (act s c) id).map inLog = since id [c] ((sessionLog s id).map inLog) := by
  cases c with
  | message sent t m =>
    unfold sessionLog act
    dsimp only
    rw [if_pos hs]
    simp only [since]
    rw [List.find?_map]
    have : ((fun e : Text × Logger => e.1 == id) ∘ fun e : Text × Logger => (e.1, e.2.message (direction sent) t m)) = fun e => e.1 == id := rfl
    rw [this]
    cases s.open'.find? (fun e => e.1 == id) with
    | none => rfl
    | some e => simp [inLog_message]
  | sys t => rfl
  | raw sent t =>
    have : (act s (.raw sent t)).open' = s.open' := by
      unfold act
      dsimp only
      split <;> rfl
    unfold sessionLog
    rw [this]
    rfl
  | startSession i =>
    unfold sessionLog act
    simp only [since, List.find?_cons]
    by_cases h : i = id
    · simp [h, inLog]
    · have h2 : (i == id) = false := by simp [h]
      rw [h2, if_neg h]
      dsimp only
      rw [find_filter_other h]
  | stopSession i =>
    unfold sessionLog act
    simp only [since]
    by_cases h : i = id
    · rw [if_pos h, h, find_filter_self]; rfl
    · rw [if_neg h, find_filter_other h]

theorem since_cons (id : Text) (c : Call) (cs : List Call) (acc : Option (List (Typ × Text))) : since id (c :: cs) acc = since id cs (since id [c] acc) := by
  cases c <;> rfl

/-- C181: with logs for sessions, the log of a running session has every message since its start exactly once and in order, and there is none for other sessions. -/
theorem C181_session {s : State} (hs : s.session = true) (id : Text) (cs : List Call) :
    (sessionLog (history s cs) id).map inLog = since id cs ((sessionLog s id).map inLog) := by
  induction cs generalizing s with
  | nil => rfl
  | cons c cs ih =>
    have := ih (s := act s c) (by rw [act_session]; exact hs)
    unfold history at this ⊢
    rw [List.foldl_cons, this, sessionLog_act hs, ← since_cons]

def demoMsg (d : Doc) : Msg := ⟨"t".toList, "p".toList, d⟩

def demoCalls : List Call :=
  [.startSession "a".toList, .message true "Unknown".toList (demoMsg (.call "1".toList "Heartbeat".toList)), .startSession "b".toList,
   .message false "Unknown".toList (demoMsg (.result "1".toList)), .stopSession "a".toList]

example : ((sessionLog (history { session := true, raw := true } demoCalls) "b".toList).map inLog) = some [(.centralSystem, "p".toList)] ∧
    sessionLog (history { session := true, raw := true } demoCalls) "a".toList = none := by decide +kernel

/-- What should be in the log of messages: also the events of the connection, once. -/
def eventsOf : List Call → List Text
  | [] => []
  | .sys t :: cs => t :: eventsOf cs
  | _ :: cs => eventsOf cs

/-- What should be in the log of raw messages. -/
def rawsOf : List Call → List (Typ × Text)
  | [] => []
  | .raw sent t :: cs => (direction sent, t) :: rawsOf cs
  | _ :: cs => rawsOf cs

theorem eventsOf_cons (c : Call) (cs : List Call) : eventsOf (c :: cs) = eventsOf [c] ++ eventsOf cs := by cases c <;> rfl

theorem rawsOf_cons (c : Call) (cs : List Call) : rawsOf (c :: cs) = rawsOf [c] ++ rawsOf cs := by cases c <;> rfl

/-- The events in a log. -/
def eventsIn (l : Logger) : List Text := (l.lines.filter (fun x => x.typ == .system)).map (·.type)

theorem eventsIn_output (l : Logger) (t j : Text) : eventsIn (l.output .system t j) = eventsIn l ++ [t] := by
  unfold eventsIn Logger.output
  rw [List.filter_append, List.map_append]
  simp

theorem eventsIn_message (l : Logger) (b : Bool) (t : Text) (m : Msg) : eventsIn (l.message (direction b) t m) = eventsIn l := by
  unfold eventsIn Logger.message
  rw [List.filter_append, List.map_append]
  cases b <;> simp [direction]

theorem act_raw (s : State) (c : Call) : (act s c).raw = s.raw := by
  cases c with
  | raw => unfold act; dsimp only; split <;> rfl
  | _ => rfl

/-- C181, partial: without logs for sessions, every event of the connection and every raw message is written exactly once and in order.
Missing: logs for sessions, see `C181_sys_violated` and `C181_raw_violated`. -/
theorem C181_events_partial {s : State} (hs : s.session = false) (hr : s.raw = true) (cs : List Call) :
    eventsIn (history s cs).main = eventsIn s.main ++ eventsOf cs ∧
      (history s cs).main.raws.map (fun l => (l.typ, l.type)) = s.main.raws.map (fun l => (l.typ, l.type)) ++ rawsOf cs := by
  induction cs generalizing s with
  | nil => simp [history, eventsOf, rawsOf]
  | cons c cs ih =>
    have := ih (s := act s c) (by rw [act_session]; exact hs) (by rw [act_raw]; exact hr)
    unfold history at this ⊢
    rw [List.foldl_cons, this.1, this.2, eventsOf_cons c cs, rawsOf_cons c cs, ← List.append_assoc, ← List.append_assoc]
    have h1 : eventsIn (act s c).main = eventsIn s.main ++ eventsOf [c] := by
      cases c with
      | message b t m => simp [act, eventsOf, eventsIn_message]
      | sys t => simp [act, hs, times, eventsOf, eventsIn_output]
      | raw b t =>
        unfold act
        dsimp only
        rw [if_pos hr, if_neg (by simp [hs])]
        simp only [times, eventsOf, List.append_nil]
        rfl
      | startSession i => simp [act, eventsOf]
      | stopSession i => simp [act, eventsOf]
    have h2 : (act s c).main.raws.map (fun l => (l.typ, l.type)) = s.main.raws.map (fun l => (l.typ, l.type)) ++ rawsOf [c] := by
      cases c with
      | message b t m => simp [act, rawsOf, Logger.message]
      | sys t => simp [act, hs, times, rawsOf, Logger.output]
      | raw b t => simp [act, hs, hr, times, rawsOf, Logger.outputRaw]
      | startSession i => simp [act, rawsOf]
      | stopSession i => simp [act, rawsOf]
    rw [h1, h2]
    exact ⟨rfl, rfl⟩

example : eventsOf [.sys "Connected".toList] = ["Connected".toList] ∧ rawsOf [.raw true "x".toList] = [(.chargePoint, "x".toList)] := by decide +kernel

/-- C181 is violated: while two sessions are logged, an event of the connection is written three times to the log of the charging station, and not to the logs of the
sessions. -/
theorem C181_sys_violated : ∃ cs : List Call, eventsOf cs = ["Connected".toList] ∧
    eventsIn (history { session := true, raw := true } cs).main = ["Connected".toList, "Connected".toList, "Connected".toList] ∧
    (∀ id, (sessionLog (history { session := true, raw := true } cs) id).map eventsIn ≠ some ["Connected".toList]) := by
  refine ⟨[.startSession "a".toList, .startSession "b".toList, .sys "Connected".toList], by decide +kernel, by decide +kernel, fun id h => ?_⟩
  have he : (history { session := true, raw := true } [.startSession "a".toList, .startSession "b".toList, .sys "Connected".toList]).open' =
      [("b".toList, {}), ("a".toList, {})] := by decide +kernel
  unfold sessionLog at h
  rw [he, List.find?_cons, List.find?_cons] at h
  split at h
  · revert h; decide +kernel
  · split at h
    · revert h; decide +kernel
    · cases h

/-- C181 is violated: while a session is logged, a raw message is written twice to the log of the charging station, and not to that of the session. -/
theorem C181_raw_violated : ∃ cs : List Call, rawsOf cs = [(.chargePoint, "x".toList)] ∧
    (history { session := true, raw := true } cs).main.raws = [⟨.chargePoint, "x".toList, []⟩, ⟨.chargePoint, [], "x".toList⟩] ∧
    (sessionLog (history { session := true, raw := true } cs) "a".toList).map (·.raws) = some [] :=
  ⟨[.startSession "a".toList, .raw true "x".toList], by decide +kernel, by decide +kernel, by decide +kernel⟩

/-! ## C182 -/

/-- The id of a CALL or CALLRESULT. -/
def Call.id? : Call → Option Text
  | .message _ _ m => match m.doc with
    | .call id _ => some id
    | .result id => some id
    | _ => none
  | _ => none

theorem look_put_same (m : List (Text × Text)) (id v : Text) : look (put m id v) id = v := by simp [look, put]

theorem look_put_other {m : List (Text × Text)} {id j : Text} (v : Text) (h : j ≠ id) : look (put m j v) id = look m id := by
  unfold look put
  have h2 : (j == id) = false := by simp [h]
  rw [List.find?_cons]
  simp only [h2]
  congr 2
  induction m with
  | nil => rfl
  | cons e l ih =>
    rw [List.filter_cons]
    by_cases he : e.1 = j
    · rw [if_neg (by simp [he]), ih, List.find?_cons]
      have : (e.1 == id) = false := by rw [he]; simp [h]
      rw [this]
    · rw [if_pos (by simp [he]), List.find?_cons, List.find?_cons, ih]

theorem message_look {l : Logger} {typ : Typ} {t : Text} {m : Msg} {b : Bool} {id : Text} (h : (Call.message b t m).id? ≠ some id) : look (l.message typ t m).map id = look l.map id := by
  unfold Logger.message format
  unfold Call.id? at h
  dsimp only at h
  cases hd : m.doc with
  | call j a =>
    rw [hd] at h
    dsimp only at h ⊢
    exact look_put_other _ (fun he => h (by rw [he]))
  | result j =>
    rw [hd] at h
    dsimp only at h ⊢
    exact look_put_other _ (fun he => h (by rw [he]))
  | callBadId a => rfl
  | other => rfl
  | invalid => rfl

theorem act_look {s : State} {c : Call} {id : Text} (h : c.id? ≠ some id) : look (act s c).main.map id = look s.main.map id := by
  cases c with
  | message b t m => exact message_look h
  | sys t =>
    show look (times _ _ _).map id = _
    rw [times_invariant (f := fun l => l.output .system t []) (g := fun l => look l.map id) (fun l => rfl)]
    rfl
  | raw b t =>
    unfold act
    dsimp only
    split
    · show look (times _ _ _).map id = _
      rw [times_invariant (f := fun l => l.outputRaw (direction b) [] t) (g := fun l => look l.map id) (fun l => rfl)]
      rfl
    · rfl
  | startSession i => rfl
  | stopSession i => rfl

theorem history_look {s : State} {cs : List Call} {id : Text} (h : ∀ c ∈ cs, c.id? ≠ some id) : look (history s cs).main.map id = look s.main.map id := by
  induction cs generalizing s with
  | nil => rfl
  | cons c cs ih =>
    have := ih (s := act s c) (fun c hc => h c (List.mem_cons_of_mem _ hc))
    unfold history at this ⊢
    rw [List.foldl_cons, this, act_look (h c (List.mem_cons_self))]

/-- C182, partial: after any history, a response is logged with the action of the call it answers, if no other message had the same id in the meantime.
Missing: ids used by both sides, see `C182_violated`, and sessions that start between the call and the response, see `C182_session_violated`. -/
theorem C182_partial (s : State) (before between : List Call) (b b' : Bool) (t t' : Text) (id action : Text) (m m' : Msg) (hm : m.doc = .call id action) (hm' : m'.doc = .result id)
    (h : ∀ c ∈ between, c.id? ≠ some id) :
    (history s (before ++ .message b t m :: between ++ [.message b' t' m'])).main.lines.getLast? = some ⟨direction b', action ++ "Response".toList, m'.pretty⟩ := by
  have e : history s (before ++ .message b t m :: between ++ [.message b' t' m']) =
      act (history (act (history s before) (.message b t m)) between) (.message b' t' m') := by
    unfold history
    simp
  rw [e]
  generalize hs1 : history s before = s1
  have h1 : look (act s1 (.message b t m)).main.map id = action ++ "Response".toList := by
    show look (format s1.main.map t m).1 id = _
    unfold format
    rw [hm]
    exact look_put_same _ _ _
  have h2 := (history_look (s := act s1 (.message b t m)) h).trans h1
  generalize history (act s1 (.message b t m)) between = s2 at h2
  show (s2.main.lines ++ [(⟨direction b', (format s2.main.map t' m').2.1, (format s2.main.map t' m').2.2⟩ : Line)]).getLast? = _
  rw [List.getLast?_concat]
  unfold format
  rw [hm']
  dsimp only
  rw [h2]

example : (demoMsg (.call "1".toList "Heartbeat".toList)).doc = .call "1".toList "Heartbeat".toList ∧ (demoMsg (.result "1".toList)).doc = .result "1".toList ∧
    ∀ c ∈ [Call.message true [] (demoMsg (.call "2".toList "Authorize".toList)), .sys "Connected".toList], c.id? ≠ some "1".toList := by decide +kernel

/-- C182, partial: a response to no call, as one that comes a second time, is logged without a type. -/
theorem C182_second_partial (s : State) (before between : List Call) (b b' : Bool) (t t' : Text) (id : Text) (m m' : Msg) (hm : m.doc = .result id) (hm' : m'.doc = .result id)
    (h : ∀ c ∈ between, c.id? ≠ some id) :
    (history s (before ++ .message b t m :: between ++ [.message b' t' m'])).main.lines.getLast? = some ⟨direction b', [], m'.pretty⟩ := by
  have e : history s (before ++ .message b t m :: between ++ [.message b' t' m']) =
      act (history (act (history s before) (.message b t m)) between) (.message b' t' m') := by
    unfold history
    simp
  rw [e]
  generalize hs1 : history s before = s1
  have h1 : look (act s1 (.message b t m)).main.map id = [] := by
    show look (format s1.main.map t m).1 id = _
    unfold format
    rw [hm]
    exact look_put_same _ _ _
  have h2 := (history_look (s := act s1 (.message b t m)) h).trans h1
  generalize history (act s1 (.message b t m)) between = s2 at h2
  show (s2.main.lines ++ [(⟨direction b', (format s2.main.map t' m').2.1, (format s2.main.map t' m').2.2⟩ : Line)]).getLast? = _
  rw [List.getLast?_concat]
  unfold format
  rw [hm']
  dsimp only
  rw [h2]

/-- C182 is violated when the CSMS uses an id that a call of the charging station has: the response to the Heartbeat is logged as ResetResponse. -/
theorem C182_violated : ∃ cs : List Call, cs = [.message true [] (demoMsg (.call "1".toList "Heartbeat".toList)), .message false [] (demoMsg (.call "1".toList "Reset".toList)),
      .message false [] (demoMsg (.result "1".toList)), .message true [] (demoMsg (.result "1".toList))] ∧
    (history { session := false, raw := false } cs).main.lines.map (fun l => (l.typ, l.type)) =
      [(.chargePoint, "Heartbeat".toList), (.centralSystem, "Reset".toList), (.centralSystem, "ResetResponse".toList), (.chargePoint, [])] :=
  ⟨_, rfl, by decide +kernel⟩

/-- C182 is violated in the log of a session that starts after the call: the response has no type. -/
theorem C182_session_violated : ((sessionLog (history { session := true, raw := true } demoCalls) "b".toList).map (fun l => l.lines.map (·.type))) = some [[]] := by
  decide +kernel

/-! ## C185: memory -/

/-- The ids of calls and responses. -/
def idsOf : List Call → List Text
  | [] => []
  | c :: cs => (match c.id? with
    | some i => [i]
    | none => []) ++ idsOf cs

theorem put_keys (m : List (Text × Text)) (id v : Text) (h : (m.map (·.1)).Nodup) :
    ((put m id v).map (·.1)).Nodup ∧ ∀ k ∈ (put m id v).map (·.1), k = id ∨ k ∈ m.map (·.1) := by
  unfold put
  rw [List.map_cons]
  refine ⟨List.nodup_cons.2 ⟨?_, ?_⟩, fun k hk => ?_⟩
  · intro hm
    obtain ⟨e, he, hn⟩ := List.mem_map.1 hm
    have := (List.mem_filter.1 he).2
    simp [hn] at this
  · exact List.Sublist.nodup (List.Sublist.map _ List.filter_sublist) h
  · rcases List.mem_cons.1 hk with rfl | hk
    · exact .inl rfl
    · obtain ⟨e, he, hn⟩ := List.mem_map.1 hk
      exact .inr (List.mem_map.2 ⟨e, (List.mem_filter.1 he).1, hn⟩)

/-- C185, partial: what is remembered for the types of responses has at most one element for each id.
Missing: elements of calls that were answered are kept, see `C185_violated`. -/
theorem C185_partial (session raw : Bool) (cs : List Call) : ((history { session := session, raw := raw } cs).main.map.map (·.1)).Nodup ∧
    ∀ k ∈ (history { session := session, raw := raw } cs).main.map.map (·.1), k ∈ idsOf cs := by
  suffices key : ∀ (s : State), (s.main.map.map (·.1)).Nodup → ((history s cs).main.map.map (·.1)).Nodup ∧
      ∀ k ∈ (history s cs).main.map.map (·.1), k ∈ s.main.map.map (·.1) ∨ k ∈ idsOf cs by
    obtain ⟨h1, h2⟩ := key { session := session, raw := raw } (by simp)
    refine ⟨h1, fun k hk => (h2 k hk).resolve_left (by simp)⟩
  induction cs with
  | nil => intro s h; exact ⟨h, fun k hk => .inl hk⟩
  | cons c cs ih =>
    intro s h
    have hstep : ((act s c).main.map.map (·.1)).Nodup ∧ ∀ k ∈ (act s c).main.map.map (·.1), k ∈ s.main.map.map (·.1) ∨ c.id? = some k := by
      have same : (act s c).main.map = s.main.map → ((act s c).main.map.map (·.1)).Nodup ∧ ∀ k ∈ (act s c).main.map.map (·.1), k ∈ s.main.map.map (·.1) ∨ c.id? = some k := by
        intro he
        rw [he]
        exact ⟨h, fun k hk => .inl hk⟩
      cases c with
      | message b t m =>
        cases hd : m.doc with
        | call i a =>
          have he : (act s (.message b t m)).main.map = put s.main.map i (a ++ "Response".toList) := by
            show (format s.main.map t m).1 = _
            unfold format
            rw [hd]
          rw [he]
          obtain ⟨h1, h2⟩ := put_keys s.main.map i (a ++ "Response".toList) h
          refine ⟨h1, fun k hk => ?_⟩
          rcases h2 k hk with rfl | h3
          · right; unfold Call.id?; dsimp only; rw [hd]
          · exact .inl h3
        | result i =>
          have he : (act s (.message b t m)).main.map = put s.main.map i [] := by
            show (format s.main.map t m).1 = _
            unfold format
            rw [hd]
          rw [he]
          obtain ⟨h1, h2⟩ := put_keys s.main.map i [] h
          refine ⟨h1, fun k hk => ?_⟩
          rcases h2 k hk with rfl | h3
          · right; unfold Call.id?; dsimp only; rw [hd]
          · exact .inl h3
        | callBadId a => exact same (by show (format s.main.map t m).1 = _; unfold format; rw [hd])
        | other => exact same (by show (format s.main.map t m).1 = _; unfold format; rw [hd])
        | invalid => exact same (by show (format s.main.map t m).1 = _; unfold format; rw [hd])
      | sys t =>
        refine same ?_
        show (times _ _ _).map = _
        rw [times_invariant (f := fun l => l.output .system t []) (g := fun l => l.map) (fun l => rfl)]
        rfl
      | raw b t =>
        refine same ?_
        unfold act
        dsimp only
        split
        · show (times _ _ _).map = _
          rw [times_invariant (f := fun l => l.outputRaw (direction b) [] t) (g := fun l => l.map) (fun l => rfl)]
          rfl
        · rfl
      | startSession i => exact same rfl
      | stopSession i => exact same rfl
    obtain ⟨h1, h2⟩ := ih (act s c) hstep.1
    have he : history s (c :: cs) = history (act s c) cs := rfl
    rw [he]
    refine ⟨h1, fun k hk => ?_⟩
    rcases h2 k hk with h3 | h3
    · rcases hstep.2 k h3 with h4 | h4
      · exact .inl h4
      · right
        show k ∈ (match c.id? with
          | some i => [i]
          | none => []) ++ idsOf cs
        rw [h4]
        simp
    · right
      exact List.mem_append_right _ h3

/-- An id of `n` characters. -/
def longId (n : Nat) : Text := List.replicate n 'x'

/-- `n` calls of the charging station, each answered before the next. -/
def answeredCalls : Nat → List Call
  | 0 => []
  | n + 1 => answeredCalls n ++ [.message true [] (demoMsg (.call (longId n) "Heartbeat".toList)), .message false [] (demoMsg (.result (longId n)))]

/-- C185 is violated: for every number there is a history in which every call was answered, and as many elements are remembered. -/
theorem C185_violated (n : Nat) : (history { session := false, raw := false } (answeredCalls n)).main.map.length = n ∧
    ∀ e ∈ (history { session := false, raw := false } (answeredCalls n)).main.map, e.2 = [] ∧ e.1.length < n := by
  induction n with
  | zero => exact ⟨rfl, by simp [answeredCalls, history]⟩
  | succ n ih =>
    obtain ⟨h1, h2⟩ := ih
    have e : (history { session := false, raw := false } (answeredCalls (n + 1))).main.map =
        put (put (history { session := false, raw := false } (answeredCalls n)).main.map (longId n) ("Heartbeat".toList ++ "Response".toList)) (longId n) [] := by
      have ha : answeredCalls (n + 1) = answeredCalls n ++ [.message true [] (demoMsg (.call (longId n) "Heartbeat".toList)), .message false [] (demoMsg (.result (longId n)))] := rfl
      unfold history
      rw [ha, List.foldl_append]
      rfl
    rw [e]
    generalize hm : (history { session := false, raw := false } (answeredCalls n)).main.map = m at h1 h2
    have hf : m.filter (fun e => e.1 != longId n) = m := by
      rw [List.filter_eq_self]
      intro x hx
      rw [bne_iff_ne]
      intro hc
      have := (h2 x hx).2
      rw [hc] at this
      simp [longId] at this
    unfold put
    rw [hf, List.filter_cons, if_neg (by simp), hf]
    refine ⟨by simp [h1], fun x hx => ?_⟩
    rcases List.mem_cons.1 hx with rfl | hx
    · simp [longId]
    · have := h2 x hx
      exact ⟨this.1, by omega⟩

/-! ## C184 -/

theorem renameAll_status {cfg : Cfg} {stamp : Text} : ∀ (ns : List Text) (d : Dir) (st : Status) (d' : Dir) (st' : Status), renameAll cfg stamp ns (d, st) = some (d', st') →
    (st' = .rotatedWithDeletion ↔ st = .rotatedWithDeletion) := by
  intro ns
  induction ns with
  | nil =>
    intro d st d' st' h
    unfold renameAll at h
    injection h with h
    injection h with h1 h2
    rw [h2]
  | cons n ns ih =>
    intro d st d' st' h
    have he : renameAll cfg stamp (n :: ns) (d, st) = (match newName cfg stamp n with
      | .skip => renameAll cfg stamp ns (d, st)
      | .to m => renameAll cfg stamp ns (rename d n m, if st = .notRotated then .rotated else st)
      | .overflow => none) := rfl
    rw [he] at h
    cases hn : newName cfg stamp n with
    | skip => rw [hn] at h; exact ih _ _ _ _ h
    | to m =>
      rw [hn] at h
      rw [ih _ _ _ _ h]
      cases st <;> decide
    | overflow => rw [hn] at h; cases h

theorem rotateLog_status {cfg : Cfg} {stamp : Text} {d d' : Dir} {st : Status} (hb : [] ∈ names d) (h : rotateLog cfg stamp d = some (d', st)) :
    st = .rotatedWithDeletion ↔ (0 < cfg.maxCount ∧ cfg.maxCount ≤ d.length) := by
  unfold rotateLog at h
  split at h
  · rename_i hc
    have hin : [] ∈ descending (names d) := (descending_perm _).mem_iff.2 hb
    cases hd : descending (names d) with
    | nil => rw [hd] at hin; cases hin
    | cons n ns =>
      rw [hd] at h
      dsimp only at h
      rw [renameAll_status _ _ _ _ _ h]
      exact ⟨fun _ => hc, fun _ => rfl⟩
  · rename_i hc
    rw [renameAll_status _ _ _ _ _ h]
    exact ⟨fun h => (by cases h), fun h => absurd h hc⟩

/-- C184, partial: logging a security event returns, and the event is the last entry of the log, as long as there are fewer files than allowed, or no limit.
Missing: see `C184_violated`. -/
theorem C184_partial {cfg : Cfg} {stamp cleared : Text} {d : Dir} {e : Text} {fuel : Nat} (hb : [] ∈ names d) (hc : cfg.maxCount = 0 ∨ d.length < cfg.maxCount) :
    securityEvent cfg stamp cleared (fuel + 1) false d e ≠ .blocked ∧
      ∀ d', securityEvent cfg stamp cleared (fuel + 1) false d e = .returned d' → (logged (content d' [])).getLast? = some e := by
  unfold securityEvent
  rw [if_neg (by simp)]
  cases hr : rotateIfNeeded cfg stamp d with
  | none => exact ⟨by simp, by simp⟩
  | some r =>
    obtain ⟨d1, st⟩ := r
    dsimp only
    have hst : st ≠ .rotatedWithDeletion ∧ [] ∈ names d1 := by
      unfold rotateIfNeeded at hr
      split at hr
      · injection hr with hr; injection hr with h1 h2; rw [← h1, ← h2]; exact ⟨by decide, hb⟩
      split at hr
      · injection hr with hr; injection hr with h1 h2; rw [← h1, ← h2]; exact ⟨by decide, hb⟩
      split at hr
      · cases hq : rotateLog cfg stamp (append d (cfg.pre.map .tags)) with
        | none => rw [hq] at hr; cases hr
        | some q =>
          obtain ⟨d2, st2⟩ := q
          rw [hq] at hr
          dsimp only at hr
          injection hr with hr
          injection hr with h1 h2
          have hb2 : [] ∈ names (append d (cfg.pre.map .tags)) := by rw [append_names]; exact hb
          refine ⟨?_, ?_⟩
          · rw [← h2]
            intro hd
            have := (rotateLog_status hb2 hq).1 hd
            rw [append_length] at this
            omega
          · rw [← h1, append_names, openBase_new (rotateLog_any hb2 hq).2.2.2]
            simp [names]
      · injection hr with hr; injection hr with h1 h2; rw [← h1, ← h2]; exact ⟨by decide, hb⟩
    rw [if_neg hst.1]
    refine ⟨by simp, fun d' hd' => ?_⟩
    injection hd' with hd'
    subst hd'
    rw [content_append hst.2, logged_append]
    simp [logged]

example : [] ∈ names [([], [Item.entry "x".toList])] ∧ [(([], [Item.entry "x".toList]) : File)].length < (demoCfg 1 3).maxCount := by decide +kernel

/-- The history of the log before the event that blocks. -/
def filling : List Op := [.write [] "a".toList, .write [] "b".toList, .write [] "c".toList]

/-- C184 is violated: in every log with as many files as allowed and one that is full, the next security event blocks for ever: the deletion of the oldest file is reported as
a security event, which waits for the log in use. Such logs come about. -/
theorem C184_violated : (∀ (cfg : Cfg) (stamp cleared : Text) (d : Dir) (e : Text) (fuel : Nat) (d' : Dir) (st : Status), cfg.rotate = true → 0 < cfg.maxSize →
      cfg.maxSize ≤ size (content d []) → 0 < cfg.maxCount → cfg.maxCount ≤ d.length → [] ∈ names d → rotateIfNeeded cfg stamp d = some (d', st) →
      securityEvent cfg stamp cleared (fuel + 2) false d e = .blocked) ∧
    ∃ d sts, run (demoCfg 1 3) [([], [])] filling = some (d, sts) ∧ (∀ st ∈ sts, st ≠ .rotatedWithDeletion) ∧
      securityEvent (demoCfg 1 3) [] "cleared".toList 2 false d "d".toList = .blocked := by
  refine ⟨?_, _, _, rfl, by decide +kernel, by decide +kernel⟩
  intro cfg stamp cleared d e fuel d' st h1 h2 h3 h4 h5 h6 h7
  have hst : st = .rotatedWithDeletion := by
    unfold rotateIfNeeded at h7
    rw [if_neg (by simp [h1]), if_neg (by omega), if_pos h3] at h7
    cases hq : rotateLog cfg stamp (append d (cfg.pre.map .tags)) with
    | none => rw [hq] at h7; cases h7
    | some q =>
      obtain ⟨d2, st2⟩ := q
      rw [hq] at h7
      dsimp only at h7
      injection h7 with h7
      injection h7 with _ h8
      rw [← h8]
      refine (rotateLog_status (by rw [append_names]; exact h6) hq).2 ⟨h4, ?_⟩
      rw [append_length]
      exact h5
  show (if (false : Bool) = true then Outcome.blocked else match rotateIfNeeded cfg stamp d with
    | none => .undefined
    | some (d', st) =>
      if st = .rotatedWithDeletion then
        match securityEvent cfg stamp cleared (fuel + 1) true d' cleared with
        | .returned d'' => .returned (append d'' [.entry e])
        | o => o
      else .returned (append d' [.entry e])) = _
  rw [if_neg (by simp), h7]
  dsimp only
  rw [if_pos hst]
  rfl

end Verif.Log
