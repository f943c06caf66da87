import Verif.Fw2.Model
/-! C187–C190: firmware updates of OCPP 2.x. -/
set_option linter.unusedSimpArgs false

namespace Verif.Fw2

/-! ## What is said about the history -/

/-- The notifications that were sent without being triggered. -/
def notes (outs : List Out) : List (Status × Option Int) := outs.filterMap (fun o => match o with
  | .note s id => some (s, id)
  | _ => none)

/-- The last status that was notified, idle if there is none. -/
def lastStatus (outs : List Out) : Status := ((notes outs).getLast?.map (·.1)).getD .idle

/-- The last id that was notified. -/
def lastId (outs : List Out) : Option Int := ((notes outs).filterMap (·.2)).getLast?

/-- No two neighbours are equal. -/
def NoRepeat : List (Status × Option Int) → Prop
  | a :: b :: r => a ≠ b ∧ NoRepeat (b :: r)
  | _ => True

theorem run_append (s : State) (a b : List Op) : run s (a ++ b) = ((run (run s a).1 b).1, (run s a).2 ++ (run (run s a).1 b).2) := by
  induction a generalizing s with
  | nil => rfl
  | cons o os ih =>
    show ((run (step s o).1 (os ++ b)).1, (step s o).2 ++ (run (step s o).1 (os ++ b)).2) = _
    rw [ih]
    show _ = ((run (run (step s o).1 os).1 b).1, (step s o).2 ++ (run (step s o).1 os).2 ++ _)
    rw [List.append_assoc]
    rfl

theorem notes_append (a b : List Out) : notes (a ++ b) = notes a ++ notes b := by unfold notes; rw [List.filterMap_append]

theorem notes_statusEvent (st : Status) : notes (statusEvent st) = [] := by cases st <;> rfl

theorem notes_ending (st : Status) : notes (ending st) = [] := by cases st <;> rfl

theorem notes_installing (s : State) (id : Int) (st : Status) (active : Bool) :
    notes (installing s id st active) = if s.before = st ∧ active = true then [(.installScheduled, requestId id)] else [] := by
  unfold installing
  by_cases h : s.before = st
  · rw [if_pos h]
    cases active with
    | true => simp [h, notes]
    | false => simp [h, notes]
  · rw [if_neg h, if_neg (fun hc => h hc.1)]; rfl

theorem notes_report {s : State} {id : Int} {st : Status} {active : Bool} (h : alreadySent s id st = false) :
    notes (report s id st active).2 = (st, requestId id) :: if s.before = st ∧ active = true then [(.installScheduled, requestId id)] else [] := by
  unfold report
  rw [if_neg (by simp [h])]
  dsimp only
  rw [show Out.note st (requestId id) :: statusEvent st ++ ending st ++ installing s id st active =
    [Out.note st (requestId id)] ++ (statusEvent st ++ (ending st ++ installing s id st active)) from by simp]
  rw [notes_append, notes_append, notes_append, notes_statusEvent, notes_ending, notes_installing]
  rfl

theorem notes_update (s : State) (r : Request) : notes (update s r).2 = [] := by
  unfold update
  dsimp only
  rw [notes_append]
  have h1 : notes (answerOf r).1 = [] := by
    unfold answerOf
    split <;> rfl
  rw [h1]
  show notes ([Out.answer (answerOf r).2] ++ _) = []
  rw [notes_append]
  have : notes [Out.answer (answerOf r).2] = [] := rfl
  rw [this]
  split <;> rfl

/-- What the code remembers of what was sent, together with the last notification. -/
structure Remembers (s : State) (ns : List (Status × Option Int)) : Prop where
  status : s.status = (ns.getLast?.map (·.1)).getD .idle
  id : s.id = (ns.filterMap (·.2)).getLast?

theorem requestId_some {id : Int} (h : id ≠ -1) : requestId id = some id := if_pos h

theorem requestId_none : requestId (-1) = none := rfl

theorem filterMap_ids (ns : List (Status × Option Int)) (st : Status) (id : Int) : ((ns ++ [(st, requestId id)]).filterMap (·.2)).getLast? =
    if id ≠ -1 then some id else (ns.filterMap (·.2)).getLast? := by
  rw [List.filterMap_append]
  by_cases h : id = -1
  · rw [if_neg (by simp [h]), h]
    simp [requestId_none]
  · rw [if_pos h]
    simp [requestId_some h]

theorem remembers_report {s : State} {ns : List (Status × Option Int)} (h : Remembers s ns) {id : Int} {st : Status} {active : Bool} (ha : alreadySent s id st = false) :
    Remembers (report s id st active).1 (ns ++ notes (report s id st active).2) := by
  rw [notes_report ha]
  unfold report
  rw [if_neg (by simp [ha])]
  dsimp only
  by_cases hb : s.before = st ∧ active = true
  · rw [if_pos hb, if_pos hb]
    have e : ns ++ [(st, requestId id), (Status.installScheduled, requestId id)] = (ns ++ [(st, requestId id)]) ++ [(Status.installScheduled, requestId id)] := by simp
    refine ⟨?_, ?_⟩
    · rw [e, List.getLast?_concat]; rfl
    · rw [e, filterMap_ids, filterMap_ids, ← h.id]
      split <;> rfl
  · rw [if_neg hb, if_neg hb]
    refine ⟨?_, ?_⟩
    · rw [List.getLast?_concat]; rfl
    · rw [filterMap_ids, ← h.id]

theorem remembers_step {s : State} {ns : List (Status × Option Int)} (h : Remembers s ns) (o : Op) : Remembers (step s o).1 (ns ++ notes (step s o).2) := by
  cases o with
  | report id st active =>
    cases ha : alreadySent s id st with
    | false => exact remembers_report h ha
    | true =>
      have : report s id st active = (s, []) := by unfold report; rw [if_pos ha]
      show Remembers (report s id st active).1 (ns ++ notes (report s id st active).2)
      rw [this]
      simpa [notes] using h
  | trigger =>
    show Remembers s (ns ++ notes [trigger s])
    have : notes [trigger s] = [] := by
      unfold trigger
      split <;> rfl
    rw [this, List.append_nil]
    exact h
  | update r =>
    show Remembers (update s r).1 (ns ++ notes (update s r).2)
    rw [notes_update, List.append_nil]
    exact ⟨h.status, h.id⟩

theorem remembers_run {s : State} {ns : List (Status × Option Int)} (h : Remembers s ns) (ops : List Op) : Remembers (run s ops).1 (ns ++ notes (run s ops).2) := by
  induction ops generalizing s ns with
  | nil => simpa [run, notes] using h
  | cons o os ih =>
    have := ih (remembers_step h o)
    rw [List.append_assoc, ← notes_append] at this
    exact this

/-! ## C187 -/

theorem noRepeat_concat {ns : List (Status × Option Int)} {x : Status × Option Int} (h : NoRepeat ns) (hx : ns.getLast? ≠ some x) : NoRepeat (ns ++ [x]) := by
  induction ns with
  | nil => trivial
  | cons a r ih =>
    cases r with
    | nil => exact ⟨fun he => hx (by rw [he]; rfl), trivial⟩
    | cons b r => exact ⟨h.1, ih h.2 (by simpa using hx)⟩

/-- The last note, from what is remembered: a note with the same status and id would have been suppressed. -/
theorem last_differs {s : State} {ns : List (Status × Option Int)} (h : Remembers s ns) {id : Int} {st : Status} (ha : alreadySent s id st = false) : ns.getLast? ≠ some (st, requestId id) := by
  intro hl
  have h1 := h.status
  rw [hl] at h1
  have h1 : s.status = st := h1
  unfold alreadySent at ha
  rw [h1] at ha
  simp only [decide_true, Bool.true_and, Bool.or_eq_false_iff, decide_eq_false_iff_not] at ha
  have hid := h.id
  obtain ⟨ns', rfl⟩ := List.getLast?_eq_some_iff.1 hl
  rw [filterMap_ids, if_pos ha.1] at hid
  exact ha.2 hid

/-- C187: in any history, no status is notified twice in a row with the same id, unless it is triggered. (The status InstallScheduled for a running transaction is only sent
after the one it stands for, which is another one: it is never what comes before an installation.) -/
theorem C187_no_repeat (ops : List Op) : NoRepeat (notes (run {} ops).2) := by
  suffices key : ∀ (s : State) (ns : List (Status × Option Int)), Remembers s ns → NoRepeat ns → s.before ≠ .installScheduled → NoRepeat (ns ++ notes (run s ops).2) by
    have := key {} [] ⟨rfl, rfl⟩ trivial (by decide)
    simpa using this
  induction ops with
  | nil => intro s ns _ hn _; simpa [run, notes] using hn
  | cons o os ih =>
    intro s ns hr hn hb
    show NoRepeat (ns ++ notes ((step s o).2 ++ (run (step s o).1 os).2))
    rw [notes_append, ← List.append_assoc]
    refine ih _ _ (remembers_step hr o) ?_ ?_
    · cases o with
      | report id st active =>
        show NoRepeat (ns ++ notes (report s id st active).2)
        cases ha : alreadySent s id st with
        | true =>
          have : report s id st active = (s, []) := by unfold report; rw [if_pos ha]
          rw [this]
          simpa [notes] using hn
        | false =>
          rw [notes_report ha]
          have h1 := noRepeat_concat hn (last_differs hr ha)
          split
          · rename_i hc
            rw [show ns ++ [(st, requestId id), (Status.installScheduled, requestId id)] = (ns ++ [(st, requestId id)]) ++ [(Status.installScheduled, requestId id)] from by simp]
            refine noRepeat_concat h1 ?_
            rw [List.getLast?_concat]
            intro he
            injection he with he
            injection he with he _
            exact hb (hc.1.trans he)
          · exact h1
      | trigger =>
        show NoRepeat (ns ++ notes [trigger s])
        have : notes [trigger s] = [] := by
          unfold trigger
          split <;> rfl
        rw [this, List.append_nil]
        exact hn
      | update r =>
        show NoRepeat (ns ++ notes (update s r).2)
        rw [notes_update, List.append_nil]
        exact hn
    · cases o with
      | report id st active =>
        show (report s id st active).1.before ≠ _
        unfold report
        split <;> exact hb
      | trigger => exact hb
      | update r =>
        show (if r.certificate || r.signature then Status.signatureVerified else Status.downloaded) ≠ _
        split <;> decide

/-- C187: after any history, a status that the application reports is notified with its id, unless it is the last one that was notified, and has the last id or none. -/
theorem C187_sent (ops : List Op) (id : Int) (st : Status) (active : Bool) (h : lastStatus (run {} ops).2 ≠ st ∨ (id ≠ -1 ∧ lastId (run {} ops).2 ≠ some id)) :
    (notes (step (run {} ops).1 (.report id st active)).2).head? = some (st, if id = -1 then none else some id) := by
  have hr := remembers_run (s := {}) (ns := []) ⟨rfl, rfl⟩ ops
  rw [List.nil_append] at hr
  have ha : alreadySent (run {} ops).1 id st = false := by
    unfold alreadySent
    rw [hr.status, hr.id]
    rcases h with h | ⟨h1, h2⟩
    · have : ¬ ((notes (run {} ops).2).getLast?.map (·.1)).getD .idle = st := h
      simp [this]
    · have h2' : ¬ ((notes (run {} ops).2).filterMap (·.2)).getLast? = some id := h2
      simp only [h1, h2', decide_false, Bool.or_false, Bool.and_false]
  show (notes (report _ _ _ _).2).head? = _
  rw [notes_report ha, List.head?_cons]
  unfold requestId
  by_cases h : id = -1 <;> simp [h]

def signedUpdate : List Op := [.update ⟨true, true, true, .accepted⟩, .report 7 .downloading false, .report 7 .downloading false, .report 7 .downloaded false,
  .report 7 .signatureVerified true, .report 7 .installing false]

example : notes (run {} signedUpdate).2 = [(.downloading, some 7), (.downloaded, some 7), (.signatureVerified, some 7), (.installScheduled, some 7), (.installing, some 7)] ∧
    lastStatus (run {} signedUpdate).2 ≠ .installed := by decide

/-! ## C188 -/

/-- C188, partial: after any history, a triggered notification has the last status that was notified, with the last id; or Idle without id if there was none or if it was
Installed or Idle.
Missing: that the id is the one of the status, see `C188_violated`. -/
theorem C188_partial (ops : List Op) : (step (run {} ops).1 .trigger).2 =
    [if lastStatus (run {} ops).2 = .idle ∨ lastStatus (run {} ops).2 = .installed then .triggered .idle none
     else .triggered (lastStatus (run {} ops).2) (lastId (run {} ops).2)] := by
  have hr := remembers_run (s := {}) (ns := []) ⟨rfl, rfl⟩ ops
  rw [List.nil_append] at hr
  show [trigger _] = _
  unfold trigger
  have h1 : (run {} ops).1.status = lastStatus (run {} ops).2 := hr.status
  have h2 : (run {} ops).1.id = lastId (run {} ops).2 := hr.id
  rw [h1, h2]

example : lastStatus (run {} signedUpdate).2 = .installing ∧ lastId (run {} signedUpdate).2 = some 7 := by decide

/-- C188 is violated for statuses that the application reports without an id: the triggered notification has the id of an earlier update. -/
theorem C188_violated : ∃ ops, (notes (run {} ops).2).getLast? = some (.downloading, none) ∧ (step (run {} ops).1 .trigger).2 = [.triggered .downloading (some 1)] :=
  ⟨[.report 1 .downloadFailed false, .report (-1) .downloading false], by decide, by decide⟩

/-! ## C189 -/

/-- The security events of a history. -/
def events (outs : List Out) : List Event := outs.filterMap (fun o => match o with
  | .event e => some e
  | _ => none)

/-- The security events that the notifications and answers of a history require. -/
def required (outs : List Out) : List Event := outs.filterMap (fun o => match o with
  | .note .installed _ => some .updated
  | .note .invalidSignature _ => some .invalidSignature
  | .answer .invalidCertificate => some .invalidCertificate
  | .answer .revokedCertificate => some .invalidCertificate
  | _ => none)

theorem events_append (a b : List Out) : events (a ++ b) = events a ++ events b := by unfold events; rw [List.filterMap_append]

theorem required_append (a b : List Out) : required (a ++ b) = required a ++ required b := by unfold required; rw [List.filterMap_append]

theorem events_installing (s : State) (id : Int) (st : Status) (active : Bool) : events (installing s id st active) = [] ∧ required (installing s id st active) = [] := by
  unfold installing
  split
  · cases active <;> exact ⟨rfl, rfl⟩
  · exact ⟨rfl, rfl⟩

/-- C189: in any history, there is a security event for each notification of Installed and of InvalidSignature and for each answer InvalidCertificate and RevokedCertificate,
in this order, and no other. -/
theorem C189 (s : State) (ops : List Op) : events (run s ops).2 = required (run s ops).2 := by
  induction ops generalizing s with
  | nil => rfl
  | cons o os ih =>
    show events ((step s o).2 ++ _) = required ((step s o).2 ++ _)
    rw [events_append, required_append, ih]
    congr 1
    cases o with
    | report id st active =>
      show events (report s id st active).2 = required (report s id st active).2
      unfold report
      split
      · rfl
      · dsimp only
        rw [events_append, required_append, (events_installing s id st active).1, (events_installing s id st active).2]
        cases st <;> rfl
    | trigger =>
      show events [trigger s] = required [trigger s]
      unfold trigger
      split <;> rfl
    | update r =>
      show events (update s r).2 = required (update s r).2
      unfold update
      dsimp only
      rw [events_append, required_append]
      have h1 : events (answerOf r).1 = [] ∧ required (answerOf r).1 = [] := by
        unfold answerOf
        split <;> exact ⟨rfl, rfl⟩
      rw [h1.1, h1.2]
      cases (answerOf r).2 <;> rfl

example : events (run {} [.update ⟨true, true, false, .accepted⟩, .report 3 .installed false, .report 3 .installed false]).2 = [.invalidCertificate, .updated] := by decide

/-! ## C190 -/

/-- An update that the application takes on. -/
def Op.refused : Op → Bool
  | .update r => (r.certificate && !r.valid) || !(decide (r.app = .accepted) || decide (r.app = .acceptedCanceled))
  | _ => false

/-- The status before the installation: after the last update that was taken on, Downloaded if it has neither certificate nor signature, else SignatureVerified. -/
def awaited : Status → List Op → Status
  | st, [] => st
  | st, .update r :: os => awaited (if Op.refused (.update r) then st else if r.certificate || r.signature then .signatureVerified else .downloaded) os
  | st, _ :: os => awaited st os

theorem before_run (s : State) (ops : List Op) (h : ∀ o ∈ ops, o.refused = false) : (run s ops).1.before = awaited s.before ops := by
  induction ops generalizing s with
  | nil => rfl
  | cons o os ih =>
    show (run (step s o).1 os).1.before = _
    rw [ih _ (fun o ho => h o (List.mem_cons_of_mem _ ho))]
    cases o with
    | report id st active =>
      show awaited (report s id st active).1.before os = awaited s.before os
      have : (report s id st active).1.before = s.before := by
        unfold report
        split <;> rfl
      rw [this]
    | trigger => rfl
    | update r =>
      have hf := h (.update r) (List.mem_cons_self)
      show awaited (update s r).1.before os = awaited (if Op.refused (.update r) then s.before else if r.certificate || r.signature then .signatureVerified else .downloaded) os
      rw [hf]
      rfl

/-- C190, partial: after any history without refused updates, a status makes the connectors unavailable exactly if it is notified and is the one before the installation;
and it restores them exactly if it is notified and is one at which the update has ended. While a transaction is active, InstallScheduled is notified as well.
Missing: histories with refused updates, see `C190_violated`. -/
theorem C190_partial (ops : List Op) (id : Int) (st : Status) (active : Bool) (h : ∀ o ∈ ops, o.refused = false) :
    let outs := (step (run {} ops).1 (.report id st active)).2
    (Out.prepare ∈ outs ↔ (∃ i, Out.note st i ∈ outs) ∧ st = awaited .signatureVerified ops) ∧
      (Out.restore ∈ outs ↔ (∃ i, Out.note st i ∈ outs) ∧ st ∈ [.downloadFailed, .installationFailed, .installed, .installVerificationFailed, .invalidSignature]) ∧
      (Out.prepare ∈ outs → active = true → ∃ i, Out.note .installScheduled i ∈ outs) := by
  have hb : (run {} ops).1.before = awaited .signatureVerified ops := before_run {} ops h
  generalize hs : (run {} ops).1 = s at hb
  dsimp only
  show (Out.prepare ∈ (report s id st active).2 ↔ (∃ i, Out.note st i ∈ (report s id st active).2) ∧ st = awaited .signatureVerified ops) ∧
      (Out.restore ∈ (report s id st active).2 ↔ (∃ i, Out.note st i ∈ (report s id st active).2) ∧
        st ∈ [.downloadFailed, .installationFailed, .installed, .installVerificationFailed, .invalidSignature]) ∧
      (Out.prepare ∈ (report s id st active).2 → active = true → ∃ i, Out.note .installScheduled i ∈ (report s id st active).2)
  rw [← hb]
  unfold report
  split
  · simp
  · dsimp only
    have hn : ∃ i, Out.note st i ∈ Out.note st (requestId id) :: statusEvent st ++ ending st ++ installing s id st active := ⟨requestId id, by simp⟩
    have h1 : Out.prepare ∈ Out.note st (requestId id) :: statusEvent st ++ ending st ++ installing s id st active ↔ s.before = st := by
      simp only [List.cons_append, List.mem_cons, List.mem_append, reduceCtorEq, false_or]
      constructor
      · rintro ((h | h) | h)
        · unfold statusEvent at h; split at h
          · simp at h
          · split at h <;> simp at h
        · unfold ending at h; split at h <;> simp at h
        · unfold installing at h
          split at h
          · assumption
          · cases h
      · intro he
        right
        unfold installing
        rw [if_pos he]
        simp
    have h2 : Out.restore ∈ Out.note st (requestId id) :: statusEvent st ++ ending st ++ installing s id st active ↔ st ∈ endStates := by
      simp only [List.cons_append, List.mem_cons, List.mem_append, reduceCtorEq, false_or]
      constructor
      · rintro ((h | h) | h)
        · unfold statusEvent at h; split at h
          · simp at h
          · split at h <;> simp at h
        · unfold ending at h
          split at h
          · assumption
          · cases h
        · unfold installing at h
          split at h
          · cases active <;> simp at h
          · cases h
      · intro he
        left; right
        unfold ending
        rw [if_pos he]
        simp
    refine ⟨?_, ?_, ?_⟩
    · rw [h1]
      exact ⟨fun h => ⟨hn, h.symm⟩, fun h => h.2.symm⟩
    · rw [h2]
      exact ⟨fun h => ⟨hn, h⟩, fun h => h.2⟩
    · intro hp ha
      refine ⟨requestId id, ?_⟩
      have := h1.1 hp
      simp [installing, this, ha]

example : (∀ o ∈ signedUpdate.take 4, o.refused = false) ∧ awaited .signatureVerified (signedUpdate.take 4) = .signatureVerified ∧
    Out.prepare ∈ (step (run {} (signedUpdate.take 4)).1 (.report 7 .signatureVerified true)).2 := by decide

/-- C190 is violated by a request that is refused while a signed update is running: the connectors become unavailable before the signature is verified, and not when it is. -/
theorem C190_violated : ∃ ops, (∃ o ∈ ops, o.refused = true) ∧ awaited .signatureVerified ops = .signatureVerified ∧
    Out.prepare ∈ (step (run {} ops).1 (.report 7 .downloaded false)).2 ∧
    Out.prepare ∉ (step (run {} (ops ++ [.report 7 .downloaded false])).1 (.report 7 .signatureVerified false)).2 :=
  ⟨[.update ⟨true, true, true, .accepted⟩, .report 7 .downloading false, .update ⟨false, false, true, .rejected⟩], by decide, by decide, by decide, by decide⟩

/-! ## C191 -/

/-- C191: the application is told of an update exactly if it has no certificate or a valid one; the CSMS gets its answer, else InvalidCertificate; and it gets exactly one. -/
theorem C191 (s : State) (r : Request) :
    (Out.asked ∈ (step s (.update r)).2 ↔ (r.certificate = false ∨ r.valid = true)) ∧
      (step s (.update r)).2.filterMap (fun o => match o with
        | .answer a => some a
        | _ => none) = [if r.certificate = false ∨ r.valid = true then r.app else .invalidCertificate] := by
  obtain ⟨c, g, v, a⟩ := r
  cases c <;> cases v <;> cases a <;> exact ⟨by simp [step, update, answerOf], rfl⟩

example : (⟨true, true, true, .accepted⟩ : Request).valid = true := rfl

end Verif.Fw2
