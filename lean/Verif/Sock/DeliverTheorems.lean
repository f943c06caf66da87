import Verif.Sock.Deliver
/-
Theorems about the threads of the websocket: C231 (order of received messages), C232 (queue of received messages),
C233 (deferred callbacks), C234 (destructor).
-/
set_option linter.unusedSimpArgs false
set_option linter.unusedVariables false

namespace Verif.Sock

/-! ## Specification -/

/-- The messages received, in this order. -/
def receivedIn (es : List DlvEvent) : List Text :=
  es.filterMap (fun e => match e with
    | .received m => some m
    | _ => none)

/-- The number of callbacks that are running. -/
def running (d : Delivery) : Nat := (d.readers.filter (fun r => isCalling r.place)).length

/-- The connection is never started again from inside a callback. -/
def Outside (es : List DlvEvent) : Prop := DlvEvent.restartInside ∉ es

/-- The current receiving thread is between `empty()` and `pop()`. -/
def Between (d : Delivery) : Prop := ∃ r, d.readers.getLast? = some r ∧ r.place = .take

/-- The queue is never cleared while the current receiving thread is between `empty()` and `pop()`. -/
def Lucky (d : Delivery) : List DlvEvent → Prop
  | [] => True
  | e :: es => (Between d → e ≠ .cleared ∧ e ≠ .interrupt) ∧ Lucky (dlvStep d e) es

/-! ## Received messages: lemmas -/

/-- What a thread has in its hands. -/
def inHands : ReaderAt → List Text
  | .holding m => [m]
  | _ => []

/-- The threads without restarts from inside: one after the other. -/
structure OneReader (d : Delivery) (old : List Reader) (r : Reader) : Prop where
  all : d.readers = old ++ [r]
  old : ∀ x ∈ old, x.place = .ended

/-- Invariant; `rec` is what has been received. -/
inductive DlvInv (d : Delivery) (rec : List Text) : Prop
  | none (h : d.readers = []) (hs : d.started = []) (hq : d.queue.Sublist rec)
  | one (old : List Reader) (r : Reader) (h : OneReader d old r) (hs : (d.started ++ inHands r.place ++ d.queue).Sublist rec)

theorem interruptLast_append (l : List Reader) (r : Reader) :
    interruptLast (l ++ [r]) = l ++ [{ r with interrupted := true }] := by
  induction l with
  | nil => rfl
  | cons x l ih =>
    cases l with
    | nil => rfl
    | cons y l => simpa [interruptLast] using ih

theorem set_append (l : List Reader) (r x : Reader) : (l ++ [r]).set l.length x = l ++ [x] := by
  induction l with
  | nil => rfl
  | cons y l ih => simp

theorem readerStep_ended (d : Delivery) (i : Nat) (r : Reader) (h : r.place = .ended) : readerStep d i r = d := by
  unfold readerStep; rw [h]

theorem go_one {d : Delivery} {old : List Reader} {r : Reader} (h : OneReader d old r) (p : ReaderAt) :
    OneReader (d.go old.length r p) old { r with place := p } := by
  refine ⟨?_, h.old⟩
  show d.readers.set _ _ = _
  rw [h.all, set_append]

/-- A step of the current thread. -/
theorem step_one {d : Delivery} {old : List Reader} {r : Reader} {rec : List Text} (h : OneReader d old r)
    (hs : (d.started ++ inHands r.place ++ d.queue).Sublist rec) :
    ∃ r', OneReader (readerStep d old.length r) old r' ∧
      ((readerStep d old.length r).started ++ inHands r'.place ++ (readerStep d old.length r).queue).Sublist rec := by
  unfold readerStep
  cases hp : r.place with
  | outer =>
    refine ⟨_, go_one h _, ?_⟩
    rw [hp] at hs
    by_cases hi : r.interrupted = true <;> simpa [hi, inHands, Delivery.go] using hs
  | check =>
    refine ⟨_, go_one h _, ?_⟩
    rw [hp] at hs
    by_cases hi : d.queue.isEmpty = true <;> simpa [hi, inHands, Delivery.go] using hs
  | take =>
    rw [hp] at hs
    simp only [takeMessage]
    cases hq : d.queue with
    | nil =>
      refine ⟨_, ⟨(go_one h .ended).all, h.old⟩, ?_⟩
      simpa [inHands, Delivery.go, hq] using hs
    | cons m l =>
      refine ⟨_, ⟨(go_one h (.holding m)).all, h.old⟩, ?_⟩
      simpa [inHands, Delivery.go, hq] using hs
  | holding m =>
    rw [hp] at hs
    refine ⟨_, ⟨(go_one h (.calling m)).all, h.old⟩, ?_⟩
    simpa [inHands, Delivery.go] using hs
  | calling m =>
    rw [hp] at hs
    refine ⟨_, go_one h _, ?_⟩
    simpa [inHands, Delivery.go] using hs
  | pause =>
    rw [hp] at hs
    refine ⟨_, go_one h _, ?_⟩
    simpa [inHands, Delivery.go] using hs
  | ended =>
    rw [hp] at hs
    exact ⟨r, h, by simpa [hp, inHands] using hs⟩

theorem lastIs_append (p : ReaderAt → Bool) (l : List Reader) (r : Reader) : lastIs p (l ++ [r]) = p r.place := by
  simp [lastIs]

theorem inHands_ended {p : ReaderAt} (h : isEnded p = true) : p = .ended := by
  cases p <;> simp_all [isEnded]

theorem sub_drop {a b c rec : List Text} (h : (a ++ b ++ c).Sublist rec) : (a ++ b ++ []).Sublist rec := by
  refine List.Sublist.trans ?_ h
  simp

theorem inv_dlvStep {d : Delivery} {rec : List Text} (h : DlvInv d rec) (e : DlvEvent) (he : e ≠ .restartInside) :
    DlvInv (dlvStep d e) (rec ++ receivedIn [e]) := by
  cases h with
  | none h hs hq =>
    cases e with
    | received m =>
      refine .none h hs ?_
      have := List.Sublist.append hq (List.Sublist.refl [m])
      simpa [dlvStep, receivedIn] using this
    | cleared => exact .none h hs (by simp [dlvStep])
    | run i =>
      simp only [dlvStep, h, List.getElem?_nil]
      exact .none h hs (by simpa [receivedIn] using hq)
    | interrupt => exact .none (by simp [dlvStep, h, interruptLast]) hs (by simp [dlvStep])
    | start =>
      have : dlvStep d .start = { d with readers := d.readers ++ [{}] } := by simp [dlvStep, startReader, h, lastIs]
      rw [this]
      exact .one [] {} ⟨by simp [h], by simp⟩ (by simpa [hs, inHands, receivedIn] using hq)
    | restartInside => exact absurd rfl he
  | one old r h hs =>
    cases e with
    | received m =>
      refine .one old r ⟨h.all, h.old⟩ ?_
      have := List.Sublist.append hs (List.Sublist.refl [m])
      simpa [dlvStep, receivedIn] using this
    | cleared => exact .one old r ⟨h.all, h.old⟩ (by simpa [dlvStep, receivedIn] using sub_drop hs)
    | run i =>
      have hr : rec ++ receivedIn [.run i] = rec := by simp [receivedIn]
      rw [hr]
      simp only [dlvStep, h.all]
      by_cases hi : i < old.length
      · rw [List.getElem?_append_left hi]
        have := h.old old[i] (List.getElem_mem hi)
        rw [List.getElem?_eq_getElem hi]
        simp only
        rw [readerStep_ended _ _ _ this]
        exact .one old r h hs
      · by_cases hi' : i = old.length
        · subst hi'
          simp only [List.getElem?_concat_length]
          obtain ⟨r', h1, h2⟩ := step_one h hs
          exact .one old r' h1 h2
        · rw [List.getElem?_eq_none (by simp; omega)]
          exact .one old r h hs
    | interrupt =>
      refine .one old { r with interrupted := true } ⟨by simp [dlvStep, h.all, interruptLast_append], h.old⟩ ?_
      simpa [dlvStep, receivedIn] using sub_drop hs
    | start =>
      have hr : rec ++ receivedIn [.start] = rec := by simp [receivedIn]
      rw [hr]
      simp only [dlvStep, startReader, h.all, lastIs_append]
      split
      · rename_i hl
        have hl := inHands_ended hl
        refine .one (old ++ [r]) {} ⟨rfl, ?_⟩ ?_
        · intro x hx
          rcases List.mem_append.mp hx with hx | hx
          · exact h.old x hx
          · simp only [List.mem_singleton] at hx; rw [hx]; exact hl
        · rw [hl] at hs; simpa [inHands] using hs
      · exact .one old r h hs
    | restartInside => exact absurd rfl he

theorem inv_dlvRun (es : List DlvEvent) : ∀ {d : Delivery} {rec : List Text}, DlvInv d rec → Outside es →
    DlvInv (dlvRun d es) (rec ++ receivedIn es) := by
  induction es with
  | nil => intro d rec h _; simpa [dlvRun, receivedIn] using h
  | cons e es ih =>
    intro d rec h ho
    unfold Outside at ho
    simp only [List.mem_cons, not_or] at ho
    have h1 := ih (inv_dlvStep h e (fun hh => ho.1 hh.symm)) ho.2
    have : rec ++ receivedIn [e] ++ receivedIn es = rec ++ receivedIn (e :: es) := by
      rw [List.append_assoc]
      congr 1
      rw [show e :: es = [e] ++ es from rfl]
      simp only [receivedIn, List.filterMap_append]
    rw [this] at h1
    exact h1

theorem inv_dlv (es : List DlvEvent) (h : Outside es) : DlvInv (dlvRun {} es) (receivedIn es) := by
  simpa using inv_dlvRun es (d := {}) (rec := []) (.none rfl rfl (by simp)) h

theorem running_one {d : Delivery} {old : List Reader} {r : Reader} (h : OneReader d old r) : running d ≤ 1 := by
  unfold running
  rw [h.all, List.filter_append]
  have : old.filter (fun r => isCalling r.place) = [] := by
    rw [List.filter_eq_nil_iff]
    intro x hx
    rw [h.old x hx]
    simp [isCalling]
  rw [this]
  simpa using List.length_filter_le (fun r : Reader => isCalling r.place) [r]

/-! ## C231: order of the received messages -/

/-- **C231 (partial).** However the threads interleave, and whatever happens to the connection: the messages are given to
the callback in the order in which they were received, each at most once, one after the other.  Partial: the connection
is not started again from inside a callback (`C231_violated`). -/
theorem C231_partial (es : List DlvEvent) (h : Outside es) :
    (dlvRun {} es).started.Sublist (receivedIn es) ∧ running (dlvRun {} es) ≤ 1 := by
  cases inv_dlv es h with
  | none hr hs hq => exact ⟨by simp [hs], by simp [running, hr]⟩
  | one old r ho hs =>
    refine ⟨List.Sublist.trans ?_ hs, running_one ho⟩
    rw [List.append_assoc]
    exact List.sublist_append_left _ _

/-- A message is handled, the connection is lost and comes back, another one is handled. -/
def exDelivery : List DlvEvent :=
  [.start, .received ['a'], .run 0, .run 0, .run 0, .run 0, .run 0, .cleared, .received ['b'], .received ['c'], .run 0, .run 0, .run 0]

example : Outside exDelivery ∧ (dlvRun {} exDelivery).started = [['a'], ['b']] ∧ running (dlvRun {} exDelivery) = 1 := by
  refine ⟨by unfold Outside; decide, by decide, by decide⟩

/-- **C231 (violated).** A callback starts the connection again, as for a new AuthorizationKey: the old receiving thread goes
on beside the new one.  Two callbacks run at the same time, and messages are handled in another order. -/
theorem C231_violated :
    let es : List DlvEvent := [.start, .received ['a'], .run 0, .run 0, .run 0, .run 0, .restartInside, .received ['b'], .received ['c'],
      .run 0, .run 0, .run 0, .run 1, .run 1, .run 1, .run 1, .run 0]
    (dlvRun {} es).started = [['a'], ['c'], ['b']] ∧ receivedIn es = [['a'], ['b'], ['c']] ∧ running (dlvRun {} es) = 2 := by decide

/-- The current receiving thread makes a number of steps. -/
def runLast (d : Delivery) (n : Nat) : Delivery := dlvRun d (List.replicate n (.run (d.readers.length - 1)))

theorem run_last {d : Delivery} {old : List Reader} {r : Reader} (h : OneReader d old r) :
    dlvStep d (.run (d.readers.length - 1)) = readerStep d old.length r := by
  simp only [dlvStep, h.all]
  simp

theorem runLast_succ {d : Delivery} {old : List Reader} {r r' : Reader} (h : OneReader d old r)
    (h' : OneReader (readerStep d old.length r) old r') (n : Nat) :
    runLast d (n + 1) = runLast (readerStep d old.length r) n := by
  unfold runLast
  rw [List.replicate_succ]
  show dlvRun (dlvStep d _) _ = _
  rw [run_last h, h.all, h'.all]
  simp

/-- The whole queue is handled by a thread that runs on. -/
theorem drain (q : List Text) : ∀ (d : Delivery) (old : List Reader) (r : Reader), OneReader d old r → d.queue = q → r.place = .check →
    d.undefined = false → ∃ n, (runLast d n).started = d.started ++ q ∧ (runLast d n).undefined = false := by
  induction q with
  | nil => intro d old r h hq hp hu; exact ⟨0, by simp [runLast, dlvRun], by simpa [runLast, dlvRun] using hu⟩
  | cons m q ih =>
    intro d old r h hq hp hu
    have e1 : readerStep d old.length r = d.go old.length r .take := by simp [readerStep, hp, hq]
    have h1 : OneReader (d.go old.length r .take) old { r with place := .take } := go_one h _
    have e2 : readerStep (d.go old.length r .take) old.length { r with place := .take } =
        { (d.go old.length r .take).go old.length { r with place := .take } (.holding m) with queue := q } := by
      simp [readerStep, takeMessage, Delivery.go, hq]
    have h2 : OneReader (readerStep (d.go old.length r .take) old.length { r with place := .take }) old { r with place := .holding m } := by
      rw [e2]; exact ⟨(go_one h1 (.holding m)).all, h.old⟩
    obtain ⟨d2, hd2⟩ : ∃ d2, d2 = readerStep (d.go old.length r .take) old.length { r with place := .take } := ⟨_, rfl⟩
    have f2 : d2.started = d.started ∧ d2.queue = q ∧ d2.undefined = false := by
      rw [hd2, e2]; exact ⟨rfl, rfl, hu⟩
    rw [← hd2] at h2
    have e3 : readerStep d2 old.length { r with place := .holding m } =
        { d2.go old.length { r with place := .holding m } (.calling m) with started := d2.started ++ [m] } := rfl
    have h3 : OneReader (readerStep d2 old.length { r with place := .holding m }) old { r with place := .calling m } := by
      rw [e3]; exact ⟨(go_one h2 (.calling m)).all, h.old⟩
    obtain ⟨d3, hd3⟩ : ∃ d3, d3 = readerStep d2 old.length { r with place := .holding m } := ⟨_, rfl⟩
    have f3 : d3.started = d.started ++ [m] ∧ d3.queue = q ∧ d3.undefined = false := by
      rw [hd3, e3]; exact ⟨by simp [f2.1], f2.2.1, f2.2.2⟩
    rw [← hd3] at h3
    have e4 : readerStep d3 old.length { r with place := .calling m } = d3.go old.length { r with place := .calling m } .check := rfl
    have h4 : OneReader (readerStep d3 old.length { r with place := .calling m }) old { r with place := .check } := by
      rw [e4]; exact go_one h3 _
    obtain ⟨n, hn, hu'⟩ := ih (readerStep d3 old.length { r with place := .calling m }) old _ h4 (by rw [e4]; exact f3.2.1) rfl
      (by rw [e4]; exact f3.2.2)
    refine ⟨n + 1 + 1 + 1 + 1, ?_⟩
    rw [runLast_succ h (by rw [e1]; exact h1), e1, runLast_succ h1 (by rw [← hd2]; exact h2), ← hd2, runLast_succ h2 (by rw [← hd3]; exact h3),
      ← hd3, runLast_succ h3 h4]
    refine ⟨?_, hu'⟩
    rw [hn, e4]
    show d3.started ++ q = _
    rw [f3.1]
    simp

/-- Messages that have been received and not been discarded. -/
def waiting (d : Delivery) : List Text :=
  (match d.readers.getLast? with
    | some r => inHands r.place
    | none => []) ++ d.queue

theorem readerStep_length (d : Delivery) (i : Nat) (r : Reader) : (readerStep d i r).readers.length = d.readers.length := by
  unfold readerStep takeMessage Delivery.go
  split <;> try simp
  split <;> simp

theorem run_length (d : Delivery) (i : Nat) : (dlvStep d (.run i)).readers.length = d.readers.length := by
  simp only [dlvStep]
  split
  · rfl
  · exact readerStep_length _ _ _

theorem runLast_add (n : Nat) : ∀ (d : Delivery) (m : Nat), runLast (runLast d n) m = runLast d (n + m) := by
  induction n with
  | zero => intro d m; simp [runLast, dlvRun]
  | succ n ih =>
    intro d m
    have hs : ∀ k, runLast d (k + 1) = runLast (dlvStep d (.run (d.readers.length - 1))) k := by
      intro k
      unfold runLast
      rw [List.replicate_succ, run_length]
      rfl
    rw [hs, ih, show n + 1 + m = (n + m) + 1 by omega, hs]

theorem runLast_one {d : Delivery} {old : List Reader} {r : Reader} (h : OneReader d old r) :
    runLast d 1 = readerStep d old.length r := by
  rw [← run_last h]
  rfl

/-- The thread gets to the test of the queue with nothing in its hands. -/
theorem toCheck {d : Delivery} {old : List Reader} {r : Reader} (h : OneReader d old r) (hi : r.interrupted = false)
    (he : r.place ≠ .ended) (hu : d.undefined = false) (ht : r.place = .take → d.queue ≠ []) :
    ∃ n r', OneReader (runLast d n) old r' ∧ r'.place = .check ∧
      (runLast d n).started ++ (runLast d n).queue = d.started ++ inHands r.place ++ d.queue ∧ (runLast d n).undefined = false := by
  have outer : ∀ (d : Delivery) (r : Reader), OneReader d old r → r.interrupted = false → d.undefined = false → r.place = .outer →
      ∃ n r', OneReader (runLast d n) old r' ∧ r'.place = .check ∧
        (runLast d n).started ++ (runLast d n).queue = d.started ++ d.queue ∧ (runLast d n).undefined = false := by
    intro d r h hi hu hp
    have e : readerStep d old.length r = d.go old.length r .check := by simp [readerStep, hp, hi]
    refine ⟨1, { r with place := .check }, ?_, rfl, ?_, ?_⟩
    · rw [runLast_one h, e]; exact go_one h _
    · rw [runLast_one h, e]; rfl
    · rw [runLast_one h, e]; exact hu
  have calling : ∀ (d : Delivery) (r : Reader) (m : Text), OneReader d old r → d.undefined = false → r.place = .calling m →
      ∃ n r', OneReader (runLast d n) old r' ∧ r'.place = .check ∧
        (runLast d n).started ++ (runLast d n).queue = d.started ++ d.queue ∧ (runLast d n).undefined = false := by
    intro d r m h hu hp
    have e : readerStep d old.length r = d.go old.length r .check := by simp [readerStep, hp]
    refine ⟨1, { r with place := .check }, ?_, rfl, ?_, ?_⟩
    · rw [runLast_one h, e]; exact go_one h _
    · rw [runLast_one h, e]; rfl
    · rw [runLast_one h, e]; exact hu
  have holding : ∀ (d : Delivery) (r : Reader) (m : Text), OneReader d old r → d.undefined = false → r.place = .holding m →
      ∃ n r', OneReader (runLast d n) old r' ∧ r'.place = .check ∧
        (runLast d n).started ++ (runLast d n).queue = d.started ++ [m] ++ d.queue ∧ (runLast d n).undefined = false := by
    intro d r m h hu hp
    have e : runLast d 1 = { d.go old.length r (.calling m) with started := d.started ++ [m] } := by
      rw [runLast_one h]; simp [readerStep, hp]
    have h1 : OneReader (runLast d 1) old { r with place := .calling m } := by
      rw [e]; exact ⟨(go_one h (.calling m)).all, h.old⟩
    obtain ⟨n, r', a, b, c, f⟩ := calling (runLast d 1) _ m h1 (by rw [e]; exact hu) rfl
    rw [runLast_add] at a c f
    refine ⟨1 + n, r', a, b, ?_, f⟩
    rw [c, e]
    rfl
  cases hp : r.place with
  | outer =>
    obtain ⟨n, r', a, b, c, f⟩ := outer d r h hi hu hp
    exact ⟨n, r', a, b, by simpa [inHands] using c, f⟩
  | check => exact ⟨0, r, h, hp, by simp [runLast, dlvRun, inHands], hu⟩
  | take =>
    obtain ⟨m, l, hq⟩ := List.exists_cons_of_ne_nil (ht hp)
    have e : runLast d 1 = { d.go old.length r (.holding m) with queue := l } := by
      rw [runLast_one h]; simp [readerStep, hp, takeMessage, hq]
    have h1 : OneReader (runLast d 1) old { r with place := .holding m } := by
      rw [e]; exact ⟨(go_one h (.holding m)).all, h.old⟩
    obtain ⟨n, r', a, b, c, f⟩ := holding (runLast d 1) _ m h1 (by rw [e]; exact hu) rfl
    rw [runLast_add] at a c f
    refine ⟨1 + n, r', a, b, ?_, f⟩
    rw [c, e, hq]
    simp [inHands, Delivery.go]
  | holding m => exact holding d r m h hu hp
  | calling m =>
    obtain ⟨n, r', a, b, c, f⟩ := calling d r m h hu hp
    exact ⟨n, r', a, b, by simpa [inHands] using c, f⟩
  | pause =>
    have e : runLast d 1 = d.go old.length r .outer := by
      rw [runLast_one h]; simp [readerStep, hp]
    have h1 : OneReader (runLast d 1) old { r with place := .outer } := by rw [e]; exact go_one h _
    obtain ⟨n, r', a, b, c, f⟩ := outer (runLast d 1) _ h1 hi (by rw [e]; exact hu) rfl
    rw [runLast_add] at a c f
    refine ⟨1 + n, r', a, b, ?_, f⟩
    rw [c, e]
    simp [inHands, Delivery.go]
  | ended => exact absurd hp he

/-! ## C232: the queue of received messages -/

/-- Nothing undefined happened, and the queue is not empty when the current thread takes from it. -/
def Safe (d : Delivery) : Prop := d.undefined = false ∧ (Between d → d.queue ≠ [])

theorem between_one {d : Delivery} {old : List Reader} {r : Reader} (h : OneReader d old r) : Between d ↔ r.place = .take := by
  unfold Between
  rw [h.all]
  simp

theorem safe_step {d : Delivery} {rec : List Text} (hinv : DlvInv d rec) (hs : Safe d) (e : DlvEvent) (he : e ≠ .restartInside)
    (hl : Between d → e ≠ .cleared ∧ e ≠ .interrupt) : Safe (dlvStep d e) := by
  cases hinv with
  | none h hst hq =>
    have nb : ∀ d : Delivery, d.readers = [] → ¬ Between d := by
      rintro d h ⟨r, hr, _⟩; rw [h] at hr; simp at hr
    cases e with
    | received m => exact ⟨hs.1, fun hb => absurd hb (nb _ h)⟩
    | cleared => exact ⟨hs.1, fun hb => absurd hb (nb _ h)⟩
    | run i => simp only [dlvStep, h, List.getElem?_nil]; exact hs
    | interrupt => exact ⟨hs.1, fun hb => absurd hb (nb _ (by simp [dlvStep, h, interruptLast]))⟩
    | start =>
      have : dlvStep d .start = { d with readers := d.readers ++ [{}] } := by simp [dlvStep, startReader, h, lastIs]
      rw [this]
      refine ⟨hs.1, ?_⟩
      rintro ⟨r, hr, hp⟩
      simp only [List.getLast?_append, List.getLast?_singleton, Option.some_or, Option.some.injEq] at hr
      rw [← hr] at hp
      cases hp
    | restartInside => exact absurd rfl he
  | one old r h hst =>
    rw [between_one h] at hl
    have ht : r.place = .take → d.queue ≠ [] := fun hh => hs.2 ((between_one h).mpr hh)
    cases e with
    | received m => exact ⟨hs.1, fun _ => by simp [dlvStep]⟩
    | cleared =>
      refine ⟨hs.1, fun hb => ?_⟩
      have h' : OneReader (dlvStep d .cleared) old r := ⟨h.all, h.old⟩
      exact absurd rfl (hl ((between_one h').mp hb)).1
    | run i =>
      simp only [dlvStep, h.all]
      by_cases hi : i < old.length
      · rw [List.getElem?_append_left hi]
        have := h.old old[i] (List.getElem_mem hi)
        rw [List.getElem?_eq_getElem hi]
        simp only
        rw [readerStep_ended _ _ _ this]
        exact hs
      · by_cases hi' : i = old.length
        · subst hi'
          simp only [List.getElem?_concat_length]
          unfold readerStep
          cases hp : r.place with
          | outer =>
            refine ⟨hs.1, fun hb => ?_⟩
            rw [between_one (go_one h _)] at hb
            by_cases hii : r.interrupted = true <;> simp [hii] at hb
          | check =>
            refine ⟨hs.1, fun hb => ?_⟩
            rw [between_one (go_one h _)] at hb
            show d.queue ≠ []
            intro hq
            simp [hq] at hb
          | take =>
            obtain ⟨m, l, hq⟩ := List.exists_cons_of_ne_nil (ht hp)
            simp only [takeMessage, hq]
            refine ⟨hs.1, fun hb => ?_⟩
            have h' : OneReader { d.go old.length r (.holding m) with queue := l } old { r with place := .holding m } :=
              ⟨(go_one h _).all, h.old⟩
            have := (between_one h').mp hb
            cases this
          | holding m =>
            refine ⟨hs.1, fun hb => ?_⟩
            have h' : OneReader { d.go old.length r (.calling m) with started := d.started ++ [m] } old { r with place := .calling m } :=
              ⟨(go_one h _).all, h.old⟩
            have := (between_one h').mp hb
            cases this
          | calling m =>
            refine ⟨hs.1, fun hb => ?_⟩
            have := (between_one (go_one h _)).mp hb
            cases this
          | pause =>
            refine ⟨hs.1, fun hb => ?_⟩
            have := (between_one (go_one h _)).mp hb
            cases this
          | ended => exact hs
        · rw [List.getElem?_eq_none (by simp; omega)]
          exact hs
    | interrupt =>
      refine ⟨hs.1, fun hb => ?_⟩
      have h' : OneReader (dlvStep d .interrupt) old { r with interrupted := true } :=
        ⟨by simp [dlvStep, h.all, interruptLast_append], h.old⟩
      exact absurd rfl (hl ((between_one h').mp hb)).2
    | start =>
      simp only [dlvStep, startReader, h.all, lastIs_append]
      split
      · refine ⟨hs.1, ?_⟩
        rintro ⟨x, hx, hp⟩
        simp only [List.getLast?_append, List.getLast?_singleton, Option.some_or, Option.some.injEq] at hx
        rw [← hx] at hp
        cases hp
      · exact hs
    | restartInside => exact absurd rfl he

theorem safe_run (es : List DlvEvent) : ∀ {d : Delivery} {rec : List Text}, DlvInv d rec → Safe d → Outside es → Lucky d es →
    Safe (dlvRun d es) := by
  induction es with
  | nil => intro d rec _ hs _ _; exact hs
  | cons e es ih =>
    intro d rec h hs ho hl
    unfold Outside at ho
    simp only [List.mem_cons, not_or] at ho
    exact ih (inv_dlvStep h e (fun hh => ho.1 hh.symm)) (safe_step h hs e (fun hh => ho.1 hh.symm) hl.1) ho.2 hl.2

theorem safe_all (es : List DlvEvent) (h : Outside es) (hl : Lucky {} es) : Safe (dlvRun {} es) := by
  refine safe_run es (rec := []) (.none rfl rfl (by simp)) ⟨rfl, ?_⟩ h hl
  rintro ⟨r, hr, _⟩
  cases hr

/-- **C232 (partial).** Handing over received messages never reads from an empty queue, as long as the queue is not cleared
just after the thread found it not empty, and the connection is not started again from inside a callback. -/
theorem C232_partial (es : List DlvEvent) (h : Outside es) (hl : Lucky {} es) : (dlvRun {} es).undefined = false :=
  (safe_all es h hl).1

instance (d : Delivery) : Decidable (Between d) :=
  match h : d.readers.getLast? with
  | none => isFalse (by rintro ⟨r, hr, _⟩; rw [h] at hr; cases hr)
  | some r =>
    if hp : r.place = .take then isTrue ⟨r, h, hp⟩
    else isFalse (by rintro ⟨x, hx, hy⟩; rw [h] at hx; injection hx with hx; subst hx; exact hp hy)

instance decLucky : (d : Delivery) → (es : List DlvEvent) → Decidable (Lucky d es)
  | _, [] => isTrue trivial
  | d, e :: es =>
    have := decLucky (dlvStep d e) es
    inferInstanceAs (Decidable (_ ∧ _))

example : Outside exDelivery ∧ Lucky {} exDelivery := ⟨by unfold Outside; decide, by decide⟩

/-- **C232 (violated).** The connection is lost just after the thread found a message: it takes the first element of a queue
that has been cleared, which is undefined behaviour.  No callback starts the connection again. -/
theorem C232_violated :
    let es : List DlvEvent := [.start, .received ['a'], .run 0, .run 0, .cleared, .run 0]
    Outside es ∧ (dlvRun {} es).undefined = true := ⟨by unfold Outside; decide, by decide⟩

/-- **C231 (progress).** In every such history, as long as the current receiving thread has not ended and not been told to
end, everything received and not discarded is given to the callback, in order, when it runs on. -/
theorem C231_progress_partial (es : List DlvEvent) (h : Outside es) (hl : Lucky {} es) (r : Reader)
    (hr : (dlvRun {} es).readers.getLast? = some r) (hi : r.interrupted = false) (he : r.place ≠ .ended) :
    ∃ n, (runLast (dlvRun {} es) n).started = (dlvRun {} es).started ++ waiting (dlvRun {} es) := by
  have hs := safe_all es h hl
  obtain ⟨d, hd⟩ : ∃ d, d = dlvRun {} es := ⟨_, rfl⟩
  rw [← hd] at hr hs ⊢
  cases hd ▸ inv_dlv es h with
  | none hn _ _ => rw [hn] at hr; cases hr
  | one old x ho _ =>
    have hx : x = r := by
      rw [ho.all] at hr
      simpa using hr
    subst hx
    obtain ⟨n, r', a, b, c, f⟩ := toCheck ho hi he hs.1 (fun ht => hs.2 ((between_one ho).mpr ht))
    obtain ⟨m, hm, _⟩ := drain _ _ old r' a rfl b f
    rw [runLast_add] at hm
    refine ⟨n + m, ?_⟩
    rw [hm, c]
    simp [waiting, ho.all]

example : ∃ r, (dlvRun {} exDelivery).readers.getLast? = some r ∧ r.interrupted = false ∧ r.place ≠ .ended ∧
    waiting (dlvRun {} exDelivery) = [['c']] := ⟨⟨.calling ['b'], false⟩, by decide, rfl, by decide, by decide⟩

/-- The queue is never cleared. -/
def Unbroken (es : List DlvEvent) : Prop := ∀ e ∈ es, e ≠ .cleared ∧ e ≠ .interrupt ∧ e ≠ .restartInside

theorem step_all {d : Delivery} {old : List Reader} {r : Reader} (h : OneReader d old r) :
    ∃ r', OneReader (readerStep d old.length r) old r' ∧
      (readerStep d old.length r).started ++ inHands r'.place ++ (readerStep d old.length r).queue =
        d.started ++ inHands r.place ++ d.queue := by
  unfold readerStep
  cases hp : r.place with
  | outer =>
    refine ⟨_, go_one h _, ?_⟩
    by_cases hi : r.interrupted = true <;> simp [hi, inHands, Delivery.go]
  | check =>
    refine ⟨_, go_one h _, ?_⟩
    by_cases hi : d.queue.isEmpty = true <;> simp [hi, inHands, Delivery.go]
  | take =>
    simp only [takeMessage]
    cases hq : d.queue with
    | nil =>
      refine ⟨_, ⟨(go_one h .ended).all, h.old⟩, ?_⟩
      simp [inHands, Delivery.go, hq]
    | cons m l =>
      refine ⟨_, ⟨(go_one h (.holding m)).all, h.old⟩, ?_⟩
      simp [inHands, Delivery.go]
  | holding m =>
    refine ⟨_, ⟨(go_one h (.calling m)).all, h.old⟩, ?_⟩
    simp [inHands, Delivery.go]
  | calling m => exact ⟨_, go_one h _, by simp [inHands, Delivery.go]⟩
  | pause => exact ⟨_, go_one h _, by simp [inHands, Delivery.go]⟩
  | ended => exact ⟨r, h, by simp [hp, inHands]⟩

/-- Nothing gets lost. -/
inductive AllInv (d : Delivery) (rec : List Text) : Prop
  | none (h : d.readers = []) (hs : d.started = []) (hq : d.queue = rec)
  | one (old : List Reader) (r : Reader) (h : OneReader d old r) (hs : d.started ++ inHands r.place ++ d.queue = rec)

theorem all_step {d : Delivery} {rec : List Text} (h : AllInv d rec) (e : DlvEvent)
    (he : e ≠ .cleared ∧ e ≠ .interrupt ∧ e ≠ .restartInside) : AllInv (dlvStep d e) (rec ++ receivedIn [e]) := by
  cases h with
  | none h hs hq =>
    cases e with
    | received m => exact .none h hs (by simp [dlvStep, receivedIn, hq])
    | run i =>
      simp only [dlvStep, h, List.getElem?_nil]
      exact .none h hs (by simpa [receivedIn] using hq)
    | start =>
      have : dlvStep d .start = { d with readers := d.readers ++ [{}] } := by simp [dlvStep, startReader, h, lastIs]
      rw [this]
      exact .one [] {} ⟨by simp [h], by simp⟩ (by simpa [hs, inHands, receivedIn] using hq)
    | cleared => exact absurd rfl he.1
    | interrupt => exact absurd rfl he.2.1
    | restartInside => exact absurd rfl he.2.2
  | one old r h hs =>
    cases e with
    | received m =>
      refine .one old r ⟨h.all, h.old⟩ ?_
      rw [← hs]
      simp [dlvStep, receivedIn]
    | run i =>
      have hr : rec ++ receivedIn [.run i] = rec := by simp [receivedIn]
      rw [hr]
      simp only [dlvStep, h.all]
      by_cases hi : i < old.length
      · rw [List.getElem?_append_left hi]
        have := h.old old[i] (List.getElem_mem hi)
        rw [List.getElem?_eq_getElem hi]
        simp only
        rw [readerStep_ended _ _ _ this]
        exact .one old r h hs
      · by_cases hi' : i = old.length
        · subst hi'
          simp only [List.getElem?_concat_length]
          obtain ⟨r', h1, h2⟩ := step_all h
          exact .one old r' h1 (h2.trans hs)
        · rw [List.getElem?_eq_none (by simp; omega)]
          exact .one old r h hs
    | start =>
      have hr : rec ++ receivedIn [.start] = rec := by simp [receivedIn]
      rw [hr]
      simp only [dlvStep, startReader, h.all, lastIs_append]
      split
      · rename_i hl
        have hl := inHands_ended hl
        refine .one (old ++ [r]) {} ⟨rfl, ?_⟩ ?_
        · intro x hx
          rcases List.mem_append.mp hx with hx | hx
          · exact h.old x hx
          · simp only [List.mem_singleton] at hx; rw [hx]; exact hl
        · rw [hl] at hs; simpa [inHands] using hs
      · exact .one old r h hs
    | cleared => exact absurd rfl he.1
    | interrupt => exact absurd rfl he.2.1
    | restartInside => exact absurd rfl he.2.2

theorem all_run (es : List DlvEvent) : ∀ {d : Delivery} {rec : List Text}, AllInv d rec → Unbroken es →
    AllInv (dlvRun d es) (rec ++ receivedIn es) := by
  induction es with
  | nil => intro d rec h _; simpa [dlvRun, receivedIn] using h
  | cons e es ih =>
    intro d rec h ho
    have h1 := ih (all_step h e (ho e (by simp))) (fun x hx => ho x (by simp [hx]))
    have : rec ++ receivedIn [e] ++ receivedIn es = rec ++ receivedIn (e :: es) := by
      rw [List.append_assoc]
      congr 1
      rw [show e :: es = [e] ++ es from rfl]
      simp only [receivedIn, List.filterMap_append]
    rw [this] at h1
    exact h1

/-- **C231 (nothing lost).** As long as the connection stays up, the messages given to the callback and those still waiting
are exactly the received ones. -/
theorem C231_complete_partial (es : List DlvEvent) (h : Unbroken es) :
    (dlvRun {} es).started ++ waiting (dlvRun {} es) = receivedIn es := by
  cases all_run es (d := {}) (rec := []) (.none rfl rfl rfl) h with
  | none hr hs hq => simp only [waiting, hr, hs]; simpa using hq
  | one old r ho hs =>
    simp only [waiting, ho.all, List.getLast?_append, List.getLast?_singleton, Option.some_or]
    simpa using hs

example : Unbroken [.start, .received ['a'], .run 0, .received ['b'], .run 0, .run 0, .run 0] ∧
    (dlvRun {} [.start, .received ['a'], .run 0, .received ['b'], .run 0, .run 0, .run 0]).started = [['a']] :=
  ⟨by unfold Unbroken; decide, by decide⟩

/-! ## C233: deferred callbacks -/

def inHand : WorkerAt → List Nat
  | .holding c => [c]
  | _ => []

structure DefInv (d : Deferred) : Prop where
  all : d.started ++ inHand d.place ++ d.queue = d.pushed
  fine : d.undefined = false
  check : d.place = .check → d.queue ≠ [] ∨ d.stop = true
  take : d.place = .take → d.queue ≠ []

theorem inHand_woken (p : WorkerAt) : inHand (woken p) = inHand p := by cases p <;> rfl

theorem woken_check {p : WorkerAt} (h : woken p = .check) : p = .check := by cases p <;> simp_all [woken]

theorem woken_take {p : WorkerAt} (h : woken p = .take) : p = .take := by cases p <;> simp_all [woken]

theorem inv_defStep {d : Deferred} (h : DefInv d) (e : DefEvent) : DefInv (defStep d e) := by
  cases e with
  | push c =>
    simp only [defStep, pushCallback]
    split
    · exact h
    · refine ⟨?_, h.fine, fun _ => .inl (by simp), fun _ => by simp⟩
      show d.started ++ inHand (woken d.place) ++ (d.queue ++ [c]) = d.pushed ++ [c]
      rw [inHand_woken, ← h.all]
      simp
  | run =>
    simp only [defStep, workerStep]
    cases hp : d.place with
    | test =>
      have ha := h.all
      rw [hp] at ha
      by_cases hc : (!d.queue.isEmpty || d.stop) = true
      · refine ⟨by simpa [hc, inHand] using ha, h.fine, fun _ => ?_, (fun hh => by simp [hc] at hh)⟩
        by_cases hq : d.queue = []
        · right; simpa [hq] using hc
        · exact .inl hq
      · exact ⟨by simpa [hc, inHand] using ha, h.fine, (fun hh => by simp [hc] at hh), (fun hh => by simp [hc] at hh)⟩
    | drowsy =>
      have ha := h.all
      rw [hp] at ha
      exact ⟨ha, h.fine, (fun hh => by cases hh), (fun hh => by cases hh)⟩
    | asleep => simpa [hp] using h
    | check =>
      have ha := h.all
      rw [hp] at ha
      have hc := h.check hp
      by_cases he : (d.stop && d.queue.isEmpty) = true
      · exact ⟨by simpa [he, inHand] using ha, h.fine, (fun hh => by simp [he] at hh), (fun hh => by simp [he] at hh)⟩
      · refine ⟨by simpa [he, inHand] using ha, h.fine, (fun hh => by simp [he] at hh), fun _ => ?_⟩
        rcases hc with hc | hc
        · exact hc
        · intro hq
          rw [hc, show d.queue = [] from hq] at he
          simp at he
    | take =>
      have ha := h.all
      rw [hp] at ha
      obtain ⟨c, l, hq⟩ := List.exists_cons_of_ne_nil (h.take hp)
      simp only [takeCallback, hq]
      rw [hq] at ha
      exact ⟨by simpa [inHand] using ha, h.fine, (fun hh => by cases hh), (fun hh => by cases hh)⟩
    | holding c =>
      have ha := h.all
      rw [hp] at ha
      exact ⟨by simpa [inHand] using ha, h.fine, (fun hh => by cases hh), (fun hh => by cases hh)⟩
    | calling c =>
      have ha := h.all
      rw [hp] at ha
      exact ⟨by simpa [inHand] using ha, h.fine, (fun hh => by cases hh), (fun hh => by cases hh)⟩
    | ended => simpa [hp] using h
  | wake =>
    exact ⟨by simpa [defStep, inHand_woken] using h.all, h.fine, fun hh => h.check (woken_check hh), fun hh => h.take (woken_take hh)⟩
  | stop => exact ⟨h.all, h.fine, fun _ => .inr rfl, h.take⟩
  | notify =>
    exact ⟨by simpa [defStep, inHand_woken] using h.all, h.fine, fun hh => h.check (woken_check hh), fun hh => h.take (woken_take hh)⟩

theorem inv_defRun (es : List DefEvent) : ∀ {d : Deferred}, DefInv d → DefInv (defRun d es) := by
  induction es with
  | nil => intro d h; exact h
  | cons e es ih => intro d h; exact ih (inv_defStep h e)

theorem inv_def (es : List DefEvent) : DefInv (defRun {} es) :=
  inv_defRun es ⟨rfl, rfl, (fun h => by cases h), (fun h => by cases h)⟩

/-- **C233.** However the threads interleave: the deferred callbacks that have been called are the first ones of those that
were pushed, in this order, each once, and never is a callback taken from an empty queue. -/
theorem C233_order (es : List DefEvent) :
    (defRun {} es).started <+: (defRun {} es).pushed ∧ (defRun {} es).undefined = false := by
  have h := inv_def es
  refine ⟨?_, h.fine⟩
  rw [← h.all, List.append_assoc]
  exact List.prefix_append _ _

/-- **C233.** At the moment the thread ends, every callback pushed so far has been called. -/
theorem C233_complete (es : List DefEvent) (e : DefEvent) (h0 : (defRun {} es).place ≠ .ended)
    (h1 : (defStep (defRun {} es) e).place = .ended) :
    (defStep (defRun {} es) e).started = (defStep (defRun {} es) e).pushed := by
  have hi := inv_defStep (inv_def es) e
  have ha := hi.all
  rw [h1] at ha
  suffices hq : (defStep (defRun {} es) e).queue = [] by
    rw [hq] at ha; simpa [inHand] using ha
  obtain ⟨d, hd⟩ : ∃ d, d = defRun {} es := ⟨_, rfl⟩
  have hinv : DefInv d := hd ▸ inv_def es
  rw [← hd] at h0 h1 hi ha ⊢
  have nw : ∀ p : WorkerAt, woken p = .ended → p = .ended := by intro p hp; cases p <;> simp_all [woken]
  cases e with
  | push c =>
    simp only [defStep, pushCallback] at h1
    split at h1
    · exact absurd h1 h0
    · exact absurd (nw _ h1) h0
  | run =>
    simp only [defStep, workerStep] at h1 ⊢
    cases hp : d.place with
    | test => rw [hp] at h1; simp only at h1; split at h1 <;> cases h1
    | drowsy => rw [hp] at h1; cases h1
    | asleep => rw [hp] at h1; exact absurd h1 h0
    | check =>
      rw [hp] at h1
      simp only at h1 ⊢
      split at h1
      · rename_i hc
        simpa using (by simpa using hc : d.stop = true ∧ d.queue = []).2
      · cases h1
    | take =>
      rw [hp] at h1
      obtain ⟨c, l, hq⟩ := List.exists_cons_of_ne_nil (hinv.take hp)
      simp only [takeCallback, hq] at h1
      cases h1
    | holding c => rw [hp] at h1; cases h1
    | calling c => rw [hp] at h1; cases h1
    | ended => exact absurd hp h0
  | wake => exact absurd (nw _ h1) h0
  | stop => exact absurd h1 h0
  | notify => exact absurd (nw _ h1) h0

/-- Two callbacks, one of them pushed while the thread sleeps, then the destructor. -/
def exDeferred : List DefEvent :=
  [.run, .run, .push 1, .push 2, .run, .run, .run, .run, .run, .stop, .notify, .run, .run, .run, .run, .run, .run]

example : (defRun {} exDeferred).place ≠ .ended ∧ (defStep (defRun {} exDeferred) .run).place = .ended ∧
    (defStep (defRun {} exDeferred) .run).started = [1, 2] := by decide

/-! ## C234: the destructor -/

theorem run_add (d : Deferred) (n m : Nat) :
    defRun (defRun d (List.replicate n .run)) (List.replicate m .run) = defRun d (List.replicate (n + m) .run) := by
  unfold defRun
  rw [← List.foldl_append, List.replicate_append_replicate]

/-- With the stop flag set a thread that is not about to sleep ends. -/
theorem ends_test (q : List Nat) : ∀ d : Deferred, d.queue = q → d.stop = true → d.place = .test →
    ∃ n, (defRun d (List.replicate n .run)).place = .ended := by
  induction q with
  | nil =>
    intro d hq hs hp
    refine ⟨2, ?_⟩
    simp [defRun, List.replicate, defStep, workerStep, hp, hs, hq]
  | cons c q ih =>
    intro d hq hs hp
    have e : defRun d (List.replicate 5 .run) = { d with queue := q, place := .test, started := d.started ++ [c] } := by
      simp [defRun, List.replicate, defStep, workerStep, takeCallback, hp, hs, hq]
    obtain ⟨n, hn⟩ := ih (defRun d (List.replicate 5 .run)) (by rw [e]) (by rw [e]; exact hs) (by rw [e])
    exact ⟨5 + n, by rw [← run_add]; exact hn⟩

/-- **C234 (partial).** Whatever happened before: when the destructor stops the thread of the deferred callbacks, the thread
ends after finitely many steps (and has then called every callback, C233), so that the destructor returns.  Partial: the
thread is not just between its test of the flag and its sleep (`C234_violated`). -/
theorem C234_partial (es : List DefEvent) (h : (defRun {} es).place ≠ .drowsy) :
    ∃ n, (defRun {} (es ++ [.stop, .notify] ++ List.replicate n .run)).place = .ended := by
  have hr : ∀ n, defRun {} (es ++ [.stop, .notify] ++ List.replicate n .run) =
      defRun (defStep (defStep (defRun {} es) .stop) .notify) (List.replicate n .run) := by
    intro n; simp [defRun]
  simp only [hr]
  obtain ⟨d, hd⟩ : ∃ d, d = defStep (defStep (defRun {} es) .stop) .notify := ⟨_, rfl⟩
  have hinv : DefInv d := by rw [hd]; exact inv_defStep (inv_defStep (inv_def es) _) _
  have hs : d.stop = true := by rw [hd]; rfl
  have hn : d.place ≠ .drowsy ∧ d.place ≠ .asleep := by
    rw [hd]
    show woken (defRun {} es).place ≠ _ ∧ woken (defRun {} es).place ≠ _
    cases hp : (defRun {} es).place <;> simp_all [woken]
  rw [← hd]
  have key : ∀ k, (defRun d (List.replicate k .run)).place = .test → (defRun d (List.replicate k .run)).stop = true →
      ∃ n, (defRun d (List.replicate n .run)).place = .ended := by
    intro k h1 h2
    obtain ⟨n, hn⟩ := ends_test _ _ rfl h2 h1
    exact ⟨k + n, by rw [← run_add]; exact hn⟩
  cases hp : d.place with
  | test => exact key 0 hp hs
  | drowsy => exact absurd hp hn.1
  | asleep => exact absurd hp hn.2
  | check =>
    by_cases hq : d.queue = []
    · exact ⟨1, by simp [defRun, List.replicate, defStep, workerStep, hp, hs, hq]⟩
    · obtain ⟨c, l, hq⟩ := List.exists_cons_of_ne_nil hq
      refine key 4 ?_ ?_ <;> simp [defRun, List.replicate, defStep, workerStep, takeCallback, hp, hs, hq]
  | take =>
    obtain ⟨c, l, hq⟩ := List.exists_cons_of_ne_nil (hinv.take hp)
    refine key 3 ?_ ?_ <;> simp [defRun, List.replicate, defStep, workerStep, takeCallback, hp, hs, hq]
  | holding c => refine key 2 ?_ ?_ <;> simp [defRun, List.replicate, defStep, workerStep, hp, hs]
  | calling c => refine key 1 ?_ ?_ <;> simp [defRun, List.replicate, defStep, workerStep, hp, hs]
  | ended => exact ⟨0, hp⟩

example : (defRun {} [.run, .run, .push 1, .run]).place = .check := by decide

/-- **C234 (violated).** The flag is set and the thread notified just after it has tested the flag and before it sleeps: the
notification is lost, the thread sleeps for ever, and the destructor does not return. -/
theorem C234_violated (n : Nat) :
    (defRun {} ([.run] ++ [.stop, .notify] ++ List.replicate n .run)).place ≠ .ended := by
  have : ∀ m, defRun { stop := true, place := .asleep } (List.replicate m .run) = { stop := true, place := .asleep } := by
    intro m
    induction m with
    | zero => rfl
    | succ m ih => rw [List.replicate_succ]; exact ih
  cases n with
  | zero => decide
  | succ n =>
    have e : defRun {} ([.run] ++ [.stop, .notify] ++ List.replicate (n + 1) .run) =
        defRun { stop := true, place := .asleep } (List.replicate n .run) := by
      rw [List.replicate_succ]; rfl
    rw [e, this]
    decide

end Verif.Sock
