/-! Stopping the message queue: the worker thread and `MessageQueue::stop` (`include/ocpp/common/message_queue.hpp` l.417-555, l.922-930), `ChargePoint::start` and `stop`
(`lib/ocpp/v2/charge_point.cpp` l.119-172), step by step and in every interleaving. -/

namespace Verif.MQ.Stopping

/-! ## Model -/

/-- Where the worker is (l.420-553): before `while (this->running)`, before the lock, before it evaluates the predicate, before it blocks because the predicate was false,
blocked, after the wait, at its end. It holds the mutex in `test`, `block` and `work`. -/
inductive Worker
  | loop
  | lock
  | test
  | block
  | blocked
  | work
  | ended
  deriving DecidableEq, Repr

/-- Where the call of `stop` is (l.922-930): not called, `running` is false, notified and joining, returned. -/
inductive Stopper
  | idle
  | cleared
  | joining
  | returned
  deriving DecidableEq, Repr

/-- `ready`: `!paused && new_message && in_flight == nullptr`. `sent`: how many messages have been handed to `send_callback`.
Simplified: `running` is read and written as a whole (in the code it is a plain `bool`). -/
structure State where
  running : Bool := true
  ready : Bool := false
  worker : Worker := .loop
  stopper : Stopper := .idle
  sent : Nat := 0
  deriving DecidableEq, Repr

/-- A turn of the worker, where `sends` says whether it finds a message it sends and `ready` how it leaves the queue; a turn of the thread that stops the queue; a change of the
queue by another thread; a notification (also a spurious one); a start of the queue. -/
inductive Op
  | worker (sends ready : Bool)
  | stop
  | change (ready : Bool)
  | wake
  | start
  deriving DecidableEq, Repr

def holds : Worker → Bool
  | .test | .block | .work => true
  | _ => false

/-- `cv.notify_one()`. -/
def notify : Worker → Worker
  | .blocked => .lock
  | w => w

/-- The worker (l.420-553). After the wait it looks for a message in any case (l.429-552). Simplified: `send_callback` returns. -/
def turn (s : State) (sends ready : Bool) : State :=
  match s.worker with
  | .loop => { s with worker := if s.running then .lock else .ended }
  | .lock => { s with worker := .test }
  | .test => { s with worker := if !s.running || s.ready then .work else .block }
  | .block => { s with worker := .blocked }
  | .blocked => s
  | .work =>
    { s with
      worker := .loop
      ready := ready
      sent := if sends then s.sent + 1 else s.sent }
  | .ended => s

/-- `stop` (l.922-930): it does not take the mutex. `join` returns when the worker has ended. Simplified: a second call, which throws, does nothing. -/
def stopTurn (s : State) : State :=
  match s.stopper with
  | .idle => { s with running := false, stopper := .cleared }
  | .cleared => { s with worker := notify s.worker, stopper := .joining }
  | .joining => if s.worker = .ended then { s with stopper := .returned } else s
  | .returned => s

/-- One step. Another thread changes the queue only with the mutex (`add_to_normal_message_queue`, `pause`, `resume`, `receive`, …). `start` (l.417-418; charge_point.cpp l.120)
makes a new thread and leaves `running` as it is; simplified: while there is a thread, where the program would be ended, it does nothing. -/
def step (s : State) : Op → State
  | .worker sends ready => turn s sends ready
  | .stop => stopTurn s
  | .change ready => if holds s.worker then s else { s with ready := ready }
  | .wake => { s with worker := notify s.worker }
  | .start => if s.stopper = .returned then { s with worker := .loop, stopper := .idle } else s

def run (s : State) (os : List Op) : State := os.foldl step s

/-! ## Specification -/

def isTurn : Op → Bool
  | .worker _ _ => true
  | _ => false

/-- How many turns the worker gets. -/
def turns (os : List Op) : Nat := (os.filter isTurn).length

/-! ## Lemmas -/

theorem run_append (s : State) (a b : List Op) : run s (a ++ b) = run (run s a) b := List.foldl_append ..

/-- The states that are reached: `running` is false after the beginning of a `stop`; `stop` has returned only if the worker has ended; it ends only then. -/
def Inv (s : State) : Prop :=
  (s.stopper ≠ .idle → s.running = false) ∧ (s.stopper = .returned → s.worker = .ended) ∧ (s.worker = .ended → s.running = false) ∧
  (s.stopper = .idle → s.running = false → s.worker = .loop ∨ s.worker = .ended)

theorem inv_step (s : State) (o : Op) (h : Inv s) : Inv (step s o) := by
  obtain ⟨r, rd, w, st, n⟩ := s
  unfold Inv at *
  cases o with
  | worker a b => cases w <;> cases r <;> cases rd <;> cases st <;> simp_all [step, turn]
  | stop => cases w <;> cases r <;> cases st <;> simp_all [step, stopTurn, notify]
  | change b => cases w <;> cases r <;> cases st <;> simp_all [step, holds]
  | wake => cases w <;> cases r <;> cases st <;> simp_all [step, notify]
  | start => cases w <;> cases r <;> cases st <;> simp_all [step]

theorem inv_run (s : State) (os : List Op) (h : Inv s) : Inv (run s os) := by
  induction os generalizing s with
  | nil => exact h
  | cons o os ih => exact ih (step s o) (inv_step s o h)

theorem inv_init : Inv {} := by simp [Inv]

/-- How many turns the worker of a queue that is stopped needs at most. -/
def left : Worker → Nat
  | .ended => 0
  | .loop => 1
  | .work => 2
  | .test => 3
  | .lock => 4
  | .blocked => 5
  | .block => 6

/-- The stop gets through: it is joining or has returned, and the worker is not blocked and will not be. -/
def Passing (s : State) : Prop :=
  (s.stopper = .joining ∨ s.stopper = .returned) ∧ s.running = false ∧ s.worker ≠ .blocked ∧ s.worker ≠ .block

theorem passing_step (s : State) (o : Op) (h : Passing s) (ho : o ≠ .start) :
    Passing (step s o) ∧ left (step s o).worker ≤ left s.worker - (if isTurn o then 1 else 0) := by
  obtain ⟨r, rd, w, st, n⟩ := s
  unfold Passing at *
  cases o with
  | worker a b => cases w <;> cases r <;> cases rd <;> cases st <;> simp_all [step, turn, isTurn, left]
  | stop => cases w <;> cases r <;> cases st <;> simp_all [step, stopTurn, isTurn, left]
  | change b => cases w <;> cases r <;> cases st <;> simp_all [step, holds, isTurn, left]
  | wake => cases w <;> cases r <;> cases st <;> simp_all [step, notify, isTurn, left]
  | start => exact absurd rfl ho

theorem passing_run (s : State) (os : List Op) (h : Passing s) (ho : Op.start ∉ os) :
    Passing (run s os) ∧ left (run s os).worker ≤ left s.worker - turns os := by
  induction os generalizing s with
  | nil => exact ⟨h, by simp [turns, run]⟩
  | cons o os ih =>
    obtain ⟨h1, h2⟩ := passing_step s o h (fun e => ho (by simp [e]))
    obtain ⟨h3, h4⟩ := ih (step s o) h1 (fun e => ho (by simp [e]))
    refine ⟨h3, ?_⟩
    show left (run (step s o) os).worker ≤ _
    have ht : turns (o :: os) = turns os + (if isTurn o then 1 else 0) := by
      unfold turns
      cases hh : isTurn o <;> simp [hh]
    omega

theorem left_zero (w : Worker) (h : left w = 0) : w = .ended := by cases w <;> simp_all [left]

/-- The end of a stop: enough turns of the worker and then one of the stop. -/
theorem passing_end (s : State) (os : List Op) (h : Passing s) (ho : Op.start ∉ os) (hl : left s.worker ≤ turns os) :
    (run s os).worker = .ended ∧ (step (run s os) .stop).stopper = .returned := by
  obtain ⟨h1, h2⟩ := passing_run s os h ho
  have he : (run s os).worker = .ended := left_zero _ (by omega)
  refine ⟨he, ?_⟩
  show (stopTurn (run s os)).stopper = .returned
  unfold stopTurn
  rcases h1.1 with hj | hj
  · rw [hj]
    dsimp only
    rw [if_pos he]
  · rw [hj]
    exact hj

/-- How many messages can still be sent. -/
def budget : Worker → Nat
  | .loop | .ended => 0
  | _ => 1

theorem sent_step (s : State) (o : Op) (h : Inv s) (hr : s.running = false) :
    (step s o).running = false ∧ (step s o).sent + budget (step s o).worker ≤ s.sent + budget s.worker ∧ s.sent ≤ (step s o).sent := by
  obtain ⟨r, rd, w, st, n⟩ := s
  unfold Inv at h
  dsimp only at hr
  subst hr
  cases o with
  | worker a b => cases w <;> cases a <;> cases rd <;> simp [step, turn, budget]
  | stop =>
    cases st
    · simp [step, stopTurn]
    · cases w <;> simp [step, stopTurn, notify, budget]
    · simp only [step, stopTurn]
      split <;> simp
    · simp [step, stopTurn]
  | change b => cases w <;> simp [step, holds]
  | wake => cases w <;> simp [step, notify, budget]
  | start =>
    simp only [step]
    split
    · simp [budget]
    · simp

theorem sent_run (s : State) (os : List Op) (h : Inv s) (hr : s.running = false) :
    (run s os).sent + budget (run s os).worker ≤ s.sent + budget s.worker ∧ s.sent ≤ (run s os).sent := by
  induction os generalizing s with
  | nil => exact ⟨Nat.le_refl _, Nat.le_refl _⟩
  | cons o os ih =>
    obtain ⟨h1, h2, h3⟩ := sent_step s o h hr
    obtain ⟨h4, h5⟩ := ih (step s o) (inv_step s o h) h1
    exact ⟨Nat.le_trans h4 h2, Nat.le_trans h3 h5⟩

/-! ## Theorems -/

/-- If the worker is not just about to block when `stop` notifies it, `stop` returns: as soon as the worker has had four turns, whatever else happens in between, it has
ended, and `stop` returns at its next turn. Missing: a worker that has just found nothing to do and is about to block (`C259_violated`). -/
theorem C259_returns_partial (before after : List Op) (hc : (run {} before).stopper = .cleared) (hb : (run {} before).worker ≠ .block) (hs : Op.start ∉ after)
    (ht : 4 ≤ turns after) :
    (run {} (before ++ [.stop] ++ after)).worker = .ended ∧ (run {} (before ++ [.stop] ++ after ++ [.stop])).stopper = .returned := by
  have hi := inv_run {} before inv_init
  have hp : Passing (step (run {} before) .stop) ∧ left (step (run {} before) .stop).worker ≤ 4 := by
    have hr := hi.1 (by rw [hc]; decide)
    revert hc hb hr
    generalize run {} before = s
    obtain ⟨r, rd, w, st, n⟩ := s
    intro hc hb hr
    dsimp only at hc hb hr
    subst hc hr
    cases w <;> simp_all [step, stopTurn, notify, Passing, left]
  simp only [run_append]
  exact passing_end _ after hp.1 hs (Nat.le_trans hp.2 ht)

/-- If `stop` has not returned, a notification that finds the worker blocked lets it return. -/
theorem C259_notified (before after : List Op) (hj : (run {} before).stopper = .joining) (hb : (run {} before).worker ≠ .block) (hs : Op.start ∉ after) (ht : 4 ≤ turns after) :
    (run {} (before ++ [.wake] ++ after)).worker = .ended ∧ (run {} (before ++ [.wake] ++ after ++ [.stop])).stopper = .returned := by
  have hi := inv_run {} before inv_init
  have hp : Passing (step (run {} before) .wake) ∧ left (step (run {} before) .wake).worker ≤ 4 := by
    have hr := hi.1 (by rw [hj]; decide)
    revert hj hb hr
    generalize run {} before = s
    obtain ⟨r, rd, w, st, n⟩ := s
    intro hj hb hr
    dsimp only at hj hb hr
    subst hj hr
    cases w <;> simp_all [step, notify, Passing, left]
  simp only [run_append]
  exact passing_end _ after hp.1 hs (Nat.le_trans hp.2 ht)

/-- Once `stop` has begun at most one message is sent, and once it has returned none: the worker has ended. -/
theorem C259_sent (before after : List Op) :
    ((run {} before).stopper ≠ .idle → (run {} (before ++ after)).sent ≤ (run {} before).sent + 1) ∧
    ((run {} before).stopper = .returned → (run {} before).worker = .ended ∧ (run {} (before ++ after)).sent = (run {} before).sent) := by
  have hi := inv_run {} before inv_init
  rw [run_append]
  constructor
  · intro h
    have := (sent_run _ after hi (hi.1 h)).1
    have hb : budget (run {} before).worker ≤ 1 := by cases (run {} before).worker <;> simp [budget]
    omega
  · intro h
    have he := hi.2.1 h
    obtain ⟨h1, h2⟩ := sent_run _ after hi (hi.1 (by rw [h]; decide))
    rw [he] at h1
    simp only [budget] at h1
    exact ⟨he, by omega⟩

/-- A schedule: the worker sends a message, waits, and is stopped while it is blocked. -/
example : (run {} [.change true, .worker true true, .worker true true, .worker true true, .worker true false, .worker true true, .worker true true, .worker true true,
      .worker true true, .stop]).stopper = .cleared ∧
    (run {} [.change true, .worker true true, .worker true true, .worker true true, .worker true false, .worker true true, .worker true true, .worker true true,
      .worker true true, .stop]).worker = .blocked ∧
    (run {} [.change true, .worker true true, .worker true true, .worker true true, .worker true false, .worker true true, .worker true true, .worker true true,
      .worker true true, .stop]).sent = 1 := by decide

/-- The worker has found nothing to do and is about to block while `stop` clears `running` and notifies: the worker then blocks, and without another notification `stop` does not
return, however many turns both get and whatever is put into the queue. -/
theorem C259_violated (after : List Op) (h : Op.wake ∉ after) :
    (run {} ([.worker false false, .worker false false, .worker false false, .stop, .stop] ++ after)).stopper = .joining := by
  rw [run_append]
  have key : ∀ (os : List Op) (s : State), Op.wake ∉ os → s.stopper = .joining → (s.worker = .block ∨ s.worker = .blocked) →
      (run s os).stopper = .joining := by
    intro os
    induction os with
    | nil => exact fun s _ hj _ => hj
    | cons o os ih =>
      intro s hw hj hb
      have hw' : Op.wake ∉ os := fun e => hw (by simp [e])
      refine ih (step s o) hw' ?_ ?_
      · cases o with
        | worker a b => rcases hb with hb | hb <;> simp [step, turn, hb, hj]
        | stop => rcases hb with hb | hb <;> simp [step, stopTurn, hb, hj]
        | change b => rcases hb with hb | hb <;> simp [step, holds, hb, hj]
        | wake => exact absurd (List.mem_cons_self ..) hw
        | start => simp [step, hj]
      · cases o with
        | worker a b => rcases hb with hb | hb <;> simp [step, turn, hb]
        | stop => rcases hb with hb | hb <;> simp [step, stopTurn, hb, hj]
        | change b => rcases hb with hb | hb <;> simp [step, holds, hb]
        | wake => exact absurd (List.mem_cons_self ..) hw
        | start => simp [step, hj, hb]
  exact key after _ h (by decide) (by decide)

/-- Then the worker is blocked, and a notification lets `stop` return (`C259_notified`). -/
example : (run {} [.worker false false, .worker false false, .worker false false, .stop, .stop, .worker false false]).stopper = .joining ∧
    (run {} [.worker false false, .worker false false, .worker false false, .stop, .stop, .worker false false]).worker = .blocked ∧
    (run {} ([.worker false false, .worker false false, .worker false false, .stop, .stop, .worker false false] ++ [.wake] ++
      [.worker false false, .worker false false, .worker false false, .worker false false] ++ [.stop])).stopper = .returned := by decide

/-- OCPP 2.x, where the queue is not made again: a station that was stopped and is started again sends nothing, whatever is put into the queue: the new worker ends at its first
turn. -/
theorem C259_restart_violated :
    ∃ before, (run {} before).stopper = .returned ∧ (run {} (before ++ [.start])).worker = .loop ∧
      (∀ a b, (run {} (before ++ [.start, .worker a b])).worker = .ended) ∧ ∀ after, (run {} (before ++ [.start] ++ after)).sent = 0 := by
  refine ⟨[.stop, .stop, .worker false false, .stop], by decide, by decide, fun a b => rfl, fun after => ?_⟩
  have h := ((C259_sent [.stop, .stop, .worker false false, .stop] ([.start] ++ after)).2 (by decide)).2
  rw [← List.append_assoc] at h
  rw [h]
  decide

end Verif.MQ.Stopping
