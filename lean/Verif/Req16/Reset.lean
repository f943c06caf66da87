set_option linter.constructorNameAsVariable false

/-!
# Reset of an OCPP 1.6 charge point

Model of `handleResetRequest` (lib/ocpp/v16/charge_point_impl.cpp l.2296-2338) and of what ends its waiting
(`handleStopTransactionResponse` l.2394-2436).

The thread that waits for the end of the transactions is modelled step by step, as
`std::condition_variable::wait_for` with a condition is defined: the condition is looked at; if it does not hold the thread
goes to sleep, and a notification in between is lost, because `handleStopTransactionResponse` does not hold the mutex.
Simplification: looking at the condition for all connectors is one step.
-/

namespace Verif.Req16.Reset

/-- `ResetType`. -/
inductive Kind
  | soft | hard
  deriving DecidableEq, Repr

/-- The two reasons used here of `Reason` (include/ocpp/v16/ocpp_enums.hpp). -/
inductive Reason
  | softReset | hardReset
  deriving DecidableEq, Repr

/-- Where the thread is. -/
inductive Place
  /-- Before `wait_for`. -/
  | starting
  /-- About to look at the condition. -/
  | checking
  /-- The condition did not hold; not yet asleep. -/
  | decided
  | asleep
  /-- `reset_callback` was called. -/
  | done
  deriving DecidableEq, Repr

/-- The charge point. -/
structure State where
  /-- `getNumberOfConnectors`. -/
  n : Nat
  /-- `getWaitForStopTransactionsOnResetTimeout`. -/
  timeout : Nat
  now : Nat := 0
  /-- `transaction_handler->transaction_active`. -/
  active : Nat → Bool := fun _ => false
  /-- `status->get_state` is Charging. -/
  charging : Nat → Bool := fun _ => false
  /-- `reset_thread`, with the kind of reset it is for, and the time at which `wait_for` gives up. -/
  thread : Option (Kind × Place) := none
  deadline : Nat := 0
  /-- `std::terminate` was called. -/
  dead : Bool := false

/-- What can be observed. -/
inductive Out
  | answer (accepted : Bool)
  /-- `stop_transaction_callback`. -/
  | stop (c : Nat) (r : Reason)
  /-- `reset_callback`. -/
  | reset (k : Kind)
  | terminate
  deriving DecidableEq, Repr

/-- What can happen. -/
inductive Ev
  /-- Reset.req; `allowed`: both callbacks are there and the application allows it. -/
  | request (k : Kind) (allowed : Bool)
  /-- A step of the thread. -/
  | thread
  /-- A notification: StopTransaction.conf arrives (l.2431). -/
  | confirmed
  /-- The thread wakes up for no reason. -/
  | spurious
  | begin (c : Nat)
  | ended (c : Nat)
  | status (c : Nat) (charging : Bool)
  /-- A second passes. -/
  | tick
  deriving DecidableEq, Repr

/-- The connectors of a charge point. -/
def connectors (n : Nat) : List Nat := (List.range n).map (· + 1)

/-- The condition of `wait_for` (l.2320-2329). -/
def quiet (s : State) : Bool := (connectors s.n).all (fun c => !(s.active c || s.charging c))

/-- `stop_all_transactions` (l.1251-1258). -/
def stopAll (s : State) (r : Reason) : List Out := ((connectors s.n).filter s.active).map (fun c => .stop c r)

/-- The reason of a reset (l.2334-2338). -/
def reasonOf : Kind → Reason
  | .soft => .softReset
  | .hard => .hardReset

/-- `handleResetRequest`. Assigning to `reset_thread` while it holds a thread calls `std::terminate`; the thread is never
joined. -/
def onRequest (s : State) (k : Kind) (allowed : Bool) : State × List Out :=
  if !allowed then (s, [.answer false])
  else
    match s.thread with
    | some _ => ({ s with dead := true }, [.answer true, .terminate])
    | none => ({ s with thread := some (k, .starting) }, .answer true :: stopAll s (reasonOf k))

/-- The thread looks at the condition. -/
def check (s : State) (k : Kind) : State × List Out :=
  if quiet s then ({ s with thread := some (k, .done) }, [.reset k])
  else ({ s with thread := some (k, .decided) }, [])

/-- A step of the thread (l.2316-2333). -/
def onThread (s : State) : State × List Out :=
  match s.thread with
  | some (k, .starting) => check { s with deadline := s.now + s.timeout } k
  | some (k, .checking) => check s k
  | some (k, .decided) => ({ s with thread := some (k, .asleep) }, [])
  | some (k, .asleep) =>
    if s.deadline ≤ s.now then ({ s with thread := some (k, .done) }, [.reset k]) else (s, [])
  | some (_, .done) => (s, [])
  | none => (s, [])

/-- The thread is woken up. -/
def wake (s : State) : State :=
  match s.thread with
  | some (k, .asleep) => { s with thread := some (k, .checking) }
  | _ => s

/-- One step of a charge point that lives. -/
def step1 (s : State) : Ev → State × List Out
  | .request k a => onRequest s k a
  | .thread => onThread s
  | .confirmed => (wake s, [])
  | .spurious => (wake s, [])
  | .begin c => ({ s with active := fun d => if d = c then true else s.active d }, [])
  | .ended c => ({ s with active := fun d => if d = c then false else s.active d }, [])
  | .status c b => ({ s with charging := fun d => if d = c then b else s.charging d }, [])
  | .tick => ({ s with now := s.now + 1 }, [])

/-- One step. -/
def step (s : State) (e : Ev) : State × List Out := if s.dead then (s, []) else step1 s e

/-- The state after a history. -/
def run (s : State) (h : List Ev) : State := h.foldl (fun s e => (step s e).1) s

/-- What is observed in a history. -/
def trace (s : State) : List Ev → List Out
  | [] => []
  | e :: h => (step s e).2 ++ trace (step s e).1 h

/-- A charge point after its start. -/
def start (n timeout : Nat) : State := { n := n, timeout := timeout }

/-! ## Specification -/

/-- A transaction runs at the connector. -/
def running (c : Nat) (h : List Ev) : Bool :=
  h.foldl (fun b e => match e with
    | .begin d => if d = c then true else b
    | .ended d => if d = c then false else b
    | _ => b) false

/-- The connector was last reported as Charging. -/
def isCharging (c : Nat) (h : List Ev) : Bool :=
  h.foldl (fun b e => match e with
    | .status d x => if d = c then x else b
    | _ => b) false

/-- The seconds that pass. -/
def seconds (h : List Ev) : Nat := h.count .tick

/-- No reset is accepted. -/
def NoReset (h : List Ev) : Prop := ∀ e ∈ h, ∀ k, e ≠ .request k true

instance (h : List Ev) : Decidable (NoReset h) :=
  if g : h.all (fun e => match e with | .request _ true => false | _ => true) then
    isTrue (by
      intro e he k hk
      subst hk
      have := List.all_eq_true.1 g _ he
      simp at this)
  else isFalse (by
    intro n
    apply g
    rw [List.all_eq_true]
    intro e he
    split
    · rename_i k; exact absurd rfl (n _ he k)
    · rfl)

/-! ## Lemmas -/

theorem run_append (s : State) (a b : List Ev) : run s (a ++ b) = run (run s a) b := by simp [run]

theorem trace_append (s : State) (a b : List Ev) : trace s (a ++ b) = trace s a ++ trace (run s a) b := by
  induction a generalizing s with
  | nil => rfl
  | cons e a ih =>
    show (step s e).2 ++ trace (step s e).1 (a ++ b) = _
    rw [ih]
    simp [trace, run]

theorem snocInd {α : Type} {P : List α → Prop} (nil : P []) (snoc : ∀ l a, P l → P (l ++ [a])) : ∀ l, P l := by
  intro l
  have : ∀ m : List α, P m.reverse := by
    intro m
    induction m with
    | nil => exact nil
    | cons a m ih => rw [List.reverse_cons]; exact snoc _ _ ih
  simpa using this l.reverse

theorem running_snoc (c : Nat) (h : List Ev) (e : Ev) : running c (h ++ [e]) = match e with
    | .begin d => if d = c then true else running c h
    | .ended d => if d = c then false else running c h
    | _ => running c h := by
  simp only [running, List.foldl_append]
  rfl

theorem charging_snoc (c : Nat) (h : List Ev) (e : Ev) : isCharging c (h ++ [e]) = match e with
    | .status d x => if d = c then x else isCharging c h
    | _ => isCharging c h := by
  simp only [isCharging, List.foldl_append]
  rfl

/-- What every step but the request of a second reset leaves alone. -/
theorem frame (s : State) (e : Ev) : (step s e).1.n = s.n ∧ (step s e).1.timeout = s.timeout := by
  unfold step
  split
  · exact ⟨rfl, rfl⟩
  · cases e with
    | request k a =>
      simp only [step1, onRequest]
      cases a with
      | false => exact ⟨rfl, rfl⟩
      | true => simp only [Bool.not_true, Bool.false_eq_true, if_false]; cases s.thread <;> exact ⟨rfl, rfl⟩
    | thread =>
      simp only [step1, onThread]
      rcases ht : s.thread with _ | ⟨k, p⟩
      · exact ⟨rfl, rfl⟩
      · cases p <;> simp only [check] <;> first | exact ⟨rfl, rfl⟩ | exact ⟨trivial, trivial⟩ | (split <;> exact ⟨rfl, rfl⟩)
    | confirmed | spurious =>
      simp only [step1, wake]
      split <;> exact ⟨rfl, rfl⟩
    | begin c => exact ⟨rfl, rfl⟩
    | ended c => exact ⟨rfl, rfl⟩
    | status c b => exact ⟨rfl, rfl⟩
    | tick => exact ⟨rfl, rfl⟩

theorem frame_run (s : State) (h : List Ev) : (run s h).n = s.n ∧ (run s h).timeout = s.timeout := by
  induction h generalizing s with
  | nil => exact ⟨rfl, rfl⟩
  | cons e h ih =>
    have := ih (step s e).1
    have f := frame s e
    exact ⟨this.1.trans f.1, this.2.trans f.2⟩

/-- Transactions and statuses of a charge point that lives. -/
structure Tracks (s : State) (h : List Ev) (t : State) : Prop where
  active : ∀ c, t.active c = running c h
  charging : ∀ c, t.charging c = isCharging c h

theorem thread_keeps (s : State) : (onThread s).1.active = s.active ∧ (onThread s).1.charging = s.charging ∧
    (onThread s).1.now = s.now ∧ (onThread s).1.dead = s.dead := by
  simp only [onThread]
  rcases ht : s.thread with _ | ⟨k, p⟩
  · exact ⟨rfl, rfl, rfl, rfl⟩
  · cases p <;> simp only [check] <;> first | exact ⟨rfl, rfl, rfl, rfl⟩ | exact ⟨trivial, trivial, trivial, trivial⟩ | (split <;> exact ⟨rfl, rfl, rfl, rfl⟩)

theorem wake_keeps (s : State) : (wake s).active = s.active ∧ (wake s).charging = s.charging ∧
    (wake s).now = s.now ∧ (wake s).dead = s.dead ∧ (wake s).deadline = s.deadline := by
  simp only [wake]
  split <;> exact ⟨rfl, rfl, rfl, rfl, rfl⟩

theorem request_keeps (s : State) (k : Kind) (a : Bool) : (onRequest s k a).1.active = s.active ∧
    (onRequest s k a).1.charging = s.charging := by
  simp only [onRequest]
  cases a with
  | false => exact ⟨rfl, rfl⟩
  | true => simp only [Bool.not_true, Bool.false_eq_true, if_false]; cases s.thread <;> exact ⟨rfl, rfl⟩

/-- Who is dead stays dead. -/
theorem dead_mono (s : State) (e : Ev) (h : s.dead = true) : (step s e).1.dead = true := by
  unfold step
  rw [if_pos h]
  exact h

theorem tracks (n t : Nat) (h : List Ev) (hd : (run (start n t) h).dead = false) :
    Tracks (start n t) h (run (start n t) h) := by
  induction h using snocInd with
  | nil => exact ⟨fun _ => rfl, fun _ => rfl⟩
  | snoc h e ih =>
    rw [run_append] at hd ⊢
    have hd0 : (run (start n t) h).dead = false := by
      cases g : (run (start n t) h).dead with
      | false => rfl
      | true => rw [show run (run (start n t) h) [e] = (step (run (start n t) h) e).1 from rfl, dead_mono _ _ g] at hd; cases hd
    have k := ih hd0
    generalize run (start n t) h = s at hd hd0 k
    have he : run s [e] = (step1 s e).1 := by
      show (step s e).1 = _
      unfold step
      rw [if_neg (by rw [hd0]; simp)]
    rw [he]
    constructor
    · intro c
      rw [running_snoc]
      cases e with
      | request kd a => simp only [step1]; rw [(request_keeps s kd a).1]; exact k.active c
      | thread => simp only [step1]; rw [(thread_keeps s).1]; exact k.active c
      | confirmed => simp only [step1]; rw [(wake_keeps s).1]; exact k.active c
      | spurious => simp only [step1]; rw [(wake_keeps s).1]; exact k.active c
      | begin d =>
        simp only [step1]
        by_cases hc : c = d
        · rw [if_pos hc, if_pos hc.symm]
        · rw [if_neg hc, if_neg (Ne.symm hc)]; exact k.active c
      | ended d =>
        simp only [step1]
        by_cases hc : c = d
        · rw [if_pos hc, if_pos hc.symm]
        · rw [if_neg hc, if_neg (Ne.symm hc)]; exact k.active c
      | status d b => exact k.active c
      | tick => exact k.active c
    · intro c
      rw [charging_snoc]
      cases e with
      | request kd a => simp only [step1]; rw [(request_keeps s kd a).2]; exact k.charging c
      | thread => simp only [step1]; rw [(thread_keeps s).2.1]; exact k.charging c
      | confirmed => simp only [step1]; rw [(wake_keeps s).2.1]; exact k.charging c
      | spurious => simp only [step1]; rw [(wake_keeps s).2.1]; exact k.charging c
      | begin d => exact k.charging c
      | ended d => exact k.charging c
      | status d b =>
        simp only [step1]
        by_cases hc : c = d
        · rw [if_pos hc, if_pos hc.symm]
        · rw [if_neg hc, if_neg (Ne.symm hc)]; exact k.charging c
      | tick => exact k.charging c

/-- The thread exists only after a reset was accepted. -/
theorem no_thread (n t : Nat) (h : List Ev) (hn : NoReset h) :
    (run (start n t) h).thread = none ∧ (run (start n t) h).dead = false := by
  induction h using snocInd with
  | nil => exact ⟨rfl, rfl⟩
  | snoc h e ih =>
    obtain ⟨h1, h2⟩ := ih (fun x hx => hn x (by simp [hx]))
    rw [run_append]
    show (step (run (start n t) h) e).1.thread = none ∧ _
    generalize run (start n t) h = s at h1 h2
    show (step s e).1.thread = none ∧ (step s e).1.dead = false
    have he : step s e = step1 s e := by unfold step; rw [if_neg (by rw [h2]; simp)]
    rw [he]
    cases e with
    | request k a =>
      cases a with
      | false => exact ⟨h1, h2⟩
      | true => exact absurd rfl (hn _ (by simp) k)
    | thread => simp only [step1, onThread, h1]; exact ⟨by first | trivial | exact h1, h2⟩
    | confirmed => simp only [step1, wake, h1]; exact ⟨by first | trivial | exact h1, h2⟩
    | spurious => simp only [step1, wake, h1]; exact ⟨by first | trivial | exact h1, h2⟩
    | begin c => exact ⟨h1, h2⟩
    | ended c => exact ⟨h1, h2⟩
    | status c b => exact ⟨h1, h2⟩
    | tick => exact ⟨h1, h2⟩

/-- Where a call of `reset_callback` comes from. -/
theorem reset_cause (s : State) (e : Ev) (k : Kind) (h : Out.reset k ∈ (step s e).2) :
    e = .thread ∧ s.dead = false ∧
      ((∃ p, s.thread = some (k, p) ∧ (p = .starting ∨ p = .checking) ∧ quiet s = true) ∨
        (s.thread = some (k, .asleep) ∧ s.deadline ≤ s.now)) := by
  unfold step at h
  split at h
  · cases h
  · rename_i hd
    have hd : s.dead = false := by simpa using hd
    cases e with
    | request kd a =>
      exfalso
      simp only [step1, onRequest] at h
      cases a with
      | false => simp at h
      | true =>
        simp only [Bool.not_true, Bool.false_eq_true, if_false] at h
        cases ht : s.thread <;> simp [ht, stopAll] at h
    | thread =>
      refine ⟨rfl, hd, ?_⟩
      simp only [step1, onThread] at h
      rcases ht : s.thread with _ | ⟨kd, p⟩
      · simp [ht] at h
      · rw [ht] at h
        cases p with
        | starting =>
          simp only [check] at h
          split at h
          · rename_i hq
            simp at h
            subst h
            exact Or.inl ⟨_, rfl, Or.inl rfl, hq⟩
          · simp at h
        | checking =>
          simp only [check] at h
          split at h
          · rename_i hq
            simp at h
            subst h
            exact Or.inl ⟨_, rfl, Or.inr rfl, hq⟩
          · simp at h
        | decided => simp at h
        | asleep =>
          simp only at h
          split at h
          · rename_i hq
            simp at h
            subst h
            exact Or.inr ⟨rfl, hq⟩
          · simp at h
        | done => simp at h
    | confirmed => simp [step1] at h
    | spurious => simp [step1] at h
    | begin c => simp [step1] at h
    | ended c => simp [step1] at h
    | status c b => simp [step1] at h
    | tick => simp [step1] at h

/-- Once the thread exists its kind stays, and when it is done it stays done. -/
theorem thread_kind (s : State) (e : Ev) (k : Kind) (p : Place) (h : s.thread = some (k, p)) :
    ∃ q, (step s e).1.thread = some (k, q) ∧ (p = .done → q = .done) := by
  unfold step
  split
  · exact ⟨p, h, id⟩
  · cases e with
    | request kd a =>
      cases a with
      | false => exact ⟨p, h, id⟩
      | true => simp only [step1, onRequest, h, Bool.not_true, Bool.false_eq_true, if_false]; exact ⟨p, rfl, id⟩
    | thread =>
      simp only [step1, onThread, h]
      cases p with
      | starting => simp only [check]; split <;> exact ⟨_, rfl, fun g => by cases g⟩
      | checking => simp only [check]; split <;> exact ⟨_, rfl, fun g => by cases g⟩
      | decided => exact ⟨_, rfl, fun g => by cases g⟩
      | asleep =>
        simp only
        split
        · exact ⟨_, rfl, fun g => by cases g⟩
        · exact ⟨_, h, fun g => by cases g⟩
      | done => exact ⟨_, h, id⟩
    | confirmed | spurious =>
      simp only [step1, wake, h]
      cases p <;> first | exact ⟨_, h, id⟩ | exact ⟨_, rfl, fun g => by cases g⟩
    | begin c => exact ⟨p, h, id⟩
    | ended c => exact ⟨p, h, id⟩
    | status c b => exact ⟨p, h, id⟩
    | tick => exact ⟨p, h, id⟩

/-- After a reset was done there is none again. -/
theorem done_silent (s : State) (k : Kind) (h : s.thread = some (k, .done)) (g : List Ev) :
    ∀ kd, Out.reset kd ∉ trace s g := by
  induction g generalizing s with
  | nil => intro kd hk; cases hk
  | cons e g ih =>
    intro kd hk
    simp only [trace, List.mem_append] at hk
    rcases hk with hk | hk
    · obtain ⟨_, _, hc⟩ := reset_cause s e kd hk
      rcases hc with ⟨p, hp, hq, _⟩ | ⟨hp, _⟩
      · rw [h] at hp; cases hp; rcases hq with hq | hq <;> cases hq
      · rw [h] at hp; cases hp
    · obtain ⟨q, hq, hd⟩ := thread_kind s e k .done h
      rw [hd rfl] at hq
      exact ih _ hq kd hk

theorem reset_done (s : State) (e : Ev) (k : Kind) (h : Out.reset k ∈ (step s e).2) :
    (step s e).1.thread = some (k, .done) ∧ (step s e).2 = [.reset k] := by
  obtain ⟨rfl, hd, hc⟩ := reset_cause s e k h
  have he : step s .thread = onThread s := by unfold step; rw [if_neg (by rw [hd]; simp)]; rfl
  rw [he]
  rcases hc with ⟨p, hp, hq, hqu⟩ | ⟨hp, hq⟩
  · have hqu' : quiet { s with deadline := s.now + s.timeout } = true := hqu
    rcases hq with rfl | rfl
    · have : onThread s = check { s with deadline := s.now + s.timeout } k := by unfold onThread; rw [hp]
      rw [this]
      unfold check
      rw [if_pos hqu']
      exact ⟨rfl, rfl⟩
    · have : onThread s = check s k := by unfold onThread; rw [hp]
      rw [this]
      unfold check
      rw [if_pos hqu]
      exact ⟨rfl, rfl⟩
  · have : onThread s = ({ s with thread := some (k, .done) }, [.reset k]) := by
      unfold onThread
      rw [hp]
      simp only [if_pos hq]
    rw [this]
    exact ⟨rfl, rfl⟩

/-- The kinds of the resets that are performed. -/
def resets (o : List Out) : List Kind := o.filterMap (fun x => match x with
  | .reset k => some k
  | _ => none)

theorem mem_resets (o : List Out) (k : Kind) : k ∈ resets o ↔ Out.reset k ∈ o := by
  simp only [resets, List.mem_filterMap]
  constructor
  · rintro ⟨x, hx, hk⟩
    cases x <;> simp at hk
    subst hk; exact hx
  · intro h; exact ⟨_, h, rfl⟩

theorem resets_nil (o : List Out) (h : ∀ k, Out.reset k ∉ o) : resets o = [] := by
  cases hr : resets o with
  | nil => rfl
  | cons k l =>
    have : k ∈ resets o := by rw [hr]; simp
    rw [mem_resets] at this
    exact absurd this (h k)

/-- At most one reset is performed. -/
theorem once (s : State) (h : List Ev) : resets (trace s h) = [] ∨ ∃ k, resets (trace s h) = [k] := by
  induction h generalizing s with
  | nil => exact Or.inl rfl
  | cons e h ih =>
    have hsplit : resets (trace s (e :: h)) = resets (step s e).2 ++ resets (trace (step s e).1 h) := by
      simp [trace, resets, List.filterMap_append]
    rw [hsplit]
    cases hr : resets (step s e).2 with
    | nil => rw [List.nil_append]; exact ih _
    | cons k l =>
      have hk : Out.reset k ∈ (step s e).2 := by rw [← mem_resets, hr]; simp
      obtain ⟨h1, h2⟩ := reset_done s e k hk
      have h3 : resets (trace (step s e).1 h) = [] := resets_nil _ (done_silent _ k h1 h)
      rw [h2] at hr
      rw [h3]
      exact Or.inr ⟨k, by rw [← hr]; rfl⟩

/-! ## C173 -/

/-- **C173**: a request that is not allowed is rejected and does nothing. -/
theorem C173_rejected (n t : Nat) (h : List Ev) (k : Kind) (hd : (run (start n t) h).dead = false) :
    step (run (start n t) h) (.request k false) = (run (start n t) h, [.answer false]) := by
  unfold step
  rw [if_neg (by rw [hd]; simp)]
  rfl

example : NoReset [.begin 1, .request .soft false] ∧ (run (start 2 30) [.begin 1]).dead = false := by decide

/-- **C173**: the first request that is allowed is accepted, and exactly the running transactions are asked to stop, with
the reason that belongs to the kind of the reset. -/
theorem C173_stops (n t : Nat) (h : List Ev) (hn : NoReset h) (k : Kind) :
    (step (run (start n t) h) (.request k true)).2 = .answer true ::
      ((connectors n).filter (fun c => running c h)).map (fun c => .stop c (match k with
        | .soft => .softReset
        | .hard => .hardReset)) := by
  obtain ⟨h1, h2⟩ := no_thread n t h hn
  have tr := tracks n t h h2
  have hf := (frame_run (start n t) h).1
  generalize run (start n t) h = s at *
  have hf' : s.n = n := hf
  unfold step
  rw [if_neg (by rw [h2]; simp)]
  simp only [step1, onRequest, Bool.not_true, Bool.false_eq_true, if_false, h1, stopAll, hf']
  have : s.active = fun c => running c h := funext tr.active
  rw [this]
  cases k <;> rfl

example : NoReset [.begin 1, .begin 2, .ended 1] ∧
    (step (run (start 2 30) [.begin 1, .begin 2, .ended 1]) (.request .hard true)).2 =
      [.answer true, .stop 2 .hardReset] := by decide

/-- **C173**: the application is told to reset at most once. -/
theorem C173_once (n t : Nat) (h : List Ev) : (resets (trace (start n t) h)).length ≤ 1 := by
  rcases once (start n t) h with hr | ⟨k, hr⟩ <;> simp [hr]

/-- **C173**: the reset comes, with the kind of the request, when no transaction runs and no connector charges; or the time
allowed for that (WaitForStopTransactionsOnResetTimeout) has passed since the request. -/
theorem C173_not_early (n t : Nat) (h g : List Ev) (k kd : Kind) (hn : NoReset h) (hg : NoReset g)
    (hr : Out.reset kd ∈ (step (run (start n t) (h ++ .request k true :: g)) .thread).2) :
    kd = k ∧ ((∀ c, 1 ≤ c → c ≤ n → running c (h ++ .request k true :: g) = false ∧
        isCharging c (h ++ .request k true :: g) = false) ∨ t ≤ seconds g) := by
  have key : ∀ g, NoReset g →
      (run (start n t) (h ++ .request k true :: g)).dead = false ∧
      (∃ p, (run (start n t) (h ++ .request k true :: g)).thread = some (k, p) ∧
        (p ≠ .starting → (run (start n t) h).now + t ≤ (run (start n t) (h ++ .request k true :: g)).deadline)) ∧
      (run (start n t) (h ++ .request k true :: g)).now = (run (start n t) h).now + seconds g := by
    intro g
    induction g using snocInd with
    | nil =>
      intro _
      obtain ⟨h1, h2⟩ := no_thread n t h hn
      rw [run_append]
      generalize run (start n t) h = s at *
      show (step s (.request k true)).1.dead = false ∧ _
      have he : (step s (.request k true)).1 = { s with thread := some (k, .starting) } := by
        unfold step
        rw [if_neg (by rw [h2]; simp)]
        simp only [step1, onRequest, Bool.not_true, Bool.false_eq_true, if_false, h1]
      show (step s (.request k true)).1.dead = false ∧ (∃ p, (step s (.request k true)).1.thread = some (k, p) ∧ _) ∧
        (step s (.request k true)).1.now = _
      rw [he]
      exact ⟨h2, ⟨_, rfl, fun g => absurd rfl g⟩, rfl⟩
    | snoc g e ih =>
      intro hg
      obtain ⟨i1, ⟨p, i2, i3⟩, i4⟩ := ih (fun x hx => hg x (by simp [hx]))
      have hft := (frame_run (start n t) (h ++ .request k true :: g)).2
      have hr0 : run (start n t) (h ++ .request k true :: (g ++ [e])) =
          (step (run (start n t) (h ++ .request k true :: g)) e).1 := by
        rw [show h ++ Ev.request k true :: (g ++ [e]) = (h ++ .request k true :: g) ++ [e] by simp, run_append]
        rfl
      rw [hr0]
      generalize run (start n t) (h ++ .request k true :: g) = s at *
      have hft : s.timeout = t := hft
      have hs : seconds (g ++ [e]) = seconds g + if e = .tick then 1 else 0 := by
        simp only [seconds, List.count_append, List.count_singleton]
        by_cases hx : e = .tick <;> simp [hx]
      rw [hs]
      have he : step s e = step1 s e := by unfold step; rw [if_neg (by rw [i1]; simp)]
      rw [he]
      cases e with
      | request kd a =>
        cases a with
        | false => exact ⟨i1, ⟨p, i2, i3⟩, by simpa [step1, onRequest] using i4⟩
        | true => exact absurd rfl (hg _ (by simp) kd)
      | thread =>
        have kp := thread_keeps s
        refine ⟨by simp only [step1]; rw [kp.2.2.2]; exact i1, ?_, by simp only [step1]; rw [kp.2.2.1]; simpa using i4⟩
        simp only [step1, onThread, i2]
        cases p with
        | starting =>
          simp only [check]
          split
          · exact ⟨_, rfl, fun _ => by show _ ≤ s.now + s.timeout; omega⟩
          · exact ⟨_, rfl, fun _ => by show _ ≤ s.now + s.timeout; omega⟩
        | checking =>
          have := i3 (by simp)
          simp only [check]
          split <;> exact ⟨_, rfl, fun _ => this⟩
        | decided => exact ⟨_, rfl, fun _ => i3 (by simp)⟩
        | asleep =>
          have := i3 (by simp)
          simp only
          split
          · exact ⟨_, rfl, fun _ => this⟩
          · exact ⟨_, i2, fun _ => this⟩
        | done => exact ⟨_, i2, i3⟩
      | confirmed | spurious =>
        have kp := wake_keeps s
        refine ⟨by simp only [step1]; rw [kp.2.2.2.1]; exact i1, ?_, by simp only [step1]; rw [kp.2.2.1]; simpa using i4⟩
        simp only [step1, wake, i2]
        cases p with
        | asleep => exact ⟨_, rfl, fun _ => i3 (by simp)⟩
        | starting => exact ⟨_, i2, i3⟩
        | checking => exact ⟨_, i2, i3⟩
        | decided => exact ⟨_, i2, i3⟩
        | done => exact ⟨_, i2, i3⟩
      | begin c => exact ⟨i1, ⟨p, i2, i3⟩, by simpa [step1] using i4⟩
      | ended c => exact ⟨i1, ⟨p, i2, i3⟩, by simpa [step1] using i4⟩
      | status c b => exact ⟨i1, ⟨p, i2, i3⟩, by simpa [step1] using i4⟩
      | tick =>
        refine ⟨i1, ⟨p, i2, i3⟩, ?_⟩
        show s.now + 1 = _
        rw [i4]; simp; omega
  obtain ⟨k1, ⟨p, k2, k3⟩, k4⟩ := key g hg
  have tr := tracks n t (h ++ .request k true :: g) k1
  have hfn := (frame_run (start n t) (h ++ .request k true :: g)).1
  generalize run (start n t) (h ++ .request k true :: g) = s at *
  obtain ⟨_, _, hc⟩ := reset_cause s .thread kd hr
  rcases hc with ⟨q, hq, _, hqu⟩ | ⟨hq, hdl⟩
  · rw [k2] at hq
    cases hq
    refine ⟨rfl, Or.inl ?_⟩
    intro c h1 h2
    have hfn : s.n = n := hfn
    have hm : c ∈ connectors s.n := by
      rw [hfn]
      simp only [connectors, List.mem_map, List.mem_range]
      exact ⟨c - 1, by omega, by omega⟩
    have := List.all_eq_true.1 hqu c hm
    rw [tr.active, tr.charging] at this
    simpa using this
  · rw [k2] at hq
    cases hq
    have := k3 (by simp)
    refine ⟨rfl, Or.inr (by omega)⟩

example : NoReset [.begin 1] ∧ NoReset [.thread, .thread, .ended 1, .confirmed] ∧
    (step (run (start 2 30) ([.begin 1] ++ .request .soft true :: [.thread, .thread, .ended 1, .confirmed])) .thread).2 =
      [.reset .soft] := by decide

/-- What a thread that waits does in three steps of its own once its time is over. -/
theorem finish (s : State) (k : Kind) (p : Place) (h1 : s.thread = some (k, p)) (h2 : s.dead = false)
    (h3 : p ≠ .starting) (h4 : s.deadline ≤ s.now) (h5 : p ≠ .done) :
    Out.reset k ∈ trace s [.thread, .thread, .thread] := by
  have alive : ∀ s : State, s.dead = false → step s .thread = onThread s := by
    intro s hs; unfold step; rw [if_neg (by rw [hs]; simp)]; rfl
  have sleep : ∀ s : State, s.thread = some (k, .asleep) → s.dead = false → s.deadline ≤ s.now →
      Out.reset k ∈ (step s .thread).2 := by
    intro s a b c
    rw [alive s b]
    simp only [onThread, a, if_pos c, List.mem_singleton]
  have dec : ∀ s : State, s.thread = some (k, .decided) → s.dead = false → s.deadline ≤ s.now →
      Out.reset k ∈ trace s [.thread, .thread] := by
    intro s a b c
    simp only [trace, List.mem_append]
    have : (step s .thread).1 = { s with thread := some (k, .asleep) } := by
      rw [alive s b]; simp only [onThread, a]
    rw [this]
    exact Or.inr (Or.inl (sleep _ rfl b c))
  cases p with
  | starting => exact absurd rfl h3
  | done => exact absurd rfl h5
  | asleep =>
    simp only [trace, List.mem_append]
    exact Or.inl (sleep s h1 h2 h4)
  | decided =>
    have := dec s h1 h2 h4
    rw [show [Ev.thread, .thread, .thread] = [.thread, .thread] ++ [.thread] from rfl, trace_append, List.mem_append]
    exact Or.inl this
  | checking =>
    have hs : step s .thread = check s k := by
      rw [alive s h2]; simp only [onThread, h1]
    rw [show trace s [.thread, .thread, .thread] = (step s .thread).2 ++ trace (step s .thread).1 [.thread, .thread]
      from rfl, List.mem_append, hs]
    unfold check
    split
    · exact Or.inl (by simp)
    · exact Or.inr (dec _ rfl h2 h4)

/-- **C173**: the reset comes at the latest when the time allowed has passed since the thread for it began, as soon as this
thread gets three steps; whatever happened, even if transactions still run. -/
theorem C173_at_latest (n t : Nat) (h a b : List Ev) (k : Kind) (hn : NoReset h) (ha : NoReset a) (hb : NoReset b)
    (ht : t ≤ seconds b) :
    Out.reset k ∈ trace (start n t) (h ++ .request k true :: (a ++ .thread :: (b ++ [.thread, .thread, .thread]))) := by
  -- the invariant: the reset was done, or the thread waits with a deadline
  have key : ∀ (b : List Ev) (s : State) (d : Nat), NoReset b → s.dead = false →
      (∃ p, s.thread = some (k, p) ∧ p ≠ .starting ∧ p ≠ .done) → s.deadline ≤ d → d ≤ s.now + seconds b →
      Out.reset k ∈ trace s (b ++ [.thread, .thread, .thread]) := by
    intro b
    induction b with
    | nil =>
      intro s d _ h2 ⟨p, h1, h3, h5⟩ hd hb
      have : seconds [] = 0 := rfl
      exact finish s k p h1 h2 h3 (by omega) h5
    | cons e b ih =>
      intro s d hb h2 ⟨p, h1, h3, h5⟩ hd hs
      have hb' : NoReset b := fun x hx => hb x (by simp [hx])
      rw [List.cons_append, trace, List.mem_append]
      have he : step s e = step1 s e := by unfold step; rw [if_neg (by rw [h2]; simp)]
      have hsec : seconds (e :: b) = seconds b + if e = .tick then 1 else 0 := by
        simp only [seconds, List.count_cons]
        by_cases hx : e = .tick <;> simp [hx]
      by_cases ho : Out.reset k ∈ (step s e).2
      · exact Or.inl ho
      · right
        rw [he] at ho ⊢
        cases e with
        | request kd x =>
          cases x with
          | false => exact ih s d hb' h2 ⟨p, h1, h3, h5⟩ hd (by simpa [hsec] using hs)
          | true => exact absurd rfl (hb _ (by simp) kd)
        | thread =>
          have kp := thread_keeps s
          apply ih _ d hb'
          · simp only [step1]; rw [kp.2.2.2]; exact h2
          · simp only [step1, onThread, h1] at ho ⊢
            cases p with
            | starting => exact absurd rfl h3
            | checking =>
              simp only [check] at ho ⊢
              split at ho
              · exact absurd (by simp) ho
              · rename_i hq
                rw [if_neg hq]
                exact ⟨_, rfl, by simp, by simp⟩
            | decided => exact ⟨_, rfl, by simp, by simp⟩
            | asleep =>
              simp only at ho ⊢
              split at ho
              · exact absurd (by simp) ho
              · rename_i hq
                rw [if_neg hq]
                exact ⟨_, h1, by simp, by simp⟩
            | done => exact absurd rfl h5
          · have : (onThread s).1.deadline = s.deadline := by
              simp only [onThread, h1]
              cases p with
              | starting => exact absurd rfl h3
              | checking => simp only [check]; split <;> rfl
              | decided => rfl
              | asleep => simp only; split <;> rfl
              | done => rfl
            simp only [step1]; rw [this]; exact hd
          · simp only [step1]; rw [kp.2.2.1]; simpa [hsec] using hs
        | confirmed | spurious =>
          have kp := wake_keeps s
          apply ih _ d hb'
          · simp only [step1]; rw [kp.2.2.2.1]; exact h2
          · simp only [step1, wake, h1]
            cases p with
            | asleep => exact ⟨_, rfl, by simp, by simp⟩
            | starting => exact absurd rfl h3
            | checking => exact ⟨_, h1, by simp, by simp⟩
            | decided => exact ⟨_, h1, by simp, by simp⟩
            | done => exact absurd rfl h5
          · simp only [step1]; rw [kp.2.2.2.2]; exact hd
          · simp only [step1]; rw [kp.2.2.1]; simpa [hsec] using hs
        | begin c => exact ih _ d hb' h2 ⟨p, h1, h3, h5⟩ hd (by simpa [hsec, step1] using hs)
        | ended c => exact ih _ d hb' h2 ⟨p, h1, h3, h5⟩ hd (by simpa [hsec, step1] using hs)
        | status c x => exact ih _ d hb' h2 ⟨p, h1, h3, h5⟩ hd (by simpa [hsec, step1] using hs)
        | tick =>
          refine ih { s with now := s.now + 1 } d hb' h2 ⟨p, h1, h3, h5⟩ hd ?_
          show d ≤ s.now + 1 + seconds b
          simp [hsec] at hs; omega
  -- until the thread begins
  have wait : ∀ (a : List Ev) (s : State), NoReset a → s.dead = false →
      (∃ p, s.thread = some (k, p) ∧ p ≠ .done) → s.timeout = t →
      (∀ p, s.thread = some (k, p) → p ≠ .starting → s.deadline ≤ s.now + t) →
      Out.reset k ∈ trace s (a ++ .thread :: (b ++ [.thread, .thread, .thread])) := by
    intro a
    induction a with
    | nil =>
      intro s _ h2 ⟨p, h1, h5⟩ h6 h7
      rw [List.nil_append, trace, List.mem_append]
      have he : step s .thread = onThread s := by unfold step; rw [if_neg (by rw [h2]; simp)]; rfl
      by_cases ho : Out.reset k ∈ (step s .thread).2
      · exact Or.inl ho
      · right
        rw [he] at ho ⊢
        have kp := thread_keeps s
        apply key b _ (s.now + t) hb
        · rw [kp.2.2.2]; exact h2
        · simp only [onThread, h1] at ho ⊢
          cases p with
          | starting =>
            simp only [check] at ho ⊢
            split at ho
            · exact absurd (by simp) ho
            · rename_i hq
              rw [if_neg hq]
              exact ⟨_, rfl, by simp, by simp⟩
          | checking =>
            simp only [check] at ho ⊢
            split at ho
            · exact absurd (by simp) ho
            · rename_i hq
              rw [if_neg hq]
              exact ⟨_, rfl, by simp, by simp⟩
          | decided => exact ⟨_, rfl, by simp, by simp⟩
          | asleep =>
            simp only at ho ⊢
            split at ho
            · exact absurd (by simp) ho
            · rename_i hq
              rw [if_neg hq]
              exact ⟨_, h1, by simp, by simp⟩
          | done => exact absurd rfl h5
        · simp only [onThread, h1]
          cases p with
          | starting => simp only [check]; split <;> (show s.now + s.timeout ≤ _; omega)
          | checking => have := h7 _ h1 (by simp); simp only [check]; split <;> exact this
          | decided => exact h7 _ h1 (by simp)
          | asleep => have := h7 _ h1 (by simp); simp only; split <;> exact this
          | done => exact absurd rfl h5
        · rw [kp.2.2.1]; omega
    | cons e a ih =>
      intro s ha h2 ⟨p, h1, h5⟩ h6 h7
      have ha' : NoReset a := fun x hx => ha x (by simp [hx])
      rw [List.cons_append, trace, List.mem_append]
      have he : step s e = step1 s e := by unfold step; rw [if_neg (by rw [h2]; simp)]
      by_cases ho : Out.reset k ∈ (step s e).2
      · exact Or.inl ho
      · right
        rw [he] at ho ⊢
        have hf := frame s e
        rw [he] at hf
        cases e with
        | request kd x =>
          cases x with
          | false => exact ih s ha' h2 ⟨p, h1, h5⟩ h6 h7
          | true => exact absurd rfl (ha _ (by simp) kd)
        | thread =>
          have kp := thread_keeps s
          apply ih _ ha'
          · simp only [step1]; rw [kp.2.2.2]; exact h2
          · simp only [step1, onThread, h1] at ho ⊢
            cases p with
            | starting =>
              simp only [check] at ho ⊢
              split at ho
              · exact absurd (by simp) ho
              · rename_i hq
                rw [if_neg hq]
                exact ⟨_, rfl, by simp⟩
            | checking =>
              simp only [check] at ho ⊢
              split at ho
              · exact absurd (by simp) ho
              · rename_i hq
                rw [if_neg hq]
                exact ⟨_, rfl, by simp⟩
            | decided => exact ⟨_, rfl, by simp⟩
            | asleep =>
              simp only at ho ⊢
              split at ho
              · exact absurd (by simp) ho
              · rename_i hq
                rw [if_neg hq]
                exact ⟨_, h1, by simp⟩
            | done => exact absurd rfl h5
          · exact hf.2.trans h6
          · intro q _ hq
            simp only [step1]
            rw [kp.2.2.1]
            simp only [onThread, h1]
            cases p with
            | starting => simp only [check]; split <;> (show s.now + s.timeout ≤ _; omega)
            | checking => have := h7 _ h1 (by simp); simp only [check]; split <;> exact this
            | decided => exact h7 _ h1 (by simp)
            | asleep => have := h7 _ h1 (by simp); simp only; split <;> exact this
            | done => exact absurd rfl h5
        | confirmed | spurious =>
          have kp := wake_keeps s
          apply ih _ ha'
          · simp only [step1]; rw [kp.2.2.2.1]; exact h2
          · simp only [step1, wake, h1]
            cases p with
            | asleep => exact ⟨_, rfl, by simp⟩
            | starting => exact ⟨_, h1, h5⟩
            | checking => exact ⟨_, h1, by simp⟩
            | decided => exact ⟨_, h1, by simp⟩
            | done => exact absurd rfl h5
          · exact hf.2.trans h6
          · intro q hq hqs
            simp only [step1] at hq ⊢
            rw [kp.2.2.2.2, kp.2.2.1]
            apply h7 p h1
            intro hp
            subst hp
            simp only [wake, h1] at hq
            cases hq
            exact hqs rfl
        | begin c => exact ih _ ha' h2 ⟨p, h1, h5⟩ h6 h7
        | ended c => exact ih _ ha' h2 ⟨p, h1, h5⟩ h6 h7
        | status c x => exact ih _ ha' h2 ⟨p, h1, h5⟩ h6 h7
        | tick =>
          refine ih { s with now := s.now + 1 } ha' h2 ⟨p, h1, h5⟩ h6 ?_
          intro q hq hqs
          have : s.deadline ≤ s.now + t := h7 q hq hqs
          show s.deadline ≤ s.now + 1 + t
          omega
  obtain ⟨h1, h2⟩ := no_thread n t h hn
  rw [trace_append, List.mem_append]
  right
  have hft : (run (start n t) h).timeout = t := (frame_run (start n t) h).2
  generalize run (start n t) h = s at *
  rw [trace, List.mem_append]
  right
  have he : (step s (.request k true)).1 = { s with thread := some (k, .starting) } := by
    unfold step
    rw [if_neg (by rw [h2]; simp)]
    simp only [step1, onRequest, Bool.not_true, Bool.false_eq_true, if_false, h1]
  rw [he]
  refine wait a _ ha h2 ⟨_, rfl, by simp⟩ hft ?_
  intro p hp hps
  have : some (k, Place.starting) = some (k, p) := hp
  cases this
  exact absurd rfl hps

example : NoReset [.begin 1] ∧ 2 ≤ seconds [.tick, .ended 1, .begin 1, .tick] ∧
    trace (start 1 2) ([.begin 1] ++ .request .soft true :: ([] ++ .thread ::
      ([.tick, .ended 1, .begin 1, .tick] ++ [.thread, .thread, .thread]))) =
      [.answer true, .stop 1 .softReset, .reset .soft] := by decide

/-- **C173**: without any transaction the reset comes at the first step of the thread. -/
theorem C173_idle (n t : Nat) (h : List Ev) (k : Kind) (hn : NoReset h)
    (hq : ∀ c, 1 ≤ c → c ≤ n → running c h = false ∧ isCharging c h = false) :
    trace (run (start n t) h) [.request k true, .thread] = [.answer true, .reset k] := by
  obtain ⟨h1, h2⟩ := no_thread n t h hn
  have tr := tracks n t h h2
  have hst := C173_stops n t h hn k
  have hfn : (run (start n t) h).n = n := (frame_run (start n t) h).1
  generalize run (start n t) h = s at *
  have he : (step s (.request k true)).1 = { s with thread := some (k, .starting) } := by
    unfold step
    rw [if_neg (by rw [h2]; simp)]
    simp only [step1, onRequest, Bool.not_true, Bool.false_eq_true, if_false, h1]
  have hnone : (connectors n).filter (fun c => running c h) = [] := by
    rw [List.filter_eq_nil_iff]
    intro c hc
    simp only [connectors, List.mem_map, List.mem_range] at hc
    obtain ⟨i, hi, rfl⟩ := hc
    rw [(hq (i + 1) (by omega) (by omega)).1]; simp
  have hqu : quiet s = true := by
    unfold quiet
    rw [List.all_eq_true]
    intro c hc
    rw [hfn] at hc
    simp only [connectors, List.mem_map, List.mem_range] at hc
    obtain ⟨i, hi, rfl⟩ := hc
    rw [tr.active, tr.charging, (hq (i + 1) (by omega) (by omega)).1, (hq (i + 1) (by omega) (by omega)).2]; rfl
  simp only [trace, hst, he, hnone, List.map_nil, List.append_nil]
  unfold step
  rw [if_neg (by show ¬ s.dead = true; rw [h2]; simp)]
  have hqu2 : quiet { s with thread := some (k, .starting), deadline := s.now + s.timeout } = true := hqu
  simp only [step1, onThread, check, hqu2, if_true]
  rfl

example : ∀ c, 1 ≤ c → c ≤ 2 → running c [.begin 1, .ended 1] = false ∧ isCharging c [.begin 1, .ended 1] = false := by
  intro c h1 h2
  rcases (by omega : c = 1 ∨ c = 2) with rfl | rfl <;> decide

/-- **C173 (violated)**: the reset does not come when the last transaction ended, if the end is not confirmed by the CSMS
(which may not be reachable), however often the thread gets to run. -/
theorem C173_offline_violated :
    trace (start 1 30) [.begin 1, .request .soft true, .thread, .thread, .ended 1, .thread, .thread, .thread] =
      [.answer true, .stop 1 .softReset] ∧
    running 1 [.begin 1, .request .soft true, .thread, .thread, .ended 1, .thread, .thread, .thread] = false := by decide

/-- **C173 (violated)**: it does not come either if the confirmation arrives after the thread looked for transactions, but
before it fell asleep. -/
theorem C173_lost_violated :
    trace (start 1 30) [.begin 1, .request .soft true, .thread, .ended 1, .confirmed, .thread, .thread, .thread] =
      [.answer true, .stop 1 .softReset] := by decide

/-- **C173 (violated)**: nor if the confirmation arrives before the transaction is marked as ended. -/
theorem C173_late_violated :
    trace (start 1 30) [.begin 1, .request .soft true, .thread, .thread, .confirmed, .thread, .thread, .ended 1, .thread,
      .thread] = [.answer true, .stop 1 .softReset] := by decide

end Verif.Req16.Reset
