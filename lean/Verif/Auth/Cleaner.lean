/-! The thread that cleans the authorization cache: `cache_cleanup_handler`, `trigger_authorization_cache_cleanup` and `stop_auth_cache_cleanup_thread` of
`lib/ocpp/v2/functional_blocks/authorization.cpp` (l.39-44, l.107-113, l.406-418, l.448-498), step by step and in every interleaving. What a round does is in `Verif.Auth.Model`. -/

namespace Verif.Auth.Cleaner

/-! ## Model -/

/-- Where the thread is (l.452-497): before it takes the mutex, before it evaluates the predicate, before it blocks because the predicate was false, blocked, after fifteen minutes,
before it takes the request back (l.464), before it looks whether it is to end (l.467), before a round, in a round, at its end. It holds the mutex in `test`, `block` and `leave`. -/
inductive Place
  | lock
  | test
  | block
  | blocked
  | expired
  | leave
  | check
  | clean
  | cleaning
  | ended
  deriving DecidableEq, Repr

/-- Where the call that stops the thread is (l.406-418). -/
inductive Stopper
  | idle
  | cleared
  | joining
  | returned
  deriving DecidableEq, Repr

/-- `pending`: how many calls of `trigger_authorization_cache_cleanup` have set the flag and have not notified yet. `asked` counts these calls; `served` is their number when the
last round began. -/
structure State where
  running : Bool := true
  required : Bool
  place : Place := .lock
  stopper : Stopper := .idle
  pending : Nat := 0
  asked : Nat := 0
  served : Nat := 0
  deriving DecidableEq, Repr

/-- A turn of the thread; the two parts of a trigger; the end of the fifteen minutes, or a spurious wake-up; a turn of the call that stops the thread. -/
inductive Op
  | turn
  | trigger
  | notify
  | timeout
  | wake
  | stop
  deriving DecidableEq, Repr

def holds : Place → Bool
  | .test | .block | .leave => true
  | _ => false

def woken : Place → Place
  | .blocked => .lock
  | p => p

/-- The thread (l.452-497). -/
def turn (s : State) : State :=
  match s.place with
  | .lock => { s with place := .test }
  | .test => { s with place := if !s.running || s.required then .leave else .block }
  | .block => { s with place := .blocked }
  | .blocked => s
  | .expired => { s with place := .leave }
  | .leave => { s with place := .check, required := false }
  | .check => { s with place := if s.running then .clean else .ended }
  | .clean => { s with place := .cleaning, served := s.asked }
  | .cleaning => { s with place := .lock }
  | .ended => s

/-- One step. -/
def step (s : State) : Op → State
  | .turn => turn s
  | .trigger =>
    if holds s.place then s
    else
      { s with
        required := true
        pending := s.pending + 1
        asked := s.asked + 1 }
  | .notify =>
    if s.pending = 0 then s
    else
      { s with
        pending := s.pending - 1
        place := woken s.place }
  | .timeout => { s with place := if s.place = .blocked then .expired else s.place }
  | .wake => { s with place := woken s.place }
  | .stop =>
    match s.stopper with
    | .idle => if holds s.place then s else { s with running := false, stopper := .cleared }
    | .cleared => { s with stopper := .joining, place := woken s.place }
    | .joining => if s.place = .ended then { s with stopper := .returned } else s
    | .returned => s

def run (s : State) (os : List Op) : State := os.foldl step s

/-- The thread when it is started (l.39-44). The flag `auth_cache_cleanup_required` is not initialised. -/
def start (flag : Bool) : State := { required := flag }

/-! ## Specification -/

/-- How many turns the thread gets. -/
def turns (os : List Op) : Nat := os.count .turn

/-! ## Lemmas -/

theorem run_append (s : State) (a b : List Op) : run s (a ++ b) = run (run s a) b := List.foldl_append ..

structure Inv (s : State) : Prop where
  served : s.served ≤ s.asked
  open' : s.served < s.asked → s.required = true ∨ s.place = .check ∨ s.place = .clean ∨ s.running = false
  block : s.place = .block → s.required = false ∧ s.running = true
  blocked : s.place = .blocked → s.required = true → 0 < s.pending
  stopped : s.stopper ≠ .idle ↔ s.running = false
  wakes : s.place = .blocked → s.running = false → s.stopper = .cleared
  ended : s.place = .ended → s.running = false
  returned : s.stopper = .returned → s.place = .ended

theorem inv_start (flag : Bool) : Inv (start flag) := by
  constructor <;> simp [start]

theorem inv_step (s : State) (o : Op) (h : Inv s) : Inv (step s o) := by
  obtain ⟨r, q, p, st, n, a, v⟩ := s
  obtain ⟨h1, h2, h3, h4, h5, h6, h7, h8⟩ := h
  dsimp only at h1 h2 h3 h4 h5 h6 h7 h8
  cases o with
  | turn => cases p <;> cases r <;> cases q <;> cases st <;> simp at h2 h3 h4 h5 h6 h7 h8 <;> constructor <;> simp [step, turn] <;> omega
  | trigger => cases p <;> cases r <;> cases q <;> cases st <;> simp at h2 h3 h4 h5 h6 h7 h8 <;> constructor <;> simp [step, holds] <;> omega
  | notify =>
    simp only [step]
    split
    · exact ⟨h1, h2, h3, h4, h5, h6, h7, h8⟩
    · cases p <;> cases r <;> cases q <;> cases st <;> simp at h2 h3 h4 h5 h6 h7 h8 <;> constructor <;> simp [woken] <;> omega
  | timeout => cases p <;> cases r <;> cases q <;> cases st <;> simp at h2 h3 h4 h5 h6 h7 h8 <;> constructor <;> simp [step] <;> omega
  | wake => cases p <;> cases r <;> cases q <;> cases st <;> simp at h2 h3 h4 h5 h6 h7 h8 <;> constructor <;> simp [step, woken] <;> omega
  | stop => cases p <;> cases r <;> cases q <;> cases st <;> simp at h2 h3 h4 h5 h6 h7 h8 <;> constructor <;> simp [step, holds, woken] <;> omega

theorem inv_run (s : State) (os : List Op) (h : Inv s) : Inv (run s os) := by
  induction os generalizing s with
  | nil => exact h
  | cons o os ih => exact ih (step s o) (inv_step s o h)

/-- The turns until a round begins. -/
def ahead : Place → Nat
  | .clean => 1
  | .check => 2
  | .leave => 3
  | .test => 4
  | .expired => 4
  | .lock => 5
  | .cleaning => 6
  | _ => 7

/-- A round that serves the first `n` triggers has begun or begins within `k` turns. -/
def Soon (s : State) (n k : Nat) : Prop :=
  s.running = true ∧ n ≤ s.asked ∧
  (n ≤ s.served ∨ ((s.required = true ∨ s.place = .check ∨ s.place = .clean) ∧ s.place ≠ .block ∧ s.place ≠ .blocked ∧ s.place ≠ .ended ∧ ahead s.place ≤ k))

theorem soon_step (s : State) (n k : Nat) (o : Op) (h : Soon s n k) (ho : o ≠ .stop) :
    Soon (step s o) n (k - if o = .turn then 1 else 0) := by
  obtain ⟨r, q, p, st, m, a, v⟩ := s
  obtain ⟨h1, h2, h3⟩ := h
  dsimp only at h1 h2 h3
  subst h1
  unfold Soon
  cases o with
  | turn =>
    rcases h3 with h3 | ⟨h3, h4, h5, h6, h7⟩
    · refine ⟨?_, ?_, Or.inl ?_⟩ <;> cases p <;> simp_all [step, turn] <;> omega
    · cases p <;> cases q <;> simp_all [step, turn, ahead] <;> omega
  | trigger =>
    simp only [step]
    split
    · exact ⟨rfl, h2, by simpa using h3⟩
    · refine ⟨rfl, by dsimp only; omega, ?_⟩
      rcases h3 with h3 | ⟨h3, h4⟩
      · exact Or.inl h3
      · exact Or.inr ⟨Or.inl rfl, by simpa using h4⟩
  | notify =>
    simp only [step]
    split
    · exact ⟨rfl, h2, by simpa using h3⟩
    · refine ⟨rfl, h2, ?_⟩
      rcases h3 with h3 | ⟨h3, h4⟩
      · exact Or.inl h3
      · refine Or.inr ?_
        cases p <;> simp_all [woken]
  | timeout =>
    refine ⟨rfl, h2, ?_⟩
    rcases h3 with h3 | ⟨h3, h4⟩
    · exact Or.inl h3
    · refine Or.inr ?_
      cases p <;> simp_all [step]
  | wake =>
    refine ⟨rfl, h2, ?_⟩
    rcases h3 with h3 | ⟨h3, h4⟩
    · exact Or.inl h3
    · refine Or.inr ?_
      cases p <;> simp_all [step, woken]
  | stop => exact absurd rfl ho

theorem soon_run (os : List Op) (s : State) (n k : Nat) (h : Soon s n k) (ho : Op.stop ∉ os) : Soon (run s os) n (k - turns os) := by
  induction os generalizing s k with
  | nil => exact h
  | cons o os ih =>
    have h1 := ih _ _ (soon_step s n k o h (fun e => ho (by simp [e]))) (fun e => ho (by simp [e]))
    have ht : turns (o :: os) = turns os + (if o = .turn then 1 else 0) := by
      unfold turns
      rw [List.count_cons]
      by_cases hh : o = .turn <;> simp [hh]
    rw [ht, show k - (turns os + (if o = .turn then 1 else 0)) = (k - (if o = .turn then 1 else 0)) - turns os from by omega]
    exact h1

theorem running_run (os : List Op) (s : State) (h : s.running = true) (ho : Op.stop ∉ os) : (run s os).running = true ∧ s.asked ≤ (run s os).asked := by
  induction os generalizing s with
  | nil => exact ⟨h, Nat.le_refl _⟩
  | cons o os ih =>
    have hs : (step s o).running = true ∧ s.asked ≤ (step s o).asked := by
      cases o with
      | turn =>
        show (turn s).running = true ∧ s.asked ≤ (turn s).asked
        unfold turn
        split <;> exact ⟨h, Nat.le_refl _⟩
      | trigger =>
        simp only [step]
        split
        · exact ⟨h, Nat.le_refl _⟩
        · exact ⟨h, Nat.le_succ _⟩
      | notify =>
        simp only [step]
        split
        · exact ⟨h, Nat.le_refl _⟩
        · exact ⟨h, Nat.le_refl _⟩
      | timeout => exact ⟨h, Nat.le_refl _⟩
      | wake => exact ⟨h, Nat.le_refl _⟩
      | stop => exact absurd (List.mem_cons_self ..) ho
    obtain ⟨h1, h2⟩ := ih (step s o) hs.1 (fun e => ho (by simp [e]))
    exact ⟨h1, Nat.le_trans hs.2 h2⟩

/-- The turns until the end of a thread that is stopped. -/
def left : Place → Nat
  | .ended => 0
  | .check => 1
  | .leave => 2
  | .test => 3
  | .expired => 3
  | .lock => 4
  | .cleaning => 5
  | .clean => 6
  | _ => 7

def Ending (s : State) (k : Nat) : Prop :=
  s.running = false ∧ (s.stopper = .joining ∨ s.stopper = .returned) ∧ s.place ≠ .block ∧ s.place ≠ .blocked ∧ left s.place ≤ k

theorem ending_step (s : State) (k : Nat) (o : Op) (h : Ending s k) : Ending (step s o) (k - if o = .turn then 1 else 0) := by
  obtain ⟨r, q, p, st, m, a, v⟩ := s
  unfold Ending at *
  dsimp only at h
  obtain ⟨h1, h2, h3, h4, h5⟩ := h
  subst h1
  cases o with
  | turn => cases p <;> cases q <;> simp_all [step, turn, left] <;> omega
  | trigger =>
    simp only [step]
    split <;> exact ⟨rfl, h2, h3, h4, by simpa using h5⟩
  | notify =>
    simp only [step]
    split
    · exact ⟨rfl, h2, h3, h4, by simpa using h5⟩
    · cases p <;> simp_all [woken]
  | timeout => cases p <;> simp_all [step]
  | wake => cases p <;> simp_all [step, woken]
  | stop => cases st <;> cases p <;> simp_all [step]

theorem ending_run (os : List Op) (s : State) (k : Nat) (h : Ending s k) : Ending (run s os) (k - turns os) := by
  induction os generalizing s k with
  | nil => exact h
  | cons o os ih =>
    have h1 := ih _ _ (ending_step s k o h)
    have ht : turns (o :: os) = turns os + (if o = .turn then 1 else 0) := by
      unfold turns
      rw [List.count_cons]
      by_cases hh : o = .turn <;> simp [hh]
    rw [ht, show k - (turns os + (if o = .turn then 1 else 0)) = (k - (if o = .turn then 1 else 0)) - turns os from by omega]
    exact h1

/-! ## Theorems -/

/-- No trigger is lost: once the calls under way have notified, a round that began after all triggers up to then has begun as soon as the thread has had six turns, whatever happens in
between, if the thread is not stopped. -/
theorem C261_served (flag : Bool) (before after : List Op) (hb : Op.stop ∉ before) (ha : Op.stop ∉ after) (hp : (run (start flag) before).pending = 0) (ht : 6 ≤ turns after) :
    (run (start flag) before).asked ≤ (run (start flag) (before ++ after)).served := by
  have hi := inv_run _ before (inv_start flag)
  have hr := (running_run before (start flag) rfl hb).1
  rw [run_append]
  revert hi hr hp
  generalize run (start flag) before = s
  intro hp hi hr
  have hs : Soon s s.asked 6 := by
    refine ⟨hr, Nat.le_refl _, ?_⟩
    by_cases hv : s.asked ≤ s.served
    · exact Or.inl hv
    · have ho : s.required = true ∨ s.place = .check ∨ s.place = .clean := by
        rcases hi.open' (by omega) with h | h | h | h
        · exact Or.inl h
        · exact Or.inr (Or.inl h)
        · exact Or.inr (Or.inr h)
        · rw [hr] at h
          cases h
      have h1 : s.place ≠ .block := by
        intro hq
        have := hi.block hq
        rcases ho with h | h | h
        · rw [this.1] at h
          cases h
        · rw [hq] at h
          cases h
        · rw [hq] at h
          cases h
      have h2 : s.place ≠ .blocked := by
        intro hq
        rcases ho with h | h | h
        · have := hi.blocked hq h
          omega
        · rw [hq] at h
          cases h
        · rw [hq] at h
          cases h
      have h3 : s.place ≠ .ended := by
        intro hq
        have := hi.ended hq
        rw [hr] at this
        cases this
      refine Or.inr ⟨ho, h1, h2, h3, ?_⟩
      cases hpl : s.place <;> simp_all [ahead]
  obtain ⟨h1, h2, h3⟩ := soon_run after s s.asked 6 hs ha
  rcases h3 with h3 | ⟨_, _, _, _, h3⟩
  · exact h3
  · exfalso
    have hz : 6 - turns after = 0 := by omega
    rw [hz] at h3
    revert h3
    cases (run s after).place <;> simp [ahead]

/-- The thread can be stopped: once the call has notified it, the thread has ended as soon as it has had six turns, and then the call returns; when it has returned the thread has
ended. -/
theorem C261_stopped (flag : Bool) (before after : List Op) (hj : (run (start flag) before).stopper = .cleared) (ht : 6 ≤ turns after) :
    (run (start flag) (before ++ [.stop] ++ after)).place = .ended ∧ (run (start flag) (before ++ [.stop] ++ after ++ [.stop])).stopper = .returned := by
  have hi := inv_run _ before (inv_start flag)
  have he : Ending (step (run (start flag) before) .stop) 6 := by
    have hr := hi.stopped.mp (by rw [hj]; decide)
    have hb := hi.block
    revert hj hr hb
    generalize run (start flag) before = s
    obtain ⟨r, q, p, st, m, a, v⟩ := s
    intro hj hr hb
    dsimp only at hj hr hb
    subst hj hr
    cases p <;> simp_all [step, woken, Ending, left]
  simp only [run_append]
  obtain ⟨h1, h2, h3, h4, h5⟩ := ending_run after _ 6 he
  have hz : (run (step (run (start flag) before) .stop) after).place = .ended := by
    rw [show 6 - turns after = 0 from by omega] at h5
    revert h5
    cases (run (step (run (start flag) before) .stop) after).place <;> simp [left]
  refine ⟨hz, ?_⟩
  show (step (run (step (run (start flag) before) .stop) after) .stop).stopper = .returned
  revert hz h2
  generalize run (step (run (start flag) before) .stop) after = s
  intro h2 hz
  rcases h2 with h2 | h2
  · simp [step, h2, hz]
  · simp [step, h2]

theorem C261_returned (flag : Bool) (os : List Op) (h : (run (start flag) os).stopper = .returned) : (run (start flag) os).place = .ended :=
  (inv_run _ os (inv_start flag)).returned h

/-- Two triggers, one while the thread is blocked and one in the round it leads to; a stop. -/
example : (run (start false) [.turn, .turn, .turn, .trigger, .notify]).pending = 0 ∧ (run (start false) [.turn, .turn, .turn, .trigger, .notify]).asked = 1 ∧
    (run (start false) [.turn, .turn, .turn, .trigger, .notify, .turn, .turn, .turn, .turn, .turn, .trigger, .notify]).served = 1 ∧
    (run (start false) [.turn, .turn, .turn, .trigger, .notify, .turn, .turn, .turn, .turn, .turn, .trigger, .notify, .turn, .turn, .turn, .turn, .turn, .turn]).served = 2 ∧
    (run (start false) [.turn, .turn, .turn, .stop]).stopper = .cleared := by decide

end Verif.Auth.Cleaner
