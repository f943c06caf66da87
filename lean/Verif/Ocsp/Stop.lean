import Verif.Ocsp.Theorems

/-!
# Stopping the OCSP updater (C255)
-/

namespace Verif.Ocsp

/-- The states that are reached: without a thread nothing runs, a waiting thread blocks nobody. -/
def Tidy (s : State) : Prop :=
  s.dead = true ∨ (s.phase = .none ∧ s.reader = none ∧ s.running = false) ∨ (s.phase = .waiting ∧ s.reader = none ∧ s.running = true) ∨
    (∃ got c rest, s.phase = .asking got c rest ∧ s.running = true)

/-- The updater is stopped, or will be at the end of the update that is under way. -/
def Stopped (s : State) : Prop :=
  s.dead = true ∨ s.phase = .none ∨ (∃ got c rest, s.phase = .asking got c rest ∧ s.stopper = true)

/-- No update begins. -/
def Quiet (es : List Ev) : Prop := ∀ t l, Ev.start t l ∉ es

theorem finish_stop (s : State) (w : Nat) (hr : s.running = true) :
    Tidy (finish s w).1 ∧ (s.stopper = true → Stopped (finish s w).1) ∧ Quiet (finish s w).2 := by
  obtain ⟨now, running, deadline, phase, reader, stopper, certs, dead⟩ := s
  dsimp only at hr
  subst hr
  cases reader with
  | none => cases stopper <;> simp [finish, release, stopNow, Tidy, Stopped, Quiet]
  | some k => cases k <;> cases stopper <;> simp [finish, release, callNow, startNow, triggerNow, stopNow, Tidy, Stopped, Quiet]

theorem next_stop (T : Times) (s : State) (got : List (Cert × Result)) (l : List Cert) (hr : s.running = true) :
    Tidy (next T s got l).1 ∧ (s.stopper = true → Stopped (next T s got l).1) ∧ Quiet (next T s got l).2 := by
  cases l with
  | nil =>
    obtain ⟨h1, h2, h3⟩ := finish_stop s T.interval hr
    refine ⟨h1, h2, fun t l hm => ?_⟩
    simp only [next] at hm
    rcases List.mem_append.mp hm with hm | hm
    · obtain ⟨p, _, hp⟩ := List.mem_map.mp hm
      cases hp
    · rcases List.mem_cons.mp hm with hm | hm
      · cases hm
      · exact h3 t l hm
  | cons c rest =>
    exact ⟨Or.inr (Or.inr (Or.inr ⟨got, c, rest, rfl, hr⟩)), fun hs => Or.inr (Or.inr ⟨got, c, rest, rfl, hs⟩), by simp [next, Quiet]⟩

theorem answered_stop (T : Times) (s : State) (got : List (Cert × Result)) (c : Cert) (rest : List Cert) (a : Answer) (hr : s.running = true) :
    Tidy (answered T s got c rest a).1 ∧ (s.stopper = true → Stopped (answered T s got c rest a).1) ∧ Quiet (answered T s got c rest a).2 := by
  have hfail : Tidy (failedUpdate T s).1 ∧ (s.stopper = true → Stopped (failedUpdate T s).1) ∧ Quiet (failedUpdate T s).2 := by
    obtain ⟨h1, h2, h3⟩ := finish_stop s T.retry hr
    refine ⟨h1, h2, fun t l hm => ?_⟩
    rcases List.mem_cons.mp hm with hm | hm
    · cases hm
    · exact h3 t l hm
  cases a with
  | accepted r =>
    obtain ⟨h1, h2, h3⟩ := next_stop T s (got ++ [(c, r)]) rest hr
    refine ⟨h1, h2, fun t l hm => ?_⟩
    rcases List.mem_cons.mp hm with hm | hm
    · cases hm
    · exact h3 t l hm
  | malformed => exact ⟨Or.inl rfl, fun _ => Or.inl rfl, by simp [answered, Quiet]⟩
  | empty => exact hfail
  | failed => exact hfail
  | other => exact hfail

/-- One step: the states stay tidy; from a stopped one, unless it is started, it stays stopped and begins no update. -/
theorem step_stop (T : Times) (s : State) (o : Op) (h : Tidy s) :
    Tidy (step T s o).1 ∧ (Stopped s → o ≠ .start → Stopped (step T s o).1 ∧ Quiet (step T s o).2) := by
  unfold step
  by_cases hd : s.dead = true
  · rw [if_pos hd]
    exact ⟨h, fun hs _ => ⟨hs, by simp [Quiet]⟩⟩
  rw [if_neg hd]
  rcases h with h | h | h | h
  · exact absurd h hd
  · -- no thread
    obtain ⟨hp, hr, hrun⟩ := h
    have keep : Tidy s := Or.inr (Or.inl ⟨hp, hr, hrun⟩)
    cases o with
    | tick n => exact ⟨Or.inr (Or.inl ⟨hp, hr, hrun⟩), fun _ _ => ⟨Or.inr (Or.inl hp), by simp [Quiet]⟩⟩
    | setCerts l => exact ⟨Or.inr (Or.inl ⟨hp, hr, hrun⟩), fun _ _ => ⟨Or.inr (Or.inl hp), by simp [Quiet]⟩⟩
    | start =>
      refine ⟨?_, fun _ hne => absurd rfl hne⟩
      simp [hr, call, hp, callNow, startNow, Tidy]
    | trigger => simp [hr, call, hp, callNow, triggerNow, hrun, Tidy, Stopped, Quiet]
    | stop => simp [stop, hp, stopNow, hrun, hr, Tidy, Stopped, Quiet]
    | wake => simp [wake, hp, hr, hrun, Tidy, Stopped, Quiet]
    | answer a => simp [answer, hp, hr, hrun, Tidy, Stopped, Quiet]
    | timeout => simp [timeout, hp, hr, hrun, Tidy, Stopped, Quiet]
  · -- waiting
    obtain ⟨hp, hr, hrun⟩ := h
    have hns : ¬ Stopped s := by simp [Stopped, hp, hd]
    refine ⟨?_, fun hs => absurd hs hns⟩
    cases o with
    | tick n => exact Or.inr (Or.inr (Or.inl ⟨hp, hr, hrun⟩))
    | setCerts l => exact Or.inr (Or.inr (Or.inl ⟨hp, hr, hrun⟩))
    | start => simp [hr, call, hp, callNow, startNow, Tidy]
    | trigger => simp [hr, call, hp, callNow, triggerNow, hrun, Tidy]
    | stop => simp [stop, hp, stopNow, hrun, hr, Tidy]
    | wake =>
      dsimp only
      unfold wake
      rw [hp]
      dsimp only
      split
      · exact Or.inr (Or.inr (Or.inl ⟨hp, hr, hrun⟩))
      · exact (next_stop T s [] s.certs hrun).1
    | answer a =>
      simp only [answer, hp]
      exact Or.inr (Or.inr (Or.inl ⟨hp, hr, hrun⟩))
    | timeout =>
      simp only [timeout, hp]
      exact Or.inr (Or.inr (Or.inl ⟨hp, hr, hrun⟩))
  · -- asking
    obtain ⟨got, c, rest, hp, hrun⟩ := h
    have keep : Tidy s := Or.inr (Or.inr (Or.inr ⟨got, c, rest, hp, hrun⟩))
    have hst : Stopped s → s.stopper = true := by
      rintro (h | h | ⟨_, _, _, _, h⟩)
      · exact absurd h hd
      · rw [hp] at h; cases h
      · exact h
    cases o with
    | tick n => exact ⟨Or.inr (Or.inr (Or.inr ⟨got, c, rest, hp, hrun⟩)), fun hs _ => ⟨Or.inr (Or.inr ⟨got, c, rest, hp, hst hs⟩), by simp [Quiet]⟩⟩
    | setCerts l => exact ⟨Or.inr (Or.inr (Or.inr ⟨got, c, rest, hp, hrun⟩)), fun hs _ => ⟨Or.inr (Or.inr ⟨got, c, rest, hp, hst hs⟩), by simp [Quiet]⟩⟩
    | start =>
      refine ⟨?_, fun _ hne => absurd rfl hne⟩
      dsimp only
      split
      · exact keep
      · unfold call
        rw [hp]
        exact Or.inr (Or.inr (Or.inr ⟨got, c, rest, rfl, hrun⟩))
    | trigger =>
      dsimp only
      split
      · exact ⟨keep, fun hs _ => ⟨hs, by simp [Quiet]⟩⟩
      · unfold call
        rw [hp]
        exact ⟨Or.inr (Or.inr (Or.inr ⟨got, c, rest, rfl, hrun⟩)), fun hs _ => ⟨Or.inr (Or.inr ⟨got, c, rest, rfl, hst hs⟩), by simp [Quiet]⟩⟩
    | stop =>
      dsimp only
      unfold stop
      rw [hp]
      exact ⟨Or.inr (Or.inr (Or.inr ⟨got, c, rest, rfl, hrun⟩)), fun _ _ => ⟨Or.inr (Or.inr ⟨got, c, rest, rfl, rfl⟩), by simp [Quiet]⟩⟩
    | wake =>
      simp only [wake, hp]
      exact ⟨keep, fun hs _ => ⟨hs, by simp [Quiet]⟩⟩
    | answer a =>
      dsimp only
      unfold answer
      rw [hp]
      cases hr : s.reader with
      | none =>
        obtain ⟨h1, h2, h3⟩ := answered_stop T s got c rest a hrun
        exact ⟨h1, fun hs _ => ⟨h2 (hst hs), h3⟩⟩
      | some k => exact ⟨keep, fun hs _ => ⟨hs, by simp [Quiet]⟩⟩
    | timeout =>
      dsimp only
      unfold timeout
      rw [hp]
      obtain ⟨h1, h2, h3⟩ := answered_stop T s got c rest .other hrun
      exact ⟨h1, fun hs _ => ⟨h2 (hst hs), h3⟩⟩

theorem run_tidy (T : Times) : ∀ (ops : List Op) (s : State), Tidy s → Tidy (run T s ops).1
  | [], _, h => h
  | o :: os, s, h => run_tidy T os _ (step_stop T s o h).1

theorem stop_stopped (T : Times) (s : State) (h : Tidy s) : Stopped (step T s .stop).1 := by
  unfold step
  by_cases hd : s.dead = true
  · rw [if_pos hd]; exact Or.inl hd
  rw [if_neg hd]
  rcases h with h | ⟨hp, hr, hrun⟩ | ⟨hp, hr, hrun⟩ | ⟨got, c, rest, hp, hrun⟩
  · exact absurd h hd
  · simp [stop, hp, stopNow, hrun, Stopped]
  · simp [stop, hp, stopNow, hrun, Stopped]
  · simp [stop, hp, Stopped]

/-- **C255**: once the application has stopped the station, no OCSP update begins until the station is started again, also if it was stopped in the middle of an update. -/
theorem C255_no_update (T : Times) (before after : List Op) (hs : .start ∉ after) (t : Nat) (l : List Cert) :
    Ev.start t l ∉ (run T (step T (run T {} before).1 .stop).1 after).2 := by
  have h0 : Tidy (run T {} before).1 := run_tidy T before {} (Or.inr (Or.inl ⟨rfl, rfl, rfl⟩))
  have key : ∀ (ops : List Op) (s : State), Tidy s → Stopped s → .start ∉ ops → Quiet (run T s ops).2 := by
    intro ops
    induction ops with
    | nil => intro s _ _ _ t l hm; cases hm
    | cons o os ih =>
      intro s ht hst hno t l hm
      have hne : o ≠ .start := fun h => hno (by rw [h]; exact List.mem_cons_self ..)
      obtain ⟨h1, h2⟩ := step_stop T s o ht
      obtain ⟨h3, h4⟩ := h2 hst hne
      rcases List.mem_append.mp hm with hm | hm
      · exact h4 t l hm
      · exact ih _ h1 h3 (fun h => hno (List.mem_cons_of_mem _ h)) t l hm
  exact key after _ (step_stop T _ .stop h0).1 (stop_stopped T _ h0) hs t l

/-- **C255**: the updater has ended when no request is outstanding at the time of the stop, or else as soon as the outstanding request times out, fails or the last
certificate of the update is answered. -/
theorem C255_ends (T : Times) (before : List Op) (hd : (run T {} before).1.dead = false) (hr : (run T {} before).1.reader ≠ some .start) :
    let s := (step T (run T {} before).1 .stop).1
    match (run T {} before).1.phase with
    | .asking _ _ rest => (step T s .timeout).1.phase = .none ∧ (s.reader = none → (step T s (.answer .failed)).1.phase = .none ∧
        (rest = [] → ∀ r, (step T s (.answer (.accepted r))).1.phase = .none))
    | _ => s.phase = .none := by
  have h0 : Tidy (run T {} before).1 := run_tidy T before {} (Or.inr (Or.inl ⟨rfl, rfl, rfl⟩))
  generalize (run T {} before).1 = u at h0 hd hr
  obtain ⟨now, running, deadline, phase, reader, stopper, certs, dead⟩ := u
  dsimp only at hd
  subst hd
  rcases h0 with h | ⟨hp, hr', hrun⟩ | ⟨hp, hr', hrun⟩ | ⟨got, c, rest, hp, hrun⟩
  · cases h
  · dsimp only at hp hrun hr'
    subst hp hrun hr'
    simp [step, stop, stopNow]
  · dsimp only at hp hrun hr'
    subst hp hrun hr'
    simp [step, stop, stopNow]
  · dsimp only at hp hrun hr
    subst hp hrun
    cases reader with
    | none =>
      simp only [step, stop, timeout, answer, answered, failedUpdate, finish, release, stopNow]
      refine ⟨by simp, fun _ => ⟨by simp, ?_⟩⟩
      rintro rfl r
      simp [next, finish, release, stopNow]
    | some k =>
      cases k with
      | start => exact absurd rfl hr
      | trigger =>
        simp [step, stop, timeout, answered, failedUpdate, finish, release, callNow, triggerNow, stopNow]

/-- Stopped in the middle of an update of two certificates: the second one is still asked for, then nothing more, although the deadline passes. -/
example : (run ⟨10, 5⟩ {} [.setCerts [4, 5], .start, .tick 1, .wake, .stop, .answer (.accepted 7), .answer .failed, .tick 100, .wake]).2 =
    [.start 1 [4, 5], .ask 4, .got 4 7, .ask 5, .failed 1] := by decide

/-- Not stopped, it begins again. -/
example : (run ⟨10, 5⟩ {} [.setCerts [4, 5], .start, .tick 1, .wake, .answer .failed, .tick 100, .wake]).2 =
    [.start 1 [4, 5], .ask 4, .failed 1, .start 101 [4, 5], .ask 4] := by decide

end Verif.Ocsp
