import Verif.Ocsp.Model
/-! C194–C197: the OCSP updater of OCPP 2.x. -/
set_option linter.unusedSimpArgs false

namespace Verif.Ocsp

/-! ## The specification -/

/-- Requests and their results. -/
def pairs (ps : List (Cert × Result)) : List Ev := ps.flatMap (fun p => [.ask p.1, .got p.1 p.2])

/-- What is stored. -/
def stores (ps : List (Cert × Result)) : List Ev := ps.map (fun p => .store p.1 p.2)

/-- The first part of an update of the certificates of `ps` and some more: the CSMS gave a result for those of `ps`. -/
def begun (t : Nat) (ps : List (Cert × Result)) (more : List Cert) : List Ev := .start t (ps.map (·.1) ++ more) :: pairs ps

/-- A sequence of updates, each of them complete or failed.  In a complete update the CSMS gave a result for each of the certificates,
and all of these results are stored, each for its certificate; in any other nothing is stored. -/
inductive Updates : List Ev → Prop
  | nil : Updates []
  | triggered {es} (t : Nat) : Updates es → Updates (es ++ [.triggered t])
  | terminated {es} : Updates es → Updates (es ++ [.terminated])
  | complete {es} (t t' : Nat) (ps : List (Cert × Result)) : Updates es → Updates (es ++ (begun t ps [] ++ stores ps ++ [.done t']))
  | failed {es} (t t' : Nat) (ps : List (Cert × Result)) (c : Cert) (rest : List Cert) :
      Updates es → Updates (es ++ (begun t ps (c :: rest) ++ [.ask c, .failed t']))
  | broken {es} (t : Nat) (ps : List (Cert × Result)) (c : Cert) (rest : List Cert) :
      Updates es → Updates (es ++ (begun t ps (c :: rest) ++ [.ask c, .terminated]))

/-- The last update is not at its end: the certificate `c` was asked for. -/
def Unfinished (es : List Ev) (ps : List (Cert × Result)) (c : Cert) (rest : List Cert) : Prop :=
  ∃ es0 t, Updates es0 ∧ es = es0 ++ (begun t ps (c :: rest) ++ [.ask c])

/-- From when on an update is due: an interval after a complete update, the retry interval after a failed one, at once after a trigger;
what happened last counts. -/
def dueAfter (T : Times) : Nat → List Ev → Nat
  | d, [] => d
  | _, .done t :: es => dueAfter T (t + T.interval) es
  | _, .failed t :: es => dueAfter T (t + T.retry) es
  | _, .triggered t :: es => dueAfter T t es
  | d, _ :: es => dueAfter T d es

/-! ## Lemmas -/

theorem run_append (T : Times) (s : State) (a b : List Op) :
    run T s (a ++ b) = ((run T (run T s a).1 b).1, (run T s a).2 ++ (run T (run T s a).1 b).2) := by
  induction a generalizing s with
  | nil => rfl
  | cons o os ih =>
    show ((run T (step T s o).1 (os ++ b)).1, (step T s o).2 ++ (run T (step T s o).1 (os ++ b)).2) = _
    rw [ih]
    show _ = ((run T (run T (step T s o).1 os).1 b).1, (step T s o).2 ++ (run T (step T s o).1 os).2 ++ _)
    rw [List.append_assoc]
    rfl

theorem pairs_snoc (ps : List (Cert × Result)) (c : Cert) (r : Result) : pairs (ps ++ [(c, r)]) = pairs ps ++ [.ask c, .got c r] := by
  simp [pairs, List.flatMap_append]

theorem begun_snoc (t : Nat) (ps : List (Cert × Result)) (c : Cert) (r : Result) (more : List Cert) :
    begun t (ps ++ [(c, r)]) more = begun t ps (c :: more) ++ [.ask c, .got c r] := by
  simp [begun, pairs_snoc]

/-- What the invariant says about the trace so far. -/
def Fits (s : State) (es : List Ev) : Prop :=
  match s.phase with
  | .asking got c rest => if s.dead then Updates es else Unfinished es got c rest
  | _ => Updates es

theorem startNow_cases (s : State) : ((startNow s).2 = [] ∧ s.phase = .none ∧ (startNow s).1 = { s with running := true, phase := .waiting }) ∨
    ((startNow s).2 = [.terminated] ∧ s.phase ≠ .none ∧ (startNow s).1 = { s with running := true, dead := true }) := by
  unfold startNow
  cases h : s.phase with
  | none => exact Or.inl ⟨rfl, rfl, rfl⟩
  | waiting => exact Or.inr ⟨rfl, by simp, rfl⟩
  | asking g c r => exact Or.inr ⟨rfl, by simp, rfl⟩

/-- Where the thread is after a call of the reading thread with the mutex free. -/
theorem callNow_fits {s : State} {es : List Ev} (k : Call) (hp : ∀ g c r, s.phase ≠ .asking g c r) (h : Updates es) :
    Updates (es ++ (callNow s k).2) ∧ ∀ g c r, (callNow s k).1.phase ≠ .asking g c r := by
  cases k with
  | start =>
    rcases startNow_cases s with ⟨h1, _, h3⟩ | ⟨h1, _, h3⟩
    · show Updates (es ++ (startNow s).2) ∧ ∀ g c r, (startNow s).1.phase ≠ _
      rw [h1, h3, List.append_nil]
      exact ⟨h, fun g c r => by simp⟩
    · show Updates (es ++ (startNow s).2) ∧ ∀ g c r, (startNow s).1.phase ≠ _
      rw [h1, h3]
      exact ⟨Updates.terminated h, hp⟩
  | trigger =>
    show Updates (es ++ (triggerNow s).2) ∧ ∀ g c r, (triggerNow s).1.phase ≠ _
    unfold triggerNow
    by_cases hr : s.running = true
    · rw [if_pos hr]; exact ⟨Updates.triggered _ h, hp⟩
    · rw [if_neg hr]; exact ⟨by simpa using h, hp⟩

theorem stopNow_phase {s : State} (hp : ∀ g c r, s.phase ≠ .asking g c r) (g : List (Cert × Result)) (c : Cert) (r : List Cert) :
    (stopNow s).phase ≠ .asking g c r := by
  unfold stopNow
  by_cases hr : s.running = true
  · rw [if_pos hr]; simp
  · rw [if_neg hr]; exact hp g c r

/-- The call of the blocked reading thread. -/
def unblock (s : State) : State × List Ev :=
  match s.reader with
  | none => (s, [])
  | some k => callNow { s with reader := none } k

/-- The blocked application. -/
def unblockStop (s : State) : State := if s.stopper then stopNow { s with stopper := false } else s

theorem release_eq (s : State) : release s = (unblockStop (unblock s).1, (unblock s).2) := rfl

theorem unblock_fits {s : State} {es : List Ev} (hp : ∀ g c r, s.phase ≠ .asking g c r) (h : Updates es) :
    Updates (es ++ (unblock s).2) ∧ ∀ g c r, (unblock s).1.phase ≠ .asking g c r := by
  unfold unblock
  cases s.reader with
  | none => exact ⟨by simpa using h, hp⟩
  | some k => exact callNow_fits (s := { s with reader := none }) k hp h

theorem release_fits {s : State} {es : List Ev} (hp : ∀ g c r, s.phase ≠ .asking g c r) (h : Updates es) :
    Updates (es ++ (release s).2) ∧ ∀ g c r, (release s).1.phase ≠ .asking g c r := by
  rw [release_eq]
  have := unblock_fits hp h
  refine ⟨this.1, fun g c r => ?_⟩
  show (unblockStop (unblock s).1).phase ≠ _
  unfold unblockStop
  by_cases hs : (unblock s).1.stopper = true
  · rw [if_pos hs]; exact stopNow_phase (s := { (unblock s).1 with stopper := false }) this.2 g c r
  · rw [if_neg hs]; exact this.2 g c r

theorem fits_of {s : State} {es : List Ev} (hp : ∀ g c r, s.phase ≠ .asking g c r) (h : Updates es) : Fits s es := by
  unfold Fits
  cases hph : s.phase with
  | none => exact h
  | waiting => exact h
  | asking g c r => exact absurd hph (hp g c r)

theorem finish_fits {s : State} {es : List Ev} (w : Nat) (h : Updates es) : Fits (finish s w).1 (es ++ (finish s w).2) := by
  have := release_fits (s := { s with deadline := s.now + w, phase := .waiting }) (fun _ _ _ => by simp) h
  exact fits_of this.2 this.1

/-- The next request or the end of the update. -/
theorem next_fits (T : Times) {s : State} (hd : s.dead = false) (got : List (Cert × Result)) (rest : List Cert) {es0 : List Ev} {t : Nat}
    (h : Updates es0) : Fits (next T s got rest).1 (es0 ++ begun t got rest ++ (next T s got rest).2) := by
  cases rest with
  | nil =>
    have := finish_fits (s := s) T.interval (Updates.complete t s.now got h)
    show Fits (finish s T.interval).1 (es0 ++ begun t got [] ++ (stores got ++ .done s.now :: (finish s T.interval).2))
    rw [show es0 ++ begun t got [] ++ (stores got ++ Ev.done s.now :: (finish s T.interval).2) =
      es0 ++ (begun t got [] ++ stores got ++ [.done s.now]) ++ (finish s T.interval).2 from by simp]
    exact this
  | cons c rest =>
    show Fits { s with phase := .asking got c rest } (es0 ++ begun t got (c :: rest) ++ [.ask c])
    unfold Fits
    dsimp only
    rw [if_neg (by simp [hd])]
    exact ⟨es0, t, h, by simp⟩

theorem failedUpdate_fits (T : Times) {s : State} {es : List Ev} {got : List (Cert × Result)} {c : Cert} {rest : List Cert}
    (h : Unfinished es got c rest) : Fits (failedUpdate T s).1 (es ++ (failedUpdate T s).2) := by
  obtain ⟨es0, t, h0, rfl⟩ := h
  have := finish_fits (s := s) T.retry (Updates.failed t s.now got c rest h0)
  show Fits (finish s T.retry).1 (_ ++ .failed s.now :: (finish s T.retry).2)
  rw [show es0 ++ (begun t got (c :: rest) ++ [.ask c]) ++ .failed s.now :: (finish s T.retry).2 =
    es0 ++ (begun t got (c :: rest) ++ [.ask c, .failed s.now]) ++ (finish s T.retry).2 from by simp]
  exact this

theorem answered_fits (T : Times) {s : State} {es : List Ev} {got : List (Cert × Result)} {c : Cert} {rest : List Cert} (a : Answer)
    (hd : s.dead = false) (hp : s.phase = .asking got c rest) (h : Unfinished es got c rest) :
    Fits (answered T s got c rest a).1 (es ++ (answered T s got c rest a).2) := by
  cases a with
  | accepted r =>
    obtain ⟨es0, t, h0, rfl⟩ := h
    have := next_fits T hd (got ++ [(c, r)]) rest (t := t) h0
    show Fits (next T s (got ++ [(c, r)]) rest).1 (_ ++ .got c r :: (next T s (got ++ [(c, r)]) rest).2)
    rw [begun_snoc] at this
    rw [show es0 ++ (begun t got (c :: rest) ++ [.ask c]) ++ .got c r :: (next T s (got ++ [(c, r)]) rest).2 =
      es0 ++ (begun t got (c :: rest) ++ [.ask c, .got c r]) ++ (next T s (got ++ [(c, r)]) rest).2 from by simp]
    exact this
  | malformed =>
    obtain ⟨es0, t, h0, rfl⟩ := h
    show Fits { s with dead := true } (_ ++ [.terminated])
    unfold Fits
    dsimp only
    rw [hp]
    dsimp only
    rw [if_pos rfl, show es0 ++ (begun t got (c :: rest) ++ [.ask c]) ++ [.terminated] =
      es0 ++ (begun t got (c :: rest) ++ [.ask c, .terminated]) from by simp]
    exact Updates.broken t got c rest h0
  | empty => exact failedUpdate_fits T h
  | failed => exact failedUpdate_fits T h
  | other => exact failedUpdate_fits T h

theorem fits_congr {s s' : State} {es : List Ev} (h : Fits s es) (h1 : s'.phase = s.phase) (h2 : s'.dead = s.dead) : Fits s' es := by
  unfold Fits at *
  rw [h1, h2]; exact h

theorem call_fits {s : State} {es : List Ev} (k : Call) (h : Fits s es) : Fits (call s k).1 (es ++ (call s k).2) := by
  unfold call
  cases hp : s.phase with
  | none =>
    have hu : Updates es := by unfold Fits at h; rw [hp] at h; exact h
    have := callNow_fits (s := s) k (fun _ _ _ => by rw [hp]; simp) hu
    exact fits_of this.2 this.1
  | waiting =>
    have hu : Updates es := by unfold Fits at h; rw [hp] at h; exact h
    have := callNow_fits (s := s) k (fun _ _ _ => by rw [hp]; simp) hu
    exact fits_of this.2 this.1
  | asking g c r =>
    dsimp only
    rw [List.append_nil]
    exact fits_congr h hp.symm rfl

theorem step_fits (T : Times) {s : State} {es : List Ev} (o : Op) (h : Fits s es) : Fits (step T s o).1 (es ++ (step T s o).2) := by
  unfold step
  cases hd : s.dead with
  | true => simpa using h
  | false =>
    rw [if_neg (by simp)]
    cases o with
    | tick n => dsimp only; rw [List.append_nil]; exact fits_congr h rfl hd.symm
    | setCerts l => dsimp only; rw [List.append_nil]; exact fits_congr h rfl hd.symm
    | start =>
      dsimp only
      by_cases hr : s.reader.isSome = true
      · rw [if_pos hr, List.append_nil]; exact h
      · rw [if_neg hr]; exact call_fits .start h
    | trigger =>
      dsimp only
      by_cases hr : s.reader.isSome = true
      · rw [if_pos hr, List.append_nil]; exact h
      · rw [if_neg hr]; exact call_fits .trigger h
    | stop =>
      dsimp only
      rw [List.append_nil]
      unfold stop
      cases hp : s.phase with
      | none =>
        have hu : Updates es := by unfold Fits at h; rw [hp] at h; exact h
        exact fits_of (stopNow_phase (fun _ _ _ => by rw [hp]; simp)) hu
      | waiting =>
        have hu : Updates es := by unfold Fits at h; rw [hp] at h; exact h
        exact fits_of (stopNow_phase (fun _ _ _ => by rw [hp]; simp)) hu
      | asking g c r => exact fits_congr h hp.symm rfl
    | wake =>
      dsimp only
      unfold wake
      cases hp : s.phase with
      | none => dsimp only; rw [List.append_nil]; exact h
      | asking g c r => dsimp only; rw [List.append_nil]; exact h
      | waiting =>
        dsimp only
        have hu : Updates es := by unfold Fits at h; rw [hp] at h; exact h
        by_cases hn : s.now ≤ s.deadline
        · rw [if_pos hn, List.append_nil]; exact h
        · rw [if_neg hn]
          have := next_fits T hd [] s.certs (t := s.now) hu
          show Fits (next T s [] s.certs).1 (es ++ .start s.now s.certs :: (next T s [] s.certs).2)
          rw [show begun s.now [] s.certs = [.start s.now s.certs] from rfl, List.append_assoc] at this
          exact this
    | answer a =>
      dsimp only
      unfold answer
      cases hp : s.phase with
      | none => dsimp only; rw [List.append_nil]; exact h
      | waiting => dsimp only; rw [List.append_nil]; exact h
      | asking g c r =>
        cases hr : s.reader with
        | some k => dsimp only; rw [List.append_nil]; exact h
        | none =>
          dsimp only
          have hu : Unfinished es g c r := by
            unfold Fits at h; rw [hp] at h; dsimp only at h; rw [if_neg (by simp [hd])] at h; exact h
          exact answered_fits T a hd hp hu
    | timeout =>
      dsimp only
      unfold timeout
      cases hp : s.phase with
      | none => dsimp only; rw [List.append_nil]; exact h
      | waiting => dsimp only; rw [List.append_nil]; exact h
      | asking g c r =>
        dsimp only
        have hu : Unfinished es g c r := by
          unfold Fits at h; rw [hp] at h; dsimp only at h; rw [if_neg (by simp [hd])] at h; exact h
        exact answered_fits T .other hd hp hu

theorem run_fits (T : Times) {s : State} {es : List Ev} (ops : List Op) (h : Fits s es) : Fits (run T s ops).1 (es ++ (run T s ops).2) := by
  induction ops generalizing s es with
  | nil => show Fits s (es ++ []); rw [List.append_nil]; exact h
  | cons o os ih =>
    have := ih (step_fits T o h)
    show Fits (run T (step T s o).1 os).1 (es ++ ((step T s o).2 ++ (run T (step T s o).1 os).2))
    rw [← List.append_assoc]
    exact this

/-! ## C194 -/

/-- C194: whatever happens — answers, failures, timeouts, triggers, stops, in any order —, the OCSP results are stored only at the end of
an update in which the CSMS gave a result for every certificate, then all of them are stored, each for the certificate it was given for;
an update that fails or is not at its end stores nothing. -/
theorem C194_all_or_nothing (T : Times) (ops : List Op) :
    Updates (run T {} ops).2 ∨ ∃ ps c rest, Unfinished (run T {} ops).2 ps c rest := by
  have h := run_fits T (s := {}) (es := []) ops Updates.nil
  rw [List.nil_append] at h
  unfold Fits at h
  cases hp : (run T {} ops).1.phase with
  | none => rw [hp] at h; exact Or.inl h
  | waiting => rw [hp] at h; exact Or.inl h
  | asking g c r =>
    rw [hp] at h
    dsimp only at h
    by_cases hd : (run T {} ops).1.dead = true
    · rw [if_pos hd] at h; exact Or.inl h
    · rw [if_neg hd] at h; exact Or.inr ⟨g, c, r, h⟩

theorem mem_release {s : State} {e : Ev} (h : e ∈ (release s).2) : e = .terminated ∨ ∃ t, e = .triggered t := by
  rw [release_eq] at h
  simp only at h
  unfold unblock at h
  cases hr : s.reader with
  | none => rw [hr] at h; exact absurd h (by simp)
  | some k =>
    rw [hr] at h
    dsimp only at h
    cases k with
    | start =>
      rcases startNow_cases { s with reader := none } with ⟨h1, _, _⟩ | ⟨h1, _, _⟩
      · rw [show (callNow { s with reader := none } .start).2 = [] from h1] at h; exact absurd h (by simp)
      · rw [show (callNow { s with reader := none } .start).2 = [.terminated] from h1] at h
        exact Or.inl (by simpa using h)
    | trigger =>
      rw [show callNow { s with reader := none } .trigger = triggerNow { s with reader := none } from rfl] at h
      unfold triggerNow at h
      by_cases hrun : s.running = true
      · rw [if_pos hrun] at h; exact Or.inr ⟨s.now, by simpa using h⟩
      · rw [if_neg hrun] at h; exact absurd h (by simp)

theorem got_not_release {s : State} {c : Cert} {r : Result} : Ev.got c r ∉ (release s).2 := fun h => by
  rcases mem_release h with h | ⟨t, h⟩ <;> exact absurd h (by simp)

theorem got_not_next {T : Times} {s : State} {got : List (Cert × Result)} {rest : List Cert} {c : Cert} {r : Result} :
    Ev.got c r ∉ (next T s got rest).2 := by
  intro h
  cases rest with
  | nil =>
    rw [show (next T s got []).2 = got.map (fun p => Ev.store p.1 p.2) ++ .done s.now :: (finish s T.interval).2 from rfl] at h
    rcases List.mem_append.1 h with h | h
    · obtain ⟨p, _, hp⟩ := List.mem_map.1 h; exact absurd hp (by simp)
    · rcases List.mem_cons.1 h with h | h
      · exact absurd h (by simp)
      · exact got_not_release h
  | cons d rest =>
    rw [show (next T s got (d :: rest)).2 = [.ask d] from rfl] at h
    exact absurd h (by simp)

/-- C194: a result is taken for a certificate only from the CSMS: from its answer `Accepted` to the request for that certificate. -/
theorem C194_results (T : Times) (s : State) (o : Op) (c : Cert) (r : Result) (h : Ev.got c r ∈ (step T s o).2) :
    o = .answer (.accepted r) ∧ ∃ got rest, s.phase = .asking got c rest := by
  have key : ∀ got d rest a, Ev.got c r ∈ (answered T s got d rest a).2 → a = .accepted r ∧ c = d := by
    intro got d rest a ha
    cases a with
    | accepted r' =>
      rw [show (answered T s got d rest (.accepted r')).2 = .got d r' :: (next T s (got ++ [(d, r')]) rest).2 from rfl] at ha
      rcases List.mem_cons.1 ha with ha | ha
      · injection ha with h1 h2; exact ⟨by rw [h2], h1⟩
      · exact absurd ha got_not_next
    | malformed => exact absurd ha (by simp [answered])
    | empty =>
      rw [show (answered T s got d rest .empty).2 = .failed s.now :: (finish s T.retry).2 from rfl] at ha
      rcases List.mem_cons.1 ha with ha | ha
      · exact absurd ha (by simp)
      · exact absurd ha got_not_release
    | failed =>
      rw [show (answered T s got d rest .failed).2 = .failed s.now :: (finish s T.retry).2 from rfl] at ha
      rcases List.mem_cons.1 ha with ha | ha
      · exact absurd ha (by simp)
      · exact absurd ha got_not_release
    | other =>
      rw [show (answered T s got d rest .other).2 = .failed s.now :: (finish s T.retry).2 from rfl] at ha
      rcases List.mem_cons.1 ha with ha | ha
      · exact absurd ha (by simp)
      · exact absurd ha got_not_release
  have hcall : ∀ k, Ev.got c r ∉ (call s k).2 := by
    intro k hk
    unfold call at hk
    have hn : Ev.got c r ∉ (callNow s k).2 := by
      intro hk
      cases k with
      | start =>
        rcases startNow_cases s with ⟨h1, _, _⟩ | ⟨h1, _, _⟩ <;>
        · rw [show (callNow s .start).2 = (startNow s).2 from rfl, h1] at hk; exact absurd hk (by simp)
      | trigger =>
        rw [show callNow s .trigger = triggerNow s from rfl] at hk
        unfold triggerNow at hk
        by_cases hrun : s.running = true
        · rw [if_pos hrun] at hk; exact absurd hk (by simp)
        · rw [if_neg hrun] at hk; exact absurd hk (by simp)
    cases hp : s.phase with
    | none => rw [hp] at hk; exact hn hk
    | waiting => rw [hp] at hk; exact hn hk
    | asking g d q => rw [hp] at hk; exact absurd hk (by simp)
  unfold step at h
  by_cases hd : s.dead = true
  · rw [if_pos hd] at h; exact absurd h (by simp)
  · rw [if_neg hd] at h
    cases o with
    | tick n => exact absurd h (by simp)
    | setCerts l => exact absurd h (by simp)
    | stop => exact absurd h (by simp)
    | start =>
      dsimp only at h
      by_cases hr : s.reader.isSome = true
      · rw [if_pos hr] at h; exact absurd h (by simp)
      · rw [if_neg hr] at h; exact absurd h (hcall _)
    | trigger =>
      dsimp only at h
      by_cases hr : s.reader.isSome = true
      · rw [if_pos hr] at h; exact absurd h (by simp)
      · rw [if_neg hr] at h; exact absurd h (hcall _)
    | wake =>
      dsimp only at h
      unfold wake at h
      cases hp : s.phase with
      | none => rw [hp] at h; exact absurd h (by simp)
      | asking g d q => rw [hp] at h; exact absurd h (by simp)
      | waiting =>
        rw [hp] at h
        dsimp only at h
        by_cases hn : s.now ≤ s.deadline
        · rw [if_pos hn] at h; exact absurd h (by simp)
        · rw [if_neg hn] at h
          rcases List.mem_cons.1 h with h | h
          · exact absurd h (by simp)
          · exact absurd h got_not_next
    | answer a =>
      dsimp only at h
      unfold answer at h
      cases hp : s.phase with
      | none => rw [hp] at h; exact absurd h (by simp)
      | waiting => rw [hp] at h; exact absurd h (by simp)
      | asking g d q =>
        rw [hp] at h
        cases hr : s.reader with
        | some k => rw [hr] at h; exact absurd h (by simp)
        | none =>
          rw [hr] at h
          have := key g d q a h
          exact ⟨by rw [this.1], g, q, by rw [this.2]⟩
    | timeout =>
      dsimp only at h
      unfold timeout at h
      cases hp : s.phase with
      | none => rw [hp] at h; exact absurd h (by simp)
      | waiting => rw [hp] at h; exact absurd h (by simp)
      | asking g d q =>
        rw [hp] at h
        exact absurd (key g d q .other h).1 (by simp)

/-- Two intervals for the examples. -/
def week : Times := { interval := 100, retry := 10 }

example : (run week {} [.setCerts [4, 5], .start, .tick 1, .wake, .answer (.accepted 40), .answer (.accepted 50)]).2 =
    [.start 1 [4, 5], .ask 4, .got 4 40, .ask 5, .got 5 50, .store 4 40, .store 5 50, .done 1] := by decide +kernel

example : (run week {} [.setCerts [4, 5], .start, .tick 1, .wake, .answer (.accepted 40), .answer .failed]).2 =
    [.start 1 [4, 5], .ask 4, .got 4 40, .ask 5, .failed 1] := by decide +kernel

/-! ## C195 -/

theorem dueAfter_append (T : Times) (d : Nat) (a b : List Ev) : dueAfter T d (a ++ b) = dueAfter T (dueAfter T d a) b := by
  induction a generalizing d with
  | nil => rfl
  | cons e es ih => cases e <;> exact ih _

/-- The deadline is what the trace says, but while an update runs. -/
def OnTime (T : Times) (s : State) (es : List Ev) : Prop := s.deadline = dueAfter T 0 es

theorem dueAfter_stores (T : Times) (d : Nat) (ps : List (Cert × Result)) (es : List Ev) :
    dueAfter T d (ps.map (fun p => Ev.store p.1 p.2) ++ es) = dueAfter T d es := by
  induction ps with
  | nil => rfl
  | cons p ps ih => exact ih

theorem callNow_due (T : Times) (s : State) (k : Call) (d : Nat) (h : s.deadline = d) : (callNow s k).1.deadline = dueAfter T d (callNow s k).2 := by
  cases k with
  | start =>
    show (startNow s).1.deadline = dueAfter T d (startNow s).2
    rcases startNow_cases s with ⟨h1, _, h3⟩ | ⟨h1, _, h3⟩
    · rw [h1, h3]; exact h
    · rw [h1, h3]; exact h
  | trigger =>
    show (triggerNow s).1.deadline = dueAfter T d (triggerNow s).2
    unfold triggerNow
    by_cases hr : s.running = true
    · rw [if_pos hr]; rfl
    · rw [if_neg hr]; exact h

theorem release_due (T : Times) (s : State) (d : Nat) (h : s.deadline = d) : (release s).1.deadline = dueAfter T d (release s).2 := by
  rw [release_eq]
  show (unblockStop (unblock s).1).deadline = dueAfter T d (unblock s).2
  have : (unblockStop (unblock s).1).deadline = (unblock s).1.deadline := by
    unfold unblockStop stopNow
    split
    · split <;> rfl
    · rfl
  rw [this]
  unfold unblock
  cases s.reader with
  | none => exact h
  | some k => exact callNow_due T { s with reader := none } k d h

theorem next_due (T : Times) (s : State) (got : List (Cert × Result)) (rest : List Cert) :
    (next T s got rest).1.deadline = dueAfter T s.deadline (next T s got rest).2 := by
  cases rest with
  | nil =>
    show (finish s T.interval).1.deadline = dueAfter T s.deadline (got.map (fun p => Ev.store p.1 p.2) ++ .done s.now :: (finish s T.interval).2)
    rw [dueAfter_stores]
    exact release_due T _ (s.now + T.interval) rfl
  | cons c rest => rfl

theorem answered_due (T : Times) (s : State) (got : List (Cert × Result)) (c : Cert) (rest : List Cert) (a : Answer) :
    (answered T s got c rest a).1.deadline = dueAfter T s.deadline (answered T s got c rest a).2 := by
  cases a with
  | accepted r => exact next_due T s _ rest
  | malformed => rfl
  | empty => exact release_due T _ (s.now + T.retry) rfl
  | failed => exact release_due T _ (s.now + T.retry) rfl
  | other => exact release_due T _ (s.now + T.retry) rfl

theorem call_due (T : Times) (s : State) (k : Call) : (call s k).1.deadline = dueAfter T s.deadline (call s k).2 := by
  unfold call
  cases s.phase with
  | none => exact callNow_due T s k _ rfl
  | waiting => exact callNow_due T s k _ rfl
  | asking g c r => rfl

theorem step_due (T : Times) (s : State) (o : Op) : (step T s o).1.deadline = dueAfter T s.deadline (step T s o).2 := by
  unfold step
  by_cases hd : s.dead = true
  · rw [if_pos hd]; rfl
  · rw [if_neg hd]
    cases o with
    | tick n => rfl
    | setCerts l => rfl
    | start =>
      dsimp only
      split
      · rfl
      · exact call_due T s _
    | trigger =>
      dsimp only
      split
      · rfl
      · exact call_due T s _
    | stop =>
      show (stop s).deadline = s.deadline
      unfold stop stopNow
      split
      · rfl
      · split <;> rfl
    | wake =>
      show (wake T s).1.deadline = dueAfter T s.deadline (wake T s).2
      unfold wake
      cases s.phase with
      | none => rfl
      | asking g c r => rfl
      | waiting =>
        dsimp only
        split
        · rfl
        · exact next_due T s [] s.certs
    | answer a =>
      show (answer T s a).1.deadline = dueAfter T s.deadline (answer T s a).2
      unfold answer
      split
      · exact answered_due T s _ _ _ a
      · rfl
    | timeout =>
      show (timeout T s).1.deadline = dueAfter T s.deadline (timeout T s).2
      unfold timeout
      split
      · exact answered_due T s _ _ _ .other
      · rfl

theorem run_due (T : Times) (s : State) (ops : List Op) : (run T s ops).1.deadline = dueAfter T s.deadline (run T s ops).2 := by
  induction ops generalizing s with
  | nil => rfl
  | cons o os ih =>
    show (run T (step T s o).1 os).1.deadline = dueAfter T s.deadline ((step T s o).2 ++ (run T (step T s o).1 os).2)
    rw [dueAfter_append, ← step_due, ih]

theorem start_not_next {T : Times} {s : State} {got : List (Cert × Result)} {rest : List Cert} {t : Nat} {l : List Cert} :
    Ev.start t l ∉ (next T s got rest).2 := by
  intro h
  cases rest with
  | nil =>
    rw [show (next T s got []).2 = got.map (fun p => Ev.store p.1 p.2) ++ .done s.now :: (finish s T.interval).2 from rfl] at h
    rcases List.mem_append.1 h with h | h
    · obtain ⟨p, _, hp⟩ := List.mem_map.1 h; exact absurd hp (by simp)
    · rcases List.mem_cons.1 h with h | h
      · exact absurd h (by simp)
      · rcases mem_release h with h | ⟨t, h⟩ <;> exact absurd h (by simp)
  | cons d rest =>
    rw [show (next T s got (d :: rest)).2 = [.ask d] from rfl] at h
    exact absurd h (by simp)

theorem start_not_answered {T : Times} {s : State} {got : List (Cert × Result)} {c : Cert} {rest : List Cert} {a : Answer} {t : Nat}
    {l : List Cert} : Ev.start t l ∉ (answered T s got c rest a).2 := by
  intro h
  have hf : ∀ w, Ev.start t l ∉ Ev.failed s.now :: (finish s w).2 := by
    intro w h
    rcases List.mem_cons.1 h with h | h
    · exact absurd h (by simp)
    · rcases mem_release h with h | ⟨t, h⟩ <;> exact absurd h (by simp)
  cases a with
  | accepted r =>
    rw [show (answered T s got c rest (.accepted r)).2 = .got c r :: (next T s (got ++ [(c, r)]) rest).2 from rfl] at h
    rcases List.mem_cons.1 h with h | h
    · exact absurd h (by simp)
    · exact start_not_next h
  | malformed => exact absurd h (by simp [answered])
  | empty => exact hf T.retry h
  | failed => exact hf T.retry h
  | other => exact hf T.retry h

theorem start_not_call {s : State} {k : Call} {t : Nat} {l : List Cert} : Ev.start t l ∉ (call s k).2 := by
  intro h
  have hn : Ev.start t l ∉ (callNow s k).2 := by
    intro hk
    cases k with
    | start =>
      rcases startNow_cases s with ⟨h1, _, _⟩ | ⟨h1, _, _⟩ <;>
      · rw [show (callNow s .start).2 = (startNow s).2 from rfl, h1] at hk; exact absurd hk (by simp)
    | trigger =>
      rw [show callNow s .trigger = triggerNow s from rfl] at hk
      unfold triggerNow at hk
      by_cases hrun : s.running = true
      · rw [if_pos hrun] at hk; exact absurd hk (by simp)
      · rw [if_neg hrun] at hk; exact absurd hk (by simp)
  unfold call at h
  cases hp : s.phase with
  | none => rw [hp] at h; exact hn h
  | waiting => rw [hp] at h; exact hn h
  | asking g d q => rw [hp] at h; exact absurd h (by simp)

/-- An update begins only when the updater's thread awakes after the deadline. -/
theorem step_start {T : Times} {s : State} {o : Op} {t : Nat} {l : List Cert} (h : Ev.start t l ∈ (step T s o).2) :
    s.deadline < s.now ∧ t = s.now ∧ l = s.certs ∧ s.phase = .waiting ∧ o = .wake ∧ s.dead = false ∧ ∃ es, (step T s o).2 = .start t l :: es ∧ Ev.start t l ∉ es := by
  unfold step at h ⊢
  by_cases hd : s.dead = true
  · rw [if_pos hd] at h; exact absurd h (by simp)
  · rw [if_neg hd] at h ⊢
    cases o with
    | tick n => exact absurd h (by simp)
    | setCerts l => exact absurd h (by simp)
    | stop => exact absurd h (by simp)
    | start =>
      dsimp only at h
      by_cases hr : s.reader.isSome = true
      · rw [if_pos hr] at h; exact absurd h (by simp)
      · rw [if_neg hr] at h; exact absurd h start_not_call
    | trigger =>
      dsimp only at h
      by_cases hr : s.reader.isSome = true
      · rw [if_pos hr] at h; exact absurd h (by simp)
      · rw [if_neg hr] at h; exact absurd h start_not_call
    | answer a =>
      dsimp only at h
      unfold answer at h
      split at h
      · exact absurd h start_not_answered
      · exact absurd h (by simp)
    | timeout =>
      dsimp only at h
      unfold timeout at h
      split at h
      · exact absurd h start_not_answered
      · exact absurd h (by simp)
    | wake =>
      dsimp only at h ⊢
      unfold wake at h ⊢
      cases hp : s.phase with
      | none => rw [hp] at h; exact absurd h (by simp)
      | asking g d q => rw [hp] at h; exact absurd h (by simp)
      | waiting =>
        rw [hp] at h
        dsimp only at h ⊢
        by_cases hn : s.now ≤ s.deadline
        · rw [if_pos hn] at h; exact absurd h (by simp)
        · rw [if_neg hn] at h ⊢
          rcases List.mem_cons.1 h with h | h
          · injection h with h1 h2
            subst h1 h2
            exact ⟨by omega, rfl, rfl, rfl, rfl, by simpa using hd, _, rfl, start_not_next⟩
          · exact absurd h start_not_next

theorem split_start {T : Times} {s : State} (ops : List Op) {es rest : List Ev} {t : Nat} {l : List Cert}
    (h : (run T s ops).2 = es ++ .start t l :: rest) : dueAfter T s.deadline es < t := by
  induction ops generalizing s es with
  | nil => exact absurd h (by simp [run])
  | cons o os ih =>
    rw [show (run T s (o :: os)).2 = (step T s o).2 ++ (run T (step T s o).1 os).2 from rfl] at h
    rcases List.append_eq_append_iff.1 h with ⟨a, h1, h2⟩ | ⟨a, h1, h2⟩
    · -- the update begins later
      have := ih h2
      rw [h1, dueAfter_append, ← step_due]
      exact this
    · cases a with
      | nil =>
        rw [List.nil_append] at h2
        rw [List.append_nil] at h1
        have := ih (es := []) h2.symm
        rw [← h1, ← step_due]
        exact this
      | cons e a =>
        injection h2 with he h2
        subst he
        have hm : Ev.start t l ∈ (step T s o).2 := by rw [h1]; simp
        obtain ⟨k1, k2, k3, _, _, _, es', k4, k5⟩ := step_start hm
        rw [k4] at h1
        cases es with
        | nil => show s.deadline < t; rw [k2]; exact k1
        | cons e es =>
          injection h1 with _ h1
          exact absurd (by rw [h1]; simp) k5

/-- C195: no update begins before it is due: not before the interval after a complete update or the retry interval after a failed one has
passed, unless one was triggered. -/
theorem C195_not_early (T : Times) (ops : List Op) (es rest : List Ev) (t : Nat) (l : List Cert)
    (h : (run T {} ops).2 = es ++ .start t l :: rest) : dueAfter T 0 es < t :=
  split_start (s := {}) ops h

/-- C195: when an update is due and the updater's thread awakes (while the station is not stopped), it begins, for the certificates of that
moment. -/
theorem C195_when_due (T : Times) (ops : List Op) (hd : (run T {} ops).1.dead = false) (hp : (run T {} ops).1.phase = .waiting)
    (hn : dueAfter T 0 (run T {} ops).2 < (run T {} ops).1.now) :
    ∃ es, (run T {} (ops ++ [.wake])).2 = (run T {} ops).2 ++ .start (run T {} ops).1.now (run T {} ops).1.certs :: es := by
  rw [run_append]
  have hdl := run_due T {} ops
  have hn' : (run T {} ops).1.deadline < (run T {} ops).1.now := by rw [hdl]; exact hn
  refine ⟨(next T (run T {} ops).1 [] (run T {} ops).1.certs).2, ?_⟩
  show (run T {} ops).2 ++ ((step T (run T {} ops).1 .wake).2 ++ []) = _
  rw [List.append_nil]
  congr 1
  unfold step
  rw [if_neg (by simp [hd])]
  show (wake T _).2 = _
  unfold wake
  rw [hp]
  dsimp only
  rw [if_neg (Nat.not_le.2 hn')]

/-- C195: a trigger takes effect at once, also one that had to wait for the update that was under way: that is at its end then. -/
theorem C195_trigger (T : Times) (s : State) (hd : s.dead = false) (hr : s.reader = none) (hrun : s.running = true) :
    ((∀ g c r, s.phase ≠ .asking g c r) → (step T s .trigger).2 = [.triggered s.now]) ∧
    (∀ g c r, s.phase = .asking g c r → ∀ n, (step T { s with reader := some .trigger, now := n } .timeout).2 = [.failed n, .triggered n]) ∧
    (∀ g c r, s.phase = .asking g c r → (step T s .trigger).1 = { s with reader := some .trigger }) := by
  refine ⟨fun hp => ?_, fun g c r hp n => ?_, fun g c r hp => ?_⟩
  · unfold step
    rw [if_neg (by simp [hd])]
    dsimp only
    rw [if_neg (by simp [hr])]
    unfold call
    cases hph : s.phase with
    | asking g c r => exact absurd hph (hp g c r)
    | none => dsimp only; show (triggerNow s).2 = _; unfold triggerNow; rw [if_pos hrun]
    | waiting => dsimp only; show (triggerNow s).2 = _; unfold triggerNow; rw [if_pos hrun]
  · unfold step
    rw [if_neg (by simp [hd])]
    show (timeout T _).2 = _
    unfold timeout
    dsimp only
    rw [hp]
    dsimp only
    show Ev.failed n :: (triggerNow { s with now := n, reader := none, deadline := n + T.retry, phase := .waiting }).2 = _
    unfold triggerNow
    rw [if_pos hrun]
  · unfold step
    rw [if_neg (by simp [hd])]
    dsimp only
    rw [if_neg (by simp [hr])]
    unfold call
    rw [hp]

example : (run week {} [.setCerts [4], .start, .tick 1, .wake, .answer (.accepted 40), .tick 50, .wake, .trigger, .tick 1, .wake]).2 =
    [.start 1 [4], .ask 4, .got 4 40, .store 4 40, .done 1, .triggered 51, .start 52 [4], .ask 4] := by decide +kernel

example : dueAfter week 0 [.start 1 [4], .ask 4, .got 4 40, .store 4 40, .done 1] = 101 := by decide

/-! ## C196 -/

/-- How often the CSMS accepts the station. -/
def starts (ops : List Op) : Nat := ops.countP (fun o => decide (o = .start))

/-- Starts that are still to come or wait. -/
def pending (s : State) : Nat := if s.reader = some .start then 1 else 0

/-- The process lives, and there is no thread if the station was not yet accepted. -/
def Alive (s : State) (n : Nat) : Prop :=
  s.dead = false ∧ (n + pending s = 0 ∨ (n + pending s ≤ 1 ∧ s.phase = .none))

theorem startNow_alive {s : State} (hd : s.dead = false) (hp : s.phase = .none) : (startNow s).1.dead = false := by
  rcases startNow_cases s with ⟨_, _, h3⟩ | ⟨_, h2, _⟩
  · rw [h3]; exact hd
  · exact absurd hp h2

theorem stopNow_dead (s : State) : (stopNow s).dead = s.dead := by unfold stopNow; split <;> rfl

theorem stopNow_reader (s : State) : (stopNow s).reader = s.reader := by unfold stopNow; split <;> rfl

theorem stopNow_none {s : State} (h : s.phase = .none) : (stopNow s).phase = .none := by
  unfold stopNow
  split
  · rfl
  · exact h

theorem triggerNow_same (s : State) : (triggerNow s).1.dead = s.dead ∧ (triggerNow s).1.reader = s.reader ∧ (triggerNow s).1.phase = s.phase := by
  unfold triggerNow; split <;> exact ⟨rfl, rfl, rfl⟩

theorem finish_alive {s : State} {n w : Nat} (hd : s.dead = false) (hn : n + pending s = 0) : Alive (finish s w).1 n := by
  have hp : s.reader ≠ some .start := fun h => by unfold pending at hn; rw [if_pos h] at hn; omega
  have hn0 : n = 0 := by omega
  have key : (unblock { s with deadline := s.now + w, phase := .waiting }).1.dead = false ∧
      (unblock { s with deadline := s.now + w, phase := .waiting }).1.reader = none := by
    unfold unblock
    cases hr : s.reader with
    | none => exact ⟨hd, rfl⟩
    | some k =>
      cases k with
      | start => exact absurd hr hp
      | trigger =>
        dsimp only
        have := triggerNow_same { now := s.now, running := s.running, deadline := s.now + w, phase := .waiting, reader := none, stopper := s.stopper, certs := s.certs, dead := s.dead }
        show (triggerNow _).1.dead = false ∧ (triggerNow _).1.reader = none
        rw [this.1, this.2.1]
        exact ⟨hd, rfl⟩
  show Alive (release _).1 n
  rw [release_eq]
  show Alive (unblockStop (unblock _).1) n
  unfold unblockStop
  have hz : ∀ x : State, x.dead = false → x.reader = none → Alive x n := fun x h1 h2 =>
    ⟨h1, Or.inl (by unfold pending; rw [if_neg (by simp [h2]), hn0])⟩
  split
  · exact hz _ (by rw [stopNow_dead]; exact key.1) (by rw [stopNow_reader]; exact key.2)
  · exact hz _ key.1 key.2

theorem answered_alive {T : Times} {s : State} {n : Nat} {got : List (Cert × Result)} {c : Cert} {rest : List Cert} {a : Answer}
    (ha : a ≠ .malformed) (hd : s.dead = false) (hn : n + pending s = 0) : Alive (answered T s got c rest a).1 n := by
  cases a with
  | malformed => exact absurd rfl ha
  | accepted r =>
    show Alive (next T s (got ++ [(c, r)]) rest).1 n
    cases rest with
    | nil => exact finish_alive (w := T.interval) hd hn
    | cons d rest => exact ⟨hd, Or.inl hn⟩
  | empty => exact finish_alive (w := T.retry) hd hn
  | failed => exact finish_alive (w := T.retry) hd hn
  | other => exact finish_alive (w := T.retry) hd hn

theorem step_alive {T : Times} {s : State} {n : Nat} {o : Op} (ho : o ≠ .answer .malformed) (h : Alive s ((if o = .start then 1 else 0) + n)) :
    Alive (step T s o).1 n := by
  obtain ⟨hd, hc⟩ := h
  have ask0 : ∀ g c r, s.phase = .asking g c r → ∀ m, (m + pending s = 0 ∨ (m + pending s ≤ 1 ∧ s.phase = .none)) → m + pending s = 0 := by
    intro g c r hp m hm
    rcases hm with hm | ⟨_, hm⟩
    · exact hm
    · rw [hp] at hm; exact absurd hm (by simp)
  unfold step
  rw [if_neg (by simp [hd])]
  cases o with
  | tick k => rw [if_neg (by simp), Nat.zero_add] at hc; exact ⟨hd, hc⟩
  | setCerts l => rw [if_neg (by simp), Nat.zero_add] at hc; exact ⟨hd, hc⟩
  | start =>
    rw [if_pos rfl] at hc
    have hp : s.phase = .none := by
      rcases hc with hc | ⟨_, hc⟩
      · omega
      · exact hc
    have hp0 : n = 0 ∧ pending s = 0 := by omega
    dsimp only
    by_cases hr : s.reader.isSome = true
    · rw [if_pos hr]; exact ⟨hd, Or.inl (by show n + pending s = 0; omega)⟩
    · rw [if_neg hr]
      have hr' : s.reader = none := by simpa using hr
      show Alive (call s .start).1 n
      unfold call
      rw [hp]
      dsimp only
      refine ⟨startNow_alive hd hp, Or.inl ?_⟩
      show n + pending (startNow s).1 = 0
      rcases startNow_cases s with ⟨_, _, h3⟩ | ⟨_, h2, _⟩
      · rw [h3]; show n + (if s.reader = some .start then 1 else 0) = 0; rw [hr']; simp [hp0.1]
      · exact absurd hp h2
  | trigger =>
    rw [if_neg (by simp), Nat.zero_add] at hc
    dsimp only
    by_cases hr : s.reader.isSome = true
    · rw [if_pos hr]; exact ⟨hd, hc⟩
    · rw [if_neg hr]
      have hr' : s.reader = none := by simpa using hr
      show Alive (call s .trigger).1 n
      unfold call
      have ht := triggerNow_same s
      cases hp : s.phase with
      | asking g c r =>
        dsimp only
        have := ask0 g c r hp n hc
        exact ⟨hd, Or.inl (by show n + (if some Call.trigger = some Call.start then 1 else 0) = 0; simp; omega)⟩
      | none =>
        refine ⟨by show (triggerNow s).1.dead = false; rw [ht.1]; exact hd, ?_⟩
        show n + pending (triggerNow s).1 = 0 ∨ (n + pending (triggerNow s).1 ≤ 1 ∧ (triggerNow s).1.phase = .none)
        have : pending (triggerNow s).1 = pending s := by unfold pending; rw [ht.2.1]
        rw [this, ht.2.2]; exact hc
      | waiting =>
        refine ⟨by show (triggerNow s).1.dead = false; rw [ht.1]; exact hd, ?_⟩
        show n + pending (triggerNow s).1 = 0 ∨ (n + pending (triggerNow s).1 ≤ 1 ∧ (triggerNow s).1.phase = .none)
        have : pending (triggerNow s).1 = pending s := by unfold pending; rw [ht.2.1]
        rw [this, ht.2.2]; exact hc
  | stop =>
    rw [if_neg (by simp), Nat.zero_add] at hc
    show Alive (stop s) n
    unfold stop
    have hs : ∀ q, s.phase = q → (∀ g c r, q ≠ .asking g c r) → Alive (stopNow s) n := by
      intro q hq _
      refine ⟨by rw [stopNow_dead]; exact hd, ?_⟩
      have : pending (stopNow s) = pending s := by unfold pending; rw [stopNow_reader]
      rw [this]
      rcases hc with hc | ⟨h1, h2⟩
      · exact Or.inl hc
      · exact Or.inr ⟨h1, stopNow_none h2⟩
    cases hp : s.phase with
    | asking g c r => dsimp only; exact ⟨hd, Or.inl (ask0 g c r hp n hc)⟩
    | none => exact hs _ hp (by simp)
    | waiting => exact hs _ hp (by simp)
  | wake =>
    rw [if_neg (by simp), Nat.zero_add] at hc
    show Alive (wake T s).1 n
    unfold wake
    cases hp : s.phase with
    | none => exact ⟨hd, hc⟩
    | asking g c r => exact ⟨hd, hc⟩
    | waiting =>
      dsimp only
      by_cases hn : s.now ≤ s.deadline
      · rw [if_pos hn]; exact ⟨hd, hc⟩
      · rw [if_neg hn]
        have h0 : n + pending s = 0 := by
          rcases hc with hc | ⟨_, hc⟩
          · exact hc
          · rw [hp] at hc; exact absurd hc (by simp)
        show Alive (next T s [] s.certs).1 n
        cases s.certs with
        | nil => exact finish_alive (w := T.interval) hd h0
        | cons d rest => exact ⟨hd, Or.inl h0⟩
  | answer a =>
    rw [if_neg (by simp), Nat.zero_add] at hc
    show Alive (answer T s a).1 n
    unfold answer
    cases hp : s.phase with
    | none => exact ⟨hd, hc⟩
    | waiting => exact ⟨hd, hc⟩
    | asking g c r =>
      cases hr : s.reader with
      | some k => exact ⟨hd, hc⟩
      | none => exact answered_alive (fun h => ho (by rw [h])) hd (ask0 g c r hp n hc)
  | timeout =>
    rw [if_neg (by simp), Nat.zero_add] at hc
    show Alive (timeout T s).1 n
    unfold timeout
    cases hp : s.phase with
    | none => exact ⟨hd, hc⟩
    | waiting => exact ⟨hd, hc⟩
    | asking g c r => exact answered_alive (by simp) hd (ask0 g c r hp n hc)

theorem run_alive (T : Times) {s : State} (ops : List Op) (ho : ∀ o ∈ ops, o ≠ .answer .malformed) (h : Alive s (starts ops)) :
    (run T s ops).1.dead = false := by
  induction ops generalizing s with
  | nil => exact h.1
  | cons o os ih =>
    refine ih (s := (step T s o).1) (fun x hx => ho x (List.mem_cons_of_mem _ hx)) ?_
    refine step_alive (ho o (List.mem_cons_self ..)) ?_
    have : starts (o :: os) = (if o = .start then 1 else 0) + starts os := by
      unfold starts
      rw [List.countP_cons]
      by_cases hs : o = .start
      · simp [hs, Nat.add_comm]
      · simp [hs]
    rw [← this]
    exact h

/-- C196 (partial: the CSMS accepts the station once, and its answers about certificates can be read): no history of answers, failures,
triggers and stops ends the process.  Missing: answers that cannot be read and a second acceptance (`C196_answer_violated`,
`C196_accepted_violated`). -/
theorem C196_partial (T : Times) (ops : List Op) (h1 : starts ops ≤ 1) (h2 : ∀ o ∈ ops, o ≠ .answer .malformed) :
    (run T {} ops).1.dead = false := by
  refine run_alive T (s := {}) ops h2 ⟨rfl, ?_⟩
  exact Or.inr ⟨by show starts ops + 0 ≤ 1; omega, rfl⟩

example : starts [.setCerts [4], .start, .tick 1, .wake, .trigger, .timeout, .stop] ≤ 1 := by decide

/-- C196 violated: one answer with an unknown status to the request for a certificate's status, and the process ends: the exception leaves
the updater's thread. -/
theorem C196_answer_violated (T : Times) : ∃ ops : List Op, starts ops = 1 ∧ (run T {} ops).1.dead = true :=
  ⟨[.setCerts [4], .start, .tick 1, .wake, .answer .malformed], rfl, rfl⟩

/-- C196 violated: the second acceptance of the station ends the process.  (It may well come: in the state `Pending` the CSMS triggers a
BootNotification while the station's own repetition of it is queued, and accepts both.) -/
theorem C196_accepted_violated (T : Times) : ∃ ops : List Op, (∀ o ∈ ops, o = .start) ∧ (run T {} ops).1.dead = true :=
  ⟨[.start, .start], by simp, rfl⟩

/-! ## C197 -/

/-- C197 (partial: no trigger waits): the answer of the CSMS to the outstanding request is read. -/
theorem C197_partial (T : Times) (s : State) (got : List (Cert × Result)) (c : Cert) (rest : List Cert) (r : Result)
    (hd : s.dead = false) (hp : s.phase = .asking got c rest) (hr : s.reader = none) :
    ∃ es, (step T s (.answer (.accepted r))).2 = .got c r :: es := by
  refine ⟨(next T s (got ++ [(c, r)]) rest).2, ?_⟩
  unfold step
  rw [if_neg (by simp [hd])]
  show (answer T s _).2 = _
  unfold answer
  rw [hp, hr]
  rfl

/-- C197 violated: when the CSMS delivers a V2G certificate while the station waits for the status of another one, the station does not
read any more: neither the answer it waits for nor anything else, until the request times out; then the update has failed. -/
theorem C197_violated (T : Times) : ∃ ops : List Op, (run T {} ops).2 = [.start 1 [4], .ask 4] ∧ (run T {} ops).1.dead = false ∧
    (∀ a, step T (run T {} ops).1 (.answer a) = ((run T {} ops).1, [])) ∧
    step T (run T {} ops).1 .trigger = ((run T {} ops).1, []) ∧
    (step T (run T {} ops).1 .timeout).2 = [.failed 1, .triggered 1] :=
  ⟨[.setCerts [4], .start, .tick 1, .wake, .trigger], rfl, rfl, fun _ => rfl, rfl, rfl⟩

end Verif.Ocsp
