import Verif.Cert2.Model
/-! C203, C204: checks of certificates of OCPP 2.x, and the statuses after a reconnection. -/
set_option linter.unusedSimpArgs false

namespace Verif.Cert2
open Verif.Cert16 (Timer)

/-! ## The specification -/

/-- How long it takes at most until the next check of the client certificate: the first delay or the interval. -/
def clientWait (c : Config) : Nat := max (c.clientDelay.getD 60) (c.clientInterval.getD 43200)

def v2gWait (c : Config) : Nat := max (c.v2gDelay.getD 60) (c.v2gInterval.getD 43200)

/-- A station when it is switched on. -/
def off : State × Nat := ({}, 0)

/-! ## Lemmas -/

/-- A timer is set for the next `d` seconds. -/
def Soon (now d : Nat) (t : Timer) : Prop := ∃ a, (t = .once a ∨ ∃ k, t = .every a k) ∧ a ≤ now + d

theorem soon_due {now d : Nat} {t : Timer} (h : Soon now d t) : ∃ a, a ≤ now + d ∧ ∀ n, t.due n = decide (a ≤ n) := by
  obtain ⟨a, h1 | ⟨k, h1⟩, h2⟩ := h
  · exact ⟨a, h2, fun n => by rw [h1]; rfl⟩
  · exact ⟨a, h2, fun n => by rw [h1]; rfl⟩

theorem soon_later {now d : Nat} {t : Timer} (h : Soon now d t) : Soon (now + 1) d t := by
  obtain ⟨a, h1, h2⟩ := h; exact ⟨a, h1, by omega⟩

theorem off_due (n : Nat) : Timer.off.due n = false := rfl

/-- What a second does. -/
theorem tick_eq (c : Config) (s : State) : tick c s =
    ({ s with
       now := s.now + 1
       client := if s.client.due (s.now + 1) then .every (s.now + 1 + c.clientInterval.getD 43200) (c.clientInterval.getD 43200) else s.client
       v2g := if s.v2g.due (s.now + 1) then .every (s.now + 1 + c.v2gInterval.getD 43200) (c.v2gInterval.getD 43200) else s.v2g },
     (if s.client.due (s.now + 1) then [.client (s.now + 1) (decide (s.clientDays < 30))] else []) ++
     (if s.v2g.due (s.now + 1) then (if c.v2gEnabled.getD false then [.v2g (s.now + 1) (decide (s.v2gDays < 30))] else []) else [])) := by
  unfold tick fireClient fireV2g
  dsimp only
  by_cases h2 : s.client.due (s.now + 1) = true <;> by_cases h3 : s.v2g.due (s.now + 1) = true <;> simp [h2, h3]

theorem run_append (c : Config) (s : State × Nat) (a b : List Op) :
    run c s (a ++ b) = ((run c (run c s a).1 b).1, (run c s a).2 ++ (run c (run c s a).1 b).2) := by
  induction a generalizing s with
  | nil => rfl
  | cons o os ih =>
    show ((run c (step c s o).1 (os ++ b)).1, (step c s o).2 ++ (run c (step c s o).1 (os ++ b)).2) = _
    rw [ih]
    show _ = ((run c (run c (step c s o).1 os).1 b).1, (step c s o).2 ++ (run c (step c s o).1 os).2 ++ _)
    rw [List.append_assoc]
    rfl

/-- The invariant: a connected and accepted station has its timers set; one that is offline and accepted knows since when; one that is
offline has no timers. -/
structure Inv (c : Config) (ps : State × Nat) : Prop where
  on_client : ps.1.online = true → ps.1.accepted = true → ps.1.profile = 3 → Soon ps.1.now (clientWait c) ps.1.client
  on_v2g : ps.1.online = true → ps.1.accepted = true → Soon ps.1.now (v2gWait c) ps.1.v2g
  idle : (ps.1.online = false ∨ ps.1.accepted = false) → ps.1.client = .off ∧ ps.1.v2g = .off
  since : ps.1.online = false → ps.1.accepted = true → ps.1.offlineSince ≠ none
  other : ps.1.online = true → ps.1.profile ≠ 3 → ps.1.client = .off
  conf : ps.1.accepted = true → ps.1.online = true → ps.1.profile = ps.2

theorem init_client (c : Config) (s : State) (h : s.profile = 3) : Soon s.now (clientWait c) (initTimers c s).client := by
  refine ⟨s.now + c.clientDelay.getD 60, Or.inl ?_, ?_⟩
  · show (if s.profile = 3 then _ else _) = _; rw [if_pos h]
  · unfold clientWait; omega

theorem init_v2g (c : Config) (s : State) : Soon s.now (v2gWait c) (initTimers c s).v2g :=
  ⟨s.now + c.v2gDelay.getD 60, Or.inl rfl, by unfold v2gWait; omega⟩

theorem inv_off (c : Config) : Inv c off := by
  constructor <;> intro h
  · exact absurd h (by decide)
  · exact absurd h (by decide)
  · exact ⟨rfl, rfl⟩
  · intro h; exact absurd h (by decide)
  · exact absurd h (by decide)
  · exact absurd h (by decide)

theorem inv_tick {c : Config} {ps : State × Nat} (h : Inv c ps) : Inv c ((tick c ps.1).1, ps.2) := by
  rw [tick_eq]
  constructor
  · intro h1 h2 h3
    have := h.on_client h1 h2 h3
    show Soon (ps.1.now + 1) _ (if ps.1.client.due (ps.1.now + 1) then _ else _)
    split
    · exact ⟨_, Or.inr ⟨_, rfl⟩, by unfold clientWait; omega⟩
    · exact soon_later this
  · intro h1 h2
    have := h.on_v2g h1 h2
    show Soon (ps.1.now + 1) _ (if ps.1.v2g.due (ps.1.now + 1) then _ else _)
    split
    · exact ⟨_, Or.inr ⟨_, rfl⟩, by unfold v2gWait; omega⟩
    · exact soon_later this
  · intro h1
    have := h.idle h1
    show (if ps.1.client.due (ps.1.now + 1) then _ else ps.1.client) = _ ∧ (if ps.1.v2g.due (ps.1.now + 1) then _ else ps.1.v2g) = _
    rw [this.1, this.2]
    exact ⟨rfl, rfl⟩
  · exact h.since
  · intro h1 h2
    show (if ps.1.client.due (ps.1.now + 1) then _ else ps.1.client) = _
    rw [h.other h1 h2]; rfl
  · exact h.conf

theorem resume_some {c : Config} {s : State} {t : Nat} (h : s.offlineSince = some t) :
    resume c s = (initTimers c s, [.statuses (decide (c.threshold < (s.now : Int) - t))]) := by
  unfold resume; rw [h]

theorem inv_step {c : Config} (hth : c.threshold ≠ 0) {ps : State × Nat} (o : Op) (h : Inv c ps) : Inv c (step c ps o).1 := by
  cases o with
  | tick => exact inv_tick h
  | days a b => exact ⟨h.on_client, h.on_v2g, h.idle, h.since, h.other, h.conf⟩
  | connected p =>
    show Inv c (if ps.1.online then (ps, []) else (((connected c ps.1 p).1, p), (connected c ps.1 p).2)).1
    by_cases ho : ps.1.online = true
    · rw [if_pos ho]; exact h
    · rw [if_neg ho]
      have ho' : ps.1.online = false := by simpa using ho
      have hidle := h.idle (Or.inl ho')
      show Inv c ((connected c ps.1 p).1, p)
      unfold connected
      by_cases ha : ps.1.accepted = true
      · rw [if_pos ha]
        obtain ⟨t, ht⟩ : ∃ t, ps.1.offlineSince = some t := by
          cases hs : ps.1.offlineSince with
          | none => exact absurd hs (h.since ho' ha)
          | some t => exact ⟨t, rfl⟩
        dsimp only
        rw [resume_some (s := { ps.1 with online := true, profile := p }) (t := t) ht]
        constructor
        · intro _ _ h3; exact init_client c { ps.1 with online := true, profile := p } h3
        · intro _ _; exact init_v2g c { ps.1 with online := true, profile := p }
        · intro h1
          rcases h1 with h1 | h1
          · exact absurd h1 (by simp [initTimers])
          · rw [show ps.1.accepted = false from h1] at ha; exact absurd ha (by simp)
        · intro h1; exact absurd h1 (by simp [initTimers])
        · intro _ h2
          show (if p = 3 then _ else ps.1.client) = _
          have h2' : p ≠ 3 := h2
          rw [if_neg h2']; exact hidle.1
        · intro _ _; rfl
      · rw [if_neg ha]
        have ha' : ps.1.accepted = false := by simpa using ha
        constructor
        · intro _ h2; exact absurd h2 ha
        · intro _ h2; exact absurd h2 ha
        · intro _; exact hidle
        · intro h1; exact absurd h1 (by simp)
        · intro _ _; exact hidle.1
        · intro h2; exact absurd h2 ha
  | disconnected =>
    show Inv c (if ps.1.online then ((disconnected c ps.1, ps.2), []) else (ps, [])).1
    by_cases ho : ps.1.online = true
    · rw [if_pos ho]
      constructor
      · intro h1; exact absurd h1 (by simp [disconnected])
      · intro h1; exact absurd h1 (by simp [disconnected])
      · intro _; exact ⟨rfl, rfl⟩
      · intro _ _
        show (if c.threshold ≠ 0 then some ps.1.now else ps.1.offlineSince) ≠ none
        rw [if_pos hth]; simp
      · intro h1; exact absurd h1 (by simp [disconnected])
      · intro _ h1; exact absurd h1 (by simp [disconnected])
    · rw [if_neg ho]; exact h
  | accepted =>
    show Inv c (if ps.1.online then ((accept c ps.1 ps.2, ps.2), []) else (ps, [])).1
    by_cases ho : ps.1.online = true
    · rw [if_pos ho]
      constructor
      · intro _ _ h3; exact init_client c { ps.1 with accepted := true, profile := ps.2 } h3
      · intro _ _; exact init_v2g c { ps.1 with accepted := true, profile := ps.2 }
      · intro h1
        rcases h1 with h1 | h1
        · rw [show ps.1.online = false from h1] at ho; exact absurd ho (by simp)
        · exact absurd h1 (by simp [accept, initTimers])
      · intro h1; rw [show ps.1.online = false from h1] at ho; exact absurd ho (by simp)
      · intro _ h2
        show (if ps.2 = 3 then _ else ps.1.client) = _
        have h2' : ps.2 ≠ 3 := h2
        rw [if_neg h2']
        by_cases ha : ps.1.accepted = true
        · refine h.other ho ?_
          rw [h.conf ha ho]; exact h2'
        · exact (h.idle (Or.inr (by simpa using ha))).1
      · intro _ _; rfl
    · rw [if_neg ho]; exact h

theorem inv_run {c : Config} (hth : c.threshold ≠ 0) (ops : List Op) {ps : State × Nat} (h : Inv c ps) : Inv c (run c ps ops).1 := by
  induction ops generalizing ps with
  | nil => exact h
  | cons o os ih => exact ih (inv_step hth o h)

/-- Seconds until a timer is due. -/
theorem client_comes (c : Config) (n : Nat) (s : State) (p : Nat) (a : Nat) (ha : ∀ k, s.client.due k = decide (a ≤ k)) (hn : a ≤ s.now + n) :
    ∃ k, k ≤ n ∧ Ev.client (s.now + k + 1) (decide (s.clientDays < 30)) ∈ (run c (s, p) (List.replicate (n + 1) .tick)).2 := by
  induction n generalizing s with
  | zero =>
    refine ⟨0, Nat.le_refl _, ?_⟩
    show _ ∈ (tick c s).2 ++ []
    have hd : s.client.due (s.now + 1) = true := by rw [ha]; simp; omega
    rw [tick_eq, List.append_nil]
    refine List.mem_append_left _ ?_
    rw [if_pos hd]
    simp
  | succ n ih =>
    rw [List.replicate_succ]
    show ∃ k, k ≤ n + 1 ∧ _ ∈ (tick c s).2 ++ (run c ((tick c s).1, p) (List.replicate (n + 1) .tick)).2
    by_cases hd : s.client.due (s.now + 1) = true
    · refine ⟨0, by omega, List.mem_append_left _ ?_⟩
      rw [tick_eq]
      refine List.mem_append_left _ ?_
      rw [if_pos hd]
      simp
    · have hc : (tick c s).1.client = s.client := by
        rw [tick_eq]; show (if s.client.due (s.now + 1) then _ else s.client) = _; rw [if_neg hd]
      have hnow : (tick c s).1.now = s.now + 1 := by rw [tick_eq]
      have hdays : (tick c s).1.clientDays = s.clientDays := by rw [tick_eq]
      obtain ⟨k, h1, h2⟩ := ih (tick c s).1 (by rw [hc]; exact ha) (by rw [hnow]; omega)
      rw [hnow, hdays] at h2
      exact ⟨k + 1, by omega, List.mem_append_right _ (by rw [show s.now + (k + 1) + 1 = s.now + 1 + k + 1 by omega]; exact h2)⟩

theorem v2g_comes (c : Config) (he : c.v2gEnabled = some true) (n : Nat) (s : State) (p : Nat) (a : Nat)
    (ha : ∀ k, s.v2g.due k = decide (a ≤ k)) (hn : a ≤ s.now + n) :
    ∃ k, k ≤ n ∧ Ev.v2g (s.now + k + 1) (decide (s.v2gDays < 30)) ∈ (run c (s, p) (List.replicate (n + 1) .tick)).2 := by
  induction n generalizing s with
  | zero =>
    refine ⟨0, Nat.le_refl _, ?_⟩
    show _ ∈ (tick c s).2 ++ []
    rw [tick_eq, List.append_nil]
    refine List.mem_append_right _ ?_
    rw [if_pos (by rw [ha]; simp; omega), he]
    simp
  | succ n ih =>
    rw [List.replicate_succ]
    show ∃ k, k ≤ n + 1 ∧ _ ∈ (tick c s).2 ++ (run c ((tick c s).1, p) (List.replicate (n + 1) .tick)).2
    by_cases hd : s.v2g.due (s.now + 1) = true
    · refine ⟨0, by omega, List.mem_append_left _ ?_⟩
      rw [tick_eq]
      refine List.mem_append_right _ ?_
      rw [if_pos hd, he]
      simp
    · have hc : (tick c s).1.v2g = s.v2g := by
        rw [tick_eq]; show (if s.v2g.due (s.now + 1) then _ else s.v2g) = _; rw [if_neg hd]
      have hnow : (tick c s).1.now = s.now + 1 := by rw [tick_eq]
      have hdays : (tick c s).1.v2gDays = s.v2gDays := by rw [tick_eq]
      obtain ⟨k, h1, h2⟩ := ih (tick c s).1 (by rw [hc]; exact ha) (by rw [hnow]; omega)
      rw [hnow, hdays] at h2
      exact ⟨k + 1, by omega, List.mem_append_right _ (by rw [show s.now + (k + 1) + 1 = s.now + 1 + k + 1 by omega]; exact h2)⟩

/-! ## C203 -/

/-- C203 (partial: OfflineThreshold is not 0): whatever happened to the station, if it is connected with security profile 3 and accepted and
stays so, then its client certificate is checked within the configured delay or interval, and a new one is requested if it expires in less than
30 days; likewise its V2G certificate, if their installation is enabled.  Missing: stations with OfflineThreshold 0 (`C203_violated`). -/
theorem C203_partial (c : Config) (hth : c.threshold ≠ 0) (ops : List Op) (s : State) (p : Nat) (hs : (run c off ops).1 = (s, p))
    (ho : s.online = true) (ha : s.accepted = true) :
    (s.profile = 3 → ∃ k, k ≤ clientWait c ∧
      Ev.client (s.now + k + 1) (decide (s.clientDays < 30)) ∈ (run c (s, p) (List.replicate (clientWait c + 1) .tick)).2) ∧
    (c.v2gEnabled = some true → ∃ k, k ≤ v2gWait c ∧
      Ev.v2g (s.now + k + 1) (decide (s.v2gDays < 30)) ∈ (run c (s, p) (List.replicate (v2gWait c + 1) .tick)).2) := by
  have h := inv_run hth ops (inv_off c)
  rw [hs] at h
  refine ⟨fun hp => ?_, fun he => ?_⟩
  · obtain ⟨a, h1, h2⟩ := soon_due (h.on_client ho ha hp)
    exact client_comes c _ s p a h2 h1
  · obtain ⟨a, h1, h2⟩ := soon_due (h.on_v2g ho ha)
    exact v2g_comes c he _ s p a h2 h1

/-- C203: no certificate is checked while the station is offline or not accepted, and the client certificate not with another profile. -/
theorem C203_silent (c : Config) (hth : c.threshold ≠ 0) (ops : List Op) (o : Op) :
    ((run c off ops).1.1.online = false ∨ (run c off ops).1.1.accepted = false →
      ∀ t b, Ev.client t b ∉ (step c (run c off ops).1 o).2 ∧ Ev.v2g t b ∉ (step c (run c off ops).1 o).2) ∧
    ((run c off ops).1.1.online = true → (run c off ops).1.1.profile ≠ 3 → ∀ t b, Ev.client t b ∉ (step c (run c off ops).1 o).2) := by
  have h := inv_run hth ops (inv_off c)
  generalize (run c off ops).1 = ps at h
  have hst : ∀ s p t b, Ev.client t b ∉ (connected c s p).2 ∧ Ev.v2g t b ∉ (connected c s p).2 := by
    intro s p t b
    unfold connected resume
    split
    · dsimp only; cases s.offlineSince <;> simp
    · simp
  have hno : ∀ o, o ≠ .tick → ∀ t b, Ev.client t b ∉ (step c ps o).2 ∧ Ev.v2g t b ∉ (step c ps o).2 := by
    intro o ho t b
    cases o with
    | tick => exact absurd rfl ho
    | days a d => simp [step]
    | accepted => simp only [step]; split <;> simp
    | disconnected => simp only [step]; split <;> simp
    | connected p =>
      simp only [step]
      split
      · simp
      · exact hst ps.1 p t b
  refine ⟨fun hi t b => ?_, fun ho hp t b => ?_⟩
  · by_cases hot : o = .tick
    · subst hot
      have := h.idle hi
      show _ ∉ (tick c ps.1).2 ∧ _ ∉ (tick c ps.1).2
      rw [tick_eq, this.1, this.2]
      simp [off_due]
    · exact hno o hot t b
  · by_cases hot : o = .tick
    · subst hot
      show _ ∉ (tick c ps.1).2
      rw [tick_eq, h.other ho hp]
      simp only [off_due]
      by_cases h1 : ps.1.v2g.due (ps.1.now + 1) = true <;> by_cases h2 : c.v2gEnabled.getD false = true <;> simp [h1, h2]
    · exact (hno o hot t b).1

/-- C203 violated: with OfflineThreshold 0 the timers are not set again after the connection was lost: an accepted station with security
profile 3 that is connected again never checks a certificate, however long it stays connected. -/
theorem C203_violated (c : Config) (hth : c.threshold = 0) (n : Nat) :
    ∃ s p, (run c off [.connected 3, .accepted, .disconnected, .connected 3]).1 = (s, p) ∧ s.online = true ∧ s.accepted = true ∧ s.profile = 3 ∧
      (run c (s, p) (List.replicate n .tick)).2 = [] := by
  have hrun : ∀ n (s : State) (p : Nat), s.client = .off → s.v2g = .off → (run c (s, p) (List.replicate n .tick)).2 = [] := by
    intro n
    induction n with
    | zero => intro s p _ _; rfl
    | succ n ih =>
      intro s p h1 h2
      rw [List.replicate_succ]
      show (tick c s).2 ++ (run c ((tick c s).1, p) (List.replicate n .tick)).2 = []
      rw [ih _ p (by rw [tick_eq]; show (if s.client.due _ then _ else s.client) = _; rw [h1]; rfl)
        (by rw [tick_eq]; show (if s.v2g.due _ then _ else s.v2g) = _; rw [h2]; rfl), tick_eq, h1, h2]
      rfl
  have hs : (run c off [.connected 3, .accepted, .disconnected, .connected 3]).1 =
      ({ now := 0, online := true, accepted := true, offlineSince := none, profile := 3 }, 3) := by
    simp [run, step, off, connected, resume, accept, disconnected, stopTimers, initTimers, hth]
  exact ⟨_, _, hs, rfl, rfl, rfl, hrun n _ 3 rfl rfl⟩

example : ({} : Config).threshold ≠ 0 := by decide

example : (run {} off [.connected 3, .accepted, .tick, .disconnected, .tick, .connected 3]).1 =
    ({ now := 2, online := true, accepted := true, profile := 3, client := .once 62, v2g := .once 62 }, 3) := by decide +kernel

/-! ## C204 -/

/-- C204 (partial: OfflineThreshold is not 0): when an accepted station that lost its connection connects again, the statuses of its connectors
are sent: of all if it was offline for longer than OfflineThreshold, else of those that changed. -/
theorem C204_partial (c : Config) (hth : c.threshold ≠ 0) (ops later : List Op) (p : Nat) (ho : (run c off ops).1.1.online = true)
    (ha : (run c off ops).1.1.accepted = true) (hl : ∀ o ∈ later, ∀ q, o ≠ .connected q) :
    (step c (run c off (ops ++ .disconnected :: later)).1 (.connected p)).2 =
      [.statuses (decide (c.threshold < (later.countP (fun o => decide (o = .tick)) : Int)))] := by
  rw [run_append]
  generalize (run c off ops).1 = ps at ho ha
  show (step c (run c (step c ps .disconnected).1 later).1 (.connected p)).2 = _
  have hd : (step c ps .disconnected).1 = (disconnected c ps.1, ps.2) := by
    show (if ps.1.online then ((disconnected c ps.1, ps.2), []) else (ps, [])).1 = _
    rw [if_pos ho]
  rw [hd]
  have key : ∀ (later : List Op) (qs : State × Nat) (e : Nat), (∀ o ∈ later, ∀ q, o ≠ .connected q) → qs.1.online = false → qs.1.accepted = true →
      qs.1.offlineSince = some ps.1.now → qs.1.now = ps.1.now + e →
      (step c (run c qs later).1 (.connected p)).2 = [.statuses (decide (c.threshold < ((e + later.countP (fun o => decide (o = .tick)) : Nat) : Int)))] := by
    intro later
    induction later with
    | nil =>
      intro qs e _ h1 h2 h3 h4
      show (if qs.1.online then (qs, []) else (((connected c qs.1 p).1, p), (connected c qs.1 p).2)).2 = _
      rw [if_neg (by rw [h1]; simp)]
      show (connected c qs.1 p).2 = _
      unfold connected
      rw [if_pos h2]
      dsimp only
      rw [resume_some (s := { qs.1 with online := true, profile := p }) (t := ps.1.now) h3]
      dsimp only
      rw [h4]
      have : ((ps.1.now + e : Nat) : Int) - (ps.1.now : Int) = ((e + 0 : Nat) : Int) := by omega
      rw [this]
      rfl
    | cons o os ih =>
      intro qs e hno h1 h2 h3 h4
      have hno' := fun x hx => hno x (List.mem_cons_of_mem _ hx)
      rw [List.countP_cons]
      cases o with
      | connected q => exact absurd rfl (hno _ (List.mem_cons_self ..) q)
      | tick =>
        have := ih ((tick c qs.1).1, qs.2) (e + 1) hno' (by rw [tick_eq]; exact h1) (by rw [tick_eq]; exact h2) (by rw [tick_eq]; exact h3)
          (by rw [tick_eq]; show qs.1.now + 1 = _; omega)
        rw [show e + (List.countP (fun o => decide (o = Op.tick)) os + if decide (Op.tick = Op.tick) = true then 1 else 0) =
          e + 1 + List.countP (fun o => decide (o = Op.tick)) os from by simp; omega]
        exact this
      | disconnected =>
        have hst : (step c qs .disconnected).1 = qs := by
          show (if qs.1.online then ((disconnected c qs.1, qs.2), []) else (qs, [])).1 = _
          rw [if_neg (by rw [h1]; simp)]
        have := ih qs e hno' h1 h2 h3 h4
        show (step c (run c (step c qs .disconnected).1 os).1 _).2 = _
        rw [hst]
        simpa using this
      | accepted =>
        have hst : (step c qs .accepted).1 = qs := by
          show (if qs.1.online then ((accept c qs.1 qs.2, qs.2), []) else (qs, [])).1 = _
          rw [if_neg (by rw [h1]; simp)]
        have := ih qs e hno' h1 h2 h3 h4
        show (step c (run c (step c qs .accepted).1 os).1 _).2 = _
        rw [hst]
        simpa using this
      | days a b =>
        have := ih ({ qs.1 with clientDays := a, v2gDays := b }, qs.2) e hno' h1 h2 h3 h4
        show (step c (run c ({ qs.1 with clientDays := a, v2gDays := b }, qs.2) os).1 _).2 = _
        simpa using this
  have := key later (disconnected c ps.1, ps.2) 0 hl rfl ha (by show (if c.threshold ≠ 0 then some ps.1.now else _) = _; rw [if_pos hth]) rfl
  rw [Nat.zero_add] at this
  exact this

/-- C204 violated: with OfflineThreshold 0 (any time offline is too long) no status is sent after a reconnection, however long it took. -/
theorem C204_violated (c : Config) (hth : c.threshold = 0) (s : State) (p q : Nat) (hs : s.offlineSince = none) (ho : s.online = true)
    (ops : List Op) (hl : ∀ o ∈ ops, ∀ q, o ≠ .connected q) :
    (step c (run c (s, q) (.disconnected :: ops)).1 (.connected p)).2 = [] := by
  have key : ∀ (later : List Op) (qs : State × Nat), (∀ o ∈ later, ∀ q, o ≠ .connected q) → qs.1.online = false → qs.1.offlineSince = none →
      (step c (run c qs later).1 (.connected p)).2 = [] := by
    intro later
    induction later with
    | nil =>
      intro qs _ h1 h3
      show (if qs.1.online then (qs, []) else (((connected c qs.1 p).1, p), (connected c qs.1 p).2)).2 = _
      rw [if_neg (by rw [h1]; simp)]
      show (connected c qs.1 p).2 = _
      unfold connected
      split
      · unfold resume; dsimp only; rw [h3]
      · rfl
    | cons o os ih =>
      intro qs hno h1 h3
      have hno' := fun x hx => hno x (List.mem_cons_of_mem _ hx)
      cases o with
      | connected q => exact absurd rfl (hno _ (List.mem_cons_self ..) q)
      | tick => exact ih ((tick c qs.1).1, qs.2) hno' (by rw [tick_eq]; exact h1) (by rw [tick_eq]; exact h3)
      | disconnected =>
        have hst : (step c qs .disconnected).1 = qs := by
          show (if qs.1.online then ((disconnected c qs.1, qs.2), []) else (qs, [])).1 = _
          rw [if_neg (by rw [h1]; simp)]
        show (step c (run c (step c qs .disconnected).1 os).1 _).2 = _
        rw [hst]
        exact ih qs hno' h1 h3
      | accepted =>
        have hst : (step c qs .accepted).1 = qs := by
          show (if qs.1.online then ((accept c qs.1 qs.2, qs.2), []) else (qs, [])).1 = _
          rw [if_neg (by rw [h1]; simp)]
        show (step c (run c (step c qs .accepted).1 os).1 _).2 = _
        rw [hst]
        exact ih qs hno' h1 h3
      | days a b => exact ih ({ qs.1 with clientDays := a, v2gDays := b }, qs.2) hno' h1 h3
  have hd : (step c (s, q) .disconnected).1 = (disconnected c s, q) := by
    show (if s.online then ((disconnected c s, q), []) else ((s, q), [])).1 = _
    rw [if_pos ho]
  show (step c (run c (step c (s, q) .disconnected).1 ops).1 (.connected p)).2 = []
  rw [hd]
  refine key ops _ hl rfl ?_
  show (if c.threshold ≠ 0 then some s.now else s.offlineSince) = none
  rw [if_neg (by rw [hth]; simp), hs]

example : (run { threshold := 1 } off [.connected 1, .accepted, .disconnected, .tick, .tick, .connected 1, .disconnected, .tick, .connected 1]).2 =
    [.statuses true, .statuses false] := by decide +kernel

end Verif.Cert2
