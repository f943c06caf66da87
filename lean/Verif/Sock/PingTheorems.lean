import Verif.Sock.Ping
import Verif.Sock.LoopTheorems

/-!
# Theorems about pings and pongs
-/

namespace Verif.Sock

/-! ## Specification -/

/-- For how many seconds a ping that was sent on the present connection has been unanswered; `none` if there is no such
ping.  It is computed from the events and what the peer sees. -/
def unanswered (w : Option Nat) (e : PingEvent) (out : List PingOut) : Option Nat :=
  match e with
  | .connect => none
  | .lost => none
  | .pong => none
  | .set _ _ => w
  | .tick => if .timeout ∈ out then none else if .ping ∈ out then some 0 else w.map (· + 1)

/-- The same for a list of events. -/
def waitingFor (s : PingState) (w : Option Nat) : List PingEvent → Option Nat
  | [] => w
  | e :: es => waitingFor (pingStep s e).1 (unanswered w e (pingStep s e).2) es

/-- No connection is lost while a ping is unanswered, nor replaced by another one, and the settings are not changed
without a connection. -/
def Undisturbed (s : PingState) (w : Option Nat) : List PingEvent → Prop
  | [] => True
  | e :: es =>
    (match e with
      | .lost => w = none
      | .connect => w = none
      | .set _ _ => s.connected = true
      | _ => True) ∧
    Undisturbed (pingStep s e).1 (unanswered w e (pingStep s e).2) es

/-- The interval and the timeout that hold after a list of events: the last ones that were set. -/
def settings (interval timeout : Int) : List PingEvent → Int × Int
  | [] => (interval, timeout)
  | .set i t :: es => settings i t es
  | _ :: es => settings interval timeout es

def pingStart (interval timeout : Int) : PingState := { interval := interval, timeout := timeout }

/-! ## Lemmas -/

theorem pingRun_append (s : PingState) (a b : List PingEvent) : pingRun s (a ++ b) = pingRun (pingRun s a) b := by
  simp [pingRun, List.foldl_append]

theorem pingOut_append (s : PingState) (a b : List PingEvent) :
    pingOut s (a ++ b) = pingOut s a ++ pingOut (pingRun s a) b := by
  induction a generalizing s with
  | nil => rfl
  | cons e es ih => simp [pingOut, ih, pingRun]

/-- The settings in the state are those that were set last. -/
theorem settings_run (s : PingState) (es : List PingEvent) :
    ((pingRun s es).interval, (pingRun s es).timeout) = settings s.interval s.timeout es := by
  induction es generalizing s with
  | nil => rfl
  | cons e es ih =>
    have hrun : pingRun s (e :: es) = pingRun (pingStep s e).1 es := rfl
    rw [hrun, ih]
    cases e with
    | connect => rfl
    | lost => rfl
    | set i t => rfl
    | pong => simp only [pingStep, settings]; split <;> rfl
    | tick =>
      simp only [pingStep, settings]
      split
      · rfl
      · split
        · unfold tickIdle; split <;> rfl
        · unfold tickWaiting; split <;> rfl

/-- A connection with a ping interval has a running timer. -/
theorem timer_runs (s : PingState) (h : s.connected = true → s.interval > 0 → s.timer = true) (es : List PingEvent) :
    (pingRun s es).connected = true → (pingRun s es).interval > 0 → (pingRun s es).timer = true := by
  induction es generalizing s with
  | nil => exact h
  | cons e es ih =>
    apply ih
    cases e with
    | connect => intro _ h2; simpa [pingStep] using h2
    | lost => intro h1; simp [pingStep] at h1
    | pong =>
      unfold pingStep
      dsimp only
      split
      · exact h
      · exact h
    | set i t => intro _ h2; simpa [pingStep] using h2
    | tick =>
      unfold pingStep
      dsimp only
      split
      · exact h
      · split
        · unfold tickIdle
          split
          · exact h
          · exact h
        · unfold tickWaiting
          split
          · intro h1; simp at h1
          · exact h

theorem waiting_ticks (n : Nat) (s : PingState) (ht : s.timer = true) (hc : s.cleared = false)
    (hn : s.timeout - s.pongElapsed < n) : .timeout ∈ pingOut s (List.replicate n .tick) ∨ n = 0 := by
  induction n generalizing s with
  | zero => exact Or.inr rfl
  | succ n ih =>
    left
    rw [List.replicate_succ, pingOut]
    have hs : pingStep s .tick = tickWaiting s := by simp [pingStep, ht, hc]
    rw [hs]
    unfold tickWaiting
    split
    · simp
    · rename_i hl
      rcases ih { s with pongElapsed := s.pongElapsed + 1 } ht hc (by simp only; omega) with h | h
      · simp [h]
      · subst h; simp only [Int.natCast_add] at hn; omega

theorem idle_ticks (n : Nat) (s : PingState) (ht : s.timer = true) (hc : s.cleared = true)
    (hn : s.interval - s.pingElapsed < n) (hn0 : n ≠ 0) :
    ∃ k, k ≤ n ∧ (pingRun s (List.replicate k .tick)).timer = true ∧
      (pingRun s (List.replicate k .tick)).cleared = false ∧
      (pingRun s (List.replicate k .tick)).pongElapsed = 0 ∧
      (pingRun s (List.replicate k .tick)).timeout = s.timeout := by
  induction n generalizing s with
  | zero => exact absurd rfl hn0
  | succ n ih =>
    have hs : pingStep s .tick = tickIdle s := by simp [pingStep, ht, hc]
    by_cases hl : s.pingElapsed + 1 > s.interval
    · refine ⟨1, by omega, ?_⟩
      simp [pingRun, hs, tickIdle, hl, ht]
    · obtain ⟨k, h1, h2⟩ := ih { s with pingElapsed := s.pingElapsed + 1 } ht hc (by simp only; omega) (by
        rintro rfl; simp only [Int.natCast_add] at hn; omega)
      refine ⟨k + 1, by omega, ?_⟩
      have e : pingRun s (List.replicate (k + 1) .tick) =
          pingRun { s with pingElapsed := s.pingElapsed + 1 } (List.replicate k .tick) := by
        rw [List.replicate_succ]
        show pingRun (pingStep s .tick).1 _ = _
        rw [hs]
        unfold tickIdle
        rw [if_neg hl]
      rw [e]
      exact h2

/-- What the timer believes is true, as long as nothing disturbs. -/
def Agree (s : PingState) (w : Option Nat) : Prop :=
  s.payload = true ∧ (s.timer = true → s.connected = true) ∧
    (s.cleared = false → s.connected = true ∧ ∃ n : Nat, w = some n ∧ s.pongElapsed ≤ n)

theorem agree_step (s : PingState) (w : Option Nat) (e : PingEvent) (h : Agree s w)
    (hu : match e with | .lost => w = none | .connect => w = none | .set _ _ => s.connected = true | _ => True) :
    Agree (pingStep s e).1 (unanswered w e (pingStep s e).2) := by
  obtain ⟨h1, h2, h3⟩ := h
  have hclr : w = none → s.cleared = true := by
    intro hw
    cases hc : s.cleared
    · obtain ⟨-, n, hn, -⟩ := h3 hc
      rw [hw] at hn; cases hn
    · rfl
  cases e with
  | connect => exact ⟨h1, fun _ => rfl, fun hc => by have := hclr hu; rw [show s.cleared = false from hc] at this; cases this⟩
  | lost => exact ⟨h1, fun h => by simp [pingStep] at h, fun hc => by
      have := hclr hu; rw [show s.cleared = false from hc] at this; cases this⟩
  | pong =>
    unfold pingStep unanswered
    dsimp only
    split
    · exact ⟨h1, h2, fun hc => by simp at hc⟩
    · rename_i hcon
      exact ⟨h1, h2, fun hc => absurd (h3 hc).1 hcon⟩
  | set i t => exact ⟨h1, fun _ => hu, h3⟩
  | tick =>
    unfold pingStep
    dsimp only
    split
    · refine ⟨h1, h2, fun hc => ⟨(h3 hc).1, ?_⟩⟩
      obtain ⟨-, n, hn, hle⟩ := h3 hc
      exact ⟨n + 1, by simp [unanswered, hn], by simp only [Int.natCast_add]; omega⟩
    · rename_i ht
      have hcon : s.connected = true := h2 (by simpa using ht)
      split
      · rename_i hc
        unfold tickIdle
        split
        · refine ⟨h1, h2, fun _ => ⟨hcon, 0, ?_, by simp⟩⟩
          simp [unanswered, hcon, h1]
        · refine ⟨h1, h2, fun hc' => ?_⟩
          rw [show s.cleared = false from hc'] at hc; cases hc
      · rename_i hc
        have hc : s.cleared = false := by simpa using hc
        obtain ⟨-, n, hn, hle⟩ := h3 hc
        unfold tickWaiting
        split
        · exact ⟨h1, fun h => by simp at h, fun h => by simp at h⟩
        · refine ⟨h1, h2, fun _ => ⟨hcon, n + 1, by simp [unanswered, hn], by simp only [Int.natCast_add]; omega⟩⟩

theorem agree_run (s : PingState) (w : Option Nat) (es : List PingEvent) (h : Agree s w) (hu : Undisturbed s w es) :
    Agree (pingRun s es) (waitingFor s w es) := by
  induction es generalizing s w with
  | nil => exact h
  | cons e es ih => exact ih _ _ (agree_step s w e h hu.1) hu.2

/-! ## Property theorems -/

theorem detected_state (interval timeout : Int) (es : List PingEvent)
    (hc : (pingRun (pingStart interval timeout) es).connected = true)
    (hi : (pingRun (pingStart interval timeout) es).interval > 0)
    (he : 0 ≤ (pingRun (pingStart interval timeout) es).timeout) :
    let s := pingRun (pingStart interval timeout) es
    .timeout ∈ pingOut s (List.replicate (s.interval.toNat + s.timeout.toNat + 2) .tick) := by
  intro s
  have ht : s.timer = true := timer_runs _ (by simp [pingStart]) es hc hi
  have hpos : ∀ (es : List PingEvent) (s : PingState), 0 ≤ s.pingElapsed ∧ 0 ≤ s.pongElapsed →
      0 ≤ (pingRun s es).pingElapsed ∧ 0 ≤ (pingRun s es).pongElapsed := by
    intro es
    induction es with
    | nil => intro s h; exact h
    | cons e es ih =>
      intro s h
      apply ih
      cases e with
      | connect => exact h
      | lost => exact h
      | set i t => exact h
      | pong =>
        unfold pingStep
        dsimp only
        split <;> exact h
      | tick =>
        unfold pingStep
        dsimp only
        split
        · exact h
        · split
          · unfold tickIdle
            split
            · simp
            · simp only; omega
          · unfold tickWaiting
            split
            · simp
            · simp only; omega
  obtain ⟨p1, p2⟩ := hpos es (pingStart interval timeout) (by simp [pingStart])
  cases hclr : s.cleared
  · rcases waiting_ticks (s.interval.toNat + s.timeout.toNat + 2) s ht hclr (by
      have : 0 ≤ s.pongElapsed := p2
      have : 0 ≤ s.timeout := he
      omega) with h | h
    · exact h
    · omega
  · obtain ⟨k, hk, k1, k2, k3, k4⟩ := idle_ticks (s.interval.toNat + 1) s ht hclr (by
      have : 0 ≤ s.pingElapsed := p1
      omega) (by omega)
    obtain ⟨m, hm⟩ := Nat.exists_eq_add_of_le hk
    have hsplit : List.replicate (s.interval.toNat + s.timeout.toNat + 2) PingEvent.tick =
        List.replicate k .tick ++ List.replicate (m + s.timeout.toNat + 1) .tick := by
      rw [List.replicate_append_replicate]
      congr 1
      omega
    rw [hsplit, pingOut_append]
    rcases waiting_ticks (m + s.timeout.toNat + 1) _ k1 k2 (by
      rw [k3, k4]
      have : 0 ≤ s.timeout := he
      omega) with h | h
    · simp [h]
    · omega

/-- C156.  For every history: if the peer stops answering, a connected station with a ping interval closes the connection
after at most interval + timeout + 2 seconds, with the interval and the timeout that were set last. -/
theorem C156_detected (interval timeout : Int) (es : List PingEvent)
    (hc : (pingRun (pingStart interval timeout) es).connected = true)
    (hi : (settings interval timeout es).1 > 0) (he : 0 ≤ (settings interval timeout es).2) :
    .timeout ∈ pingOut (pingRun (pingStart interval timeout) es)
      (List.replicate ((settings interval timeout es).1.toNat + (settings interval timeout es).2.toNat + 2) .tick) := by
  have h := settings_run (pingStart interval timeout) es
  rw [show (pingStart interval timeout).interval = interval from rfl,
    show (pingStart interval timeout).timeout = timeout from rfl] at h
  rw [← h] at hi he ⊢
  exact detected_state interval timeout es hc hi he

example : (pingRun (pingStart 3 2) [.connect, .set 4 1]).connected = true ∧ settings 3 2 [.connect, .set 4 1] = (4, 1) ∧
    pingOut (pingRun (pingStart 3 2) [.connect, .set 4 1]) (List.replicate 7 .tick) = [.ping, .timeout] := by decide

example : pingOut (pingStart 3 2) (.connect :: List.replicate 7 .tick) = [.ping, .timeout] := by decide

/-- C157.  A connection is closed for a missing pong only if a ping was sent on this connection and has been unanswered
for longer than the timeout.  Partial: no earlier connection was lost while a ping was unanswered, and the settings were
not changed without a connection (`C157_violated`); the payload of the pings is not empty (`C157_payload_violated`). -/
theorem C157_no_false_alarm_partial (interval timeout : Int) (es : List PingEvent)
    (hu : Undisturbed (pingStart interval timeout) none es)
    (ho : .timeout ∈ (pingStep (pingRun (pingStart interval timeout) es) .tick).2) :
    ∃ n : Nat, waitingFor (pingStart interval timeout) none es = some n ∧
      (n : Int) + 1 > (settings interval timeout es).2 := by
  have hs := settings_run (pingStart interval timeout) es
  rw [show (pingStart interval timeout).interval = interval from rfl,
    show (pingStart interval timeout).timeout = timeout from rfl] at hs
  rw [← hs]
  clear hs
  have h := agree_run _ none es (⟨rfl, by simp [pingStart], by simp [pingStart]⟩ : Agree (pingStart interval timeout) none) hu
  obtain ⟨-, -, h3⟩ := h
  generalize pingRun (pingStart interval timeout) es = s at *
  unfold pingStep at ho
  dsimp only at ho
  split at ho
  · simp at ho
  · split at ho
    · unfold tickIdle at ho
      split at ho
      · dsimp only at ho
        split at ho <;> simp at ho
      · simp at ho
    · rename_i hc
      obtain ⟨-, n, hn, hle⟩ := h3 (by simpa using hc)
      unfold tickWaiting at ho
      split at ho
      · exact ⟨n, hn, by omega⟩
      · simp at ho

example : Undisturbed (pingStart 3 2) none (.connect :: List.replicate 6 .tick) ∧
    .timeout ∈ (pingStep (pingRun (pingStart 3 2) (.connect :: List.replicate 6 .tick)) .tick).2 ∧
    waitingFor (pingStart 3 2) none (.connect :: List.replicate 6 .tick) = some 2 := by
  refine ⟨?_, by decide, by decide⟩
  simp only [List.replicate, Undisturbed]
  decide

/-- C157 is violated when the connection is lost while a ping is unanswered: the station still waits for the pong on the
next connection and closes it, although no ping was sent on it. -/
theorem C157_violated :
    let es : List PingEvent :=
      [.connect, .tick, .tick, .tick, .tick, .tick, .tick, .lost, .connect]
    pingOut (pingStart 3 2) es = [.ping] ∧ waitingFor (pingStart 3 2) none es = none ∧
      (pingStep (pingRun (pingStart 3 2) es) .tick).2 = [.timeout] := by
  decide

/-- C157 is violated by an empty payload: the ping counts as sent but is never written, and every connection is closed
for a missing pong. -/
theorem C157_payload_violated :
    pingOut { interval := 3, timeout := 2, payload := false } (.connect :: List.replicate 7 .tick) = [.timeout] := by
  decide

end Verif.Sock
