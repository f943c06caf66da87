import Verif.Sock.Keep
import Verif.Sock.LoopTheorems

/-!
# Theorems about keeping the connection (OCPP 1.6)
-/

namespace Verif.Sock

/-! ## Specification -/

/-- Whether the application wants a connection: what it asked for last. -/
def wanted (es : List KeepEvent) : Bool :=
  es.foldl (fun w e => match e with | .connect => true | .disconnect => false | _ => w) false

/-- The station is connected, tries to connect, or has set a timer after which it will. -/
def Active (k : Keeper) : Prop := k.phase ≠ .off ∨ k.switchTimer ≠ none ∨ k.reconnectTimer = true

/-- While a switch of the security profile is going on, the application does not call `connect_websocket` and nothing
makes the charge point reconnect. -/
def Calm (k : Keeper) : List KeepEvent → Prop
  | [] => True
  | e :: es => (k.callback ≠ none → e ≠ .connect ∧ e ≠ .reconnect ∧ e ≠ .reconnectTimer) ∧ Calm (keepStep k e) es

instance calmDecidable : (k : Keeper) → (es : List KeepEvent) → Decidable (Calm k es)
  | _, [] => isTrue trivial
  | k, e :: es =>
    have := calmDecidable (keepStep k e) es
    inferInstanceAs (Decidable (_ ∧ _))

/-! ## Lemmas -/

theorem keepRun_snoc (k : Keeper) (es : List KeepEvent) (e : KeepEvent) :
    keepRun k (es ++ [e]) = keepStep (keepRun k es) e := by
  simp [keepRun, List.foldl_append]

theorem wanted_snoc (es : List KeepEvent) (e : KeepEvent) :
    wanted (es ++ [e]) = match e with | .connect => true | .disconnect => false | _ => wanted es := by
  simp only [wanted, List.foldl_append, List.foldl_cons, List.foldl_nil]

theorem calm_append (k : Keeper) (a b : List KeepEvent) : Calm k (a ++ b) ↔ Calm k a ∧ Calm (keepRun k a) b := by
  induction a generalizing k with
  | nil => simp [Calm, keepRun]
  | cons e es ih =>
    simp only [List.cons_append, Calm, ih, keepRun, List.foldl_cons, and_assoc]

/-- The invariant of calm histories. -/
def KeepInv (k : Keeper) : Prop :=
  (k.limited = true → k.callback ≠ none) ∧
  (k.switchTimer ≠ none → k.callback ≠ none ∧ k.phase = .off) ∧
  (k.phase = .up → k.callback = none ∧ k.reconnectTimer = false)

theorem keepInv_step (k : Keeper) (e : KeepEvent) (h : KeepInv k)
    (hc : k.callback ≠ none → e ≠ .connect ∧ e ≠ .reconnect ∧ e ≠ .reconnectTimer) : KeepInv (keepStep k e) := by
  obtain ⟨p, c, l, t, r, d⟩ := k
  obtain ⟨h1, h2, h3⟩ := h
  unfold KeepInv
  cases e <;> cases p <;> cases c <;>
    simp_all [keepStep, startLoop, closeLoop, onStopped, doSwitch]
  all_goals
    first
      | (split <;> simp_all)
      | (cases t <;> simp_all)
      | skip

theorem keepInv_run (es : List KeepEvent) (hc : Calm {} es) : KeepInv (keepRun {} es) := by
  induction es using snocInd with
  | nil => exact ⟨by decide, by decide, by decide⟩
  | snoc es e ih =>
    rw [calm_append] at hc
    rw [keepRun_snoc]
    exact keepInv_step _ e (ih hc.1) hc.2.1

theorem active_step (k : Keeper) (e : KeepEvent) (h : KeepInv k) (ha : Active k ∨ e = .connect) (hp : e ≠ .pongTimeout)
    (hd : e ≠ .disconnect) : Active (keepStep k e) := by
  obtain ⟨p, c, l, t, r, d⟩ := k
  obtain ⟨h1, h2, h3⟩ := h
  unfold Active at *
  cases e <;> cases p <;> cases c <;>
    simp_all [keepStep, startLoop, closeLoop, onStopped, doSwitch]
  all_goals
    first
      | (split <;> simp_all)
      | (cases t <;> simp_all)
      | skip

/-! ## Property theorems -/

/-- C158.  From the time when the application asks for a connection until it asks to disconnect, the station is
connected, tries to connect, or will do so after a timer.  Partial: no connection is closed for a missing pong
(`C158_violated`), and a switch of the security profile is not disturbed (`C158_switch_violated`). -/
theorem C158_keeps_trying_partial (es : List KeepEvent) (hc : Calm {} es) (hp : .pongTimeout ∉ es)
    (hw : wanted es = true) : Active (keepRun {} es) := by
  induction es using snocInd with
  | nil => simp [wanted] at hw
  | snoc es e ih =>
    rw [calm_append] at hc
    rw [keepRun_snoc]
    rw [wanted_snoc] at hw
    simp only [List.mem_append, List.mem_singleton, not_or] at hp
    have hinv := keepInv_run es hc.1
    by_cases hcon : e = .connect
    · exact active_step _ e hinv (Or.inr hcon) (fun h => hp.2 h.symm) (by rw [hcon]; decide)
    · have hd : e ≠ .disconnect := by rintro rfl; simp at hw
      have hw' : wanted es = true := by
        cases e <;> first | exact hw | exact absurd rfl hcon | exact absurd rfl hd
      exact active_step _ e hinv (Or.inl (ih hc.1 hp.1 hw')) (fun h => hp.2 h.symm) hd

/-- A switch of the security profile that fails, a fallback, a lost connection, a new authorization key. -/
def exKeep : List KeepEvent :=
  [.connect, .established, .switchProfile, .switchTimer, .exhausted, .switchTimer, .established, .lost, .established,
    .reconnect, .reconnectTimer, .established]

example : Calm {} exKeep ∧ .pongTimeout ∉ exKeep ∧ wanted exKeep = true ∧ (keepRun {} exKeep).phase = .up := by
  decide

theorem dead_stays (es : List KeepEvent) (he : ∀ e ∈ es, e = .established ∨ e = .lost ∨ e = .exhausted ∨
    e = .pongTimeout ∨ e = .switchTimer ∨ e = .reconnectTimer) (l : Bool) (d : Bool) :
    (keepRun ⟨.off, none, l, none, false, d⟩ es).phase = .off := by
  induction es with
  | nil => rfl
  | cons e es ih =>
    have h : keepStep ⟨.off, none, l, none, false, d⟩ e = ⟨.off, none, l, none, false, d⟩ := by
      rcases he e (by simp) with rfl | rfl | rfl | rfl | rfl | rfl <;> simp [keepStep]
    show (keepRun (keepStep _ e) es).phase = .off
    rw [h]
    exact ih (fun x hx => he x (List.mem_cons_of_mem e hx))

/-- C158 is violated by a missing pong: the connection is closed and nothing opens a new one.  Whatever the network and
the timers do from then on, the station stays disconnected, although the application wants a connection. -/
theorem C158_violated (es : List KeepEvent) (he : ∀ e ∈ es, e = .established ∨ e = .lost ∨ e = .exhausted ∨
    e = .pongTimeout ∨ e = .switchTimer ∨ e = .reconnectTimer) :
    wanted ([.connect, .established, .pongTimeout] ++ es) = true ∧
      (keepRun {} ([.connect, .established, .pongTimeout] ++ es)).phase = .off := by
  constructor
  · induction es using snocInd with
    | nil => decide
    | snoc es e ih =>
      rw [← List.append_assoc, wanted_snoc]
      have := ih (fun x hx => he x (by simp [hx]))
      rcases he e (by simp) with rfl | rfl | rfl | rfl | rfl | rfl <;> exact this
  · show (keepRun (keepRun {} [.connect, .established, .pongTimeout]) es).phase = .off
    exact dead_stays es he false false

/-- C158 is violated when the application connects in the two seconds before a switch of the security profile: the timer
replaces that connection by an attempt with the new profile and a limited number of attempts, and when that fails there
is no way back to the old profile any more. -/
theorem C158_switch_violated (es : List KeepEvent) (he : ∀ e ∈ es, e = .established ∨ e = .lost ∨ e = .exhausted ∨
    e = .pongTimeout ∨ e = .switchTimer ∨ e = .reconnectTimer) :
    (keepRun {} ([.connect, .established, .switchProfile, .connect, .established, .switchTimer, .exhausted] ++
      es)).phase = .off := by
  show (keepRun (keepRun {} [.connect, .established, .switchProfile, .connect, .established, .switchTimer, .exhausted])
    es).phase = .off
  exact dead_stays es he true false

theorem quiet_step (k : Keeper) (e : KeepEvent) (h : k.phase = .off ∧ k.switchTimer = none ∧ k.reconnectTimer = false ∧
    k.shuttingDown = true) (he : e ≠ .connect) :
    (keepStep k e).phase = .off ∧ (keepStep k e).switchTimer = none ∧ (keepStep k e).reconnectTimer = false ∧
      (keepStep k e).shuttingDown = true := by
  obtain ⟨p, c, l, t, r, d⟩ := k
  obtain ⟨rfl, rfl, rfl, rfl⟩ := h
  cases e <;> simp_all [keepStep, closeLoop]

/-- C159.  After the application has disconnected, the station makes no attempt to connect until it is asked to.  Partial:
it was connected at that time (`C159_violated`), and no switch of the security profile had been disturbed. -/
theorem C159_stays_off_partial (es fs : List KeepEvent) (hc : Calm {} es) (hu : (keepRun {} es).phase = .up)
    (hf : .connect ∉ fs) : (keepRun {} (es ++ .disconnect :: fs)).phase = .off := by
  obtain ⟨h1, h2, h3⟩ := keepInv_run es hc
  have e : keepRun {} (es ++ .disconnect :: fs) = keepRun (keepStep (keepRun {} es) .disconnect) fs := by
    simp [keepRun, List.foldl_append]
  rw [e]
  have hq : (keepStep (keepRun {} es) .disconnect).phase = .off ∧
      (keepStep (keepRun {} es) .disconnect).switchTimer = none ∧
      (keepStep (keepRun {} es) .disconnect).reconnectTimer = false ∧
      (keepStep (keepRun {} es) .disconnect).shuttingDown = true := by
    generalize keepRun {} es = k at *
    obtain ⟨p, c, l, t, r, d⟩ := k
    simp_all [keepStep, closeLoop, onStopped]
  clear e
  generalize keepStep (keepRun {} es) .disconnect = k at hq
  induction fs generalizing k with
  | nil => exact hq.1
  | cons f fs ih =>
    simp only [List.mem_cons, not_or] at hf
    exact ih hf.2 _ (quiet_step k f hq (fun h => hf.1 h.symm))

example : (keepRun {} exKeep).phase = .up ∧
    (keepRun {} (exKeep ++ .disconnect :: [.reconnect, .reconnectTimer, .switchProfile, .switchTimer])).phase = .off := by
  decide

/-- C159 is violated when the station is not connected at that time: the call does nothing, and the station goes on
connecting. -/
theorem C159_violated : (keepRun {} [.connect, .disconnect, .established]).phase = .up ∧
    wanted [.connect, .disconnect, .established] = false := by
  decide

end Verif.Sock
