import Verif.Effects16.Spec
import Verif.Conf16.Lemmas3
/-! Lemmas about the effects of the configuration. -/
set_option linter.unusedSimpArgs false

namespace Verif.Conf16

/-- A change is answered with RebootRequired only for CentralSystemURI. -/
theorem reboot_uri {env : Env} {s : St} {now : Int} {k t : Text} {w : Write} (h : (change env s now k t w).2 = .rebootRequired) :
    ∃ e ∈ table, ciEq k e.name = true ∧ e.rule = .uri := by
  have hstore : ∀ (n : Text) (v : Val), (storeKey s n v w .accepted).2 ≠ .rebootRequired := by
    intro n v hh
    unfold storeKey at hh
    dsimp only at hh
    split at hh <;> cases hh
  have hset : (set env s now k t w).2 = .rebootRequired → ∃ e ∈ table, ciEq k e.name = true ∧ e.rule = .uri := by
    intro hs
    unfold set at hs
    split at hs
    · rename_i e he
      have hm := List.mem_of_find?_eq_some he
      have hp := List.find?_some he
      simp only [Bool.and_eq_true] at hp
      unfold setKey at hs
      split at hs
      · cases hs
      · split at hs
        · by_cases hu : e.rule = .uri
          · exact ⟨e, hm, hp.1.1, hu⟩
          · rw [if_neg hu] at hs
            exact absurd hs (hstore _ _)
        · rename_i a hc
          dsimp only at hs
          subst hs
          cases hr : e.rule <;> rw [hr] at hc <;> simp only [check, orReject] at hc <;>
            first
            | cases hc
            | (split at hc <;> cases hc)
            | (repeat' split at hc) <;> first | cases hc | skip
    · split at hs
      · unfold setAuthKey at hs
        split at hs
        · exact absurd hs (hstore _ _)
        · cases hs
      · split at hs
        · unfold setPrice at hs
          dsimp only at hs
          repeat' split at hs
          all_goals first | cases hs | skip
        · split at hs
          · unfold setCustom at hs
            repeat' split at hs
            all_goals first | cases hs | (dsimp only at hs; split at hs <;> cases hs)
          · split at hs <;> cases hs
  have hdo : (doSet env s now k t w).2 = .rebootRequired → ∃ e ∈ table, ciEq k e.name = true ∧ e.rule = .uri := by
    intro hd
    unfold doSet at hd
    dsimp only at hd
    split at hd
    · unfold askProfile at hd
      repeat' split at hd
      all_goals cases hd
    · exact hset hd
  unfold change at h
  repeat' split at h
  all_goals first | cases h | exact hdo h

theorem change_refused {env : Env} {s : St} {u : Maps} {now : Int} {k t : Text} {w : Write} (hu : s.user = some u) (hf : Fresh s.cfg)
    (ha : Refused (change env s now k t w).2) : (change env s now k t w).1 = s := by
  unfold change at ha ⊢
  cases hg : get env s k with
  | throws => rfl
  | kv n ro v =>
    rw [hg] at ha
    dsimp only at ha ⊢
    split
    · rfl
    · rename_i hx
      rw [if_neg hx] at ha
      exact doSet_refused hu hf ha
  | unknown =>
    rw [hg] at ha
    dsimp only at ha ⊢
    split
    · rename_i hx
      rw [if_pos hx] at ha
      split
      · rfl
      · rename_i hy
        rw [if_neg hy] at ha
        exact doSet_refused hu hf ha
    · rfl

/-- Only an accepted change of a key changes the key (or one answered with RebootRequired). -/
theorem change_frame {env : Env} {s : St} {u : Maps} {now : Int} {k t : Text} {w : Write} {n : Text} (hu : s.user = some u) (hf : Fresh s.cfg)
    (h : (change env s now k t w).1.cfg.keys n ≠ s.cfg.keys n) : ciEq k n = true ∧ ¬ Refused (change env s now k t w).2 := by
  refine ⟨?_, fun hr => h (by rw [change_refused hu hf hr])⟩
  generalize hr : (change env s now k t w).1 = r at h
  have hs := hr ▸ change_shape (env := env) (now := now) (k := k) (t := t) (w := w) hf
  cases hs with
  | same => exact absurd rfl h
  | ask p => exact absurd rfl h
  | key e x he hk =>
    rw [store_cfg] at h
    by_cases hn : n = e.name
    · exact hn ▸ hk
    · exact absurd (by simp [putKey, upd, hn]) h
  | auth hk =>
    rw [store_cfg] at h
    by_cases hn : n = authKey
    · exact hn ▸ hk
    · exact absurd (by simp [putKey, upd, hn]) h
  | price l => rw [store_cfg] at h; exact absurd rfl h
  | cust x => rw [store_cfg] at h; exact absurd rfl h

end Verif.Conf16

namespace Verif.Eff16
open Conf16 (Text Val Maps Env Write ciEq lower Stored Fresh)

theorem excl {k a b : Text} (h : ciEq k a = true) (hab : ciEq a b = false) : ciEq k b = false := by
  cases hb : ciEq k b with
  | false => rfl
  | true =>
    rw [Conf16.ciEq_iff] at h hb
    have : ciEq a b = true := (Conf16.ciEq_iff a b).mpr (h.symm.trans hb)
    rw [this] at hab; cases hab

/-! ## What follows a change -/

theorem follow_heartbeat {env : Env} {k : Text} {s : St} (h : ciEq k heartbeatKey = true) : follow env k s = some (updateHeartbeat s) := by
  unfold follow; rw [if_pos h]

theorem follow_sample {env : Env} {k : Text} {s : St} (h : ciEq k sampleKey = true) : follow env k s = updateSample s := by
  unfold follow
  simp only [excl h (b := heartbeatKey) (by decide), h, Bool.false_eq_true, if_false, if_true]

theorem follow_aligned {env : Env} {k : Text} {s : St} (h : ciEq k alignedKey = true) : follow env k s = some (updateAligned s) := by
  unfold follow
  simp only [excl h (b := heartbeatKey) (by decide), excl h (b := sampleKey) (by decide), h, Bool.false_eq_true, if_false, if_true]

theorem follow_key {env : Env} {k : Text} {s : St} (h : ciEq k Conf16.authKey = true) :
    follow env k s = some { s with key := textOf s.conf.cfg Conf16.authKey } := by
  unfold follow
  simp only [excl h (b := heartbeatKey) (by decide), excl h (b := sampleKey) (by decide), excl h (b := alignedKey) (by decide), h, Bool.false_eq_true, if_false, if_true]

theorem follow_timeout {env : Env} {k : Text} {s : St} (h : ciEq k timeoutKey = true) :
    follow env k s = some { s with timeout := intOf s.conf.cfg timeoutKey } := by
  unfold follow
  simp only [excl h (b := heartbeatKey) (by decide), excl h (b := sampleKey) (by decide), excl h (b := alignedKey) (by decide),
    excl h (b := Conf16.authKey) (by decide), h, Bool.false_eq_true, if_false, if_true]

theorem follow_attempts {env : Env} {k : Text} {s : St} (h : ciEq k attemptsKey = true) :
    follow env k s = some { s with attempts := intOf s.conf.cfg attemptsKey } := by
  unfold follow
  simp only [excl h (b := heartbeatKey) (by decide), excl h (b := sampleKey) (by decide), excl h (b := alignedKey) (by decide),
    excl h (b := Conf16.authKey) (by decide), excl h (b := timeoutKey) (by decide), h, Bool.false_eq_true, if_false, if_true]

theorem follow_retry {env : Env} {k : Text} {s : St} (h : ciEq k retryKey = true) :
    follow env k s = some { s with retry := intOf s.conf.cfg retryKey } := by
  unfold follow
  simp only [excl h (b := heartbeatKey) (by decide), excl h (b := sampleKey) (by decide), excl h (b := alignedKey) (by decide),
    excl h (b := Conf16.authKey) (by decide), excl h (b := timeoutKey) (by decide), excl h (b := attemptsKey) (by decide), h, Bool.false_eq_true, if_false, if_true]

theorem follow_ping {env : Env} {k : Text} {s : St} (h : ciEq k pingKey = true) : follow env k s = some (updatePing s) := by
  unfold follow
  simp only [excl h (b := heartbeatKey) (by decide), excl h (b := sampleKey) (by decide), excl h (b := alignedKey) (by decide),
    excl h (b := Conf16.authKey) (by decide), excl h (b := timeoutKey) (by decide), excl h (b := attemptsKey) (by decide), excl h (b := retryKey) (by decide),
    h, Bool.false_eq_true, if_false, if_true]

theorem follow_date {env : Env} {k : Text} {s : St} (h : ciEq k dateKey = true) : follow env k s = armAlarm env s := by
  unfold follow
  simp only [excl h (b := heartbeatKey) (by decide), excl h (b := sampleKey) (by decide), excl h (b := alignedKey) (by decide),
    excl h (b := Conf16.authKey) (by decide), excl h (b := timeoutKey) (by decide), excl h (b := attemptsKey) (by decide), excl h (b := retryKey) (by decide),
    excl h (b := pingKey) (by decide), h, Bool.false_eq_true, if_false, if_true]

/-- `s'` is `s` but for the parts that belong to the key `k`. -/
structure Rest (k : Text) (s s' : St) : Prop where
  conf : s'.conf = s.conf
  now : s'.now = s.now
  booted : s'.booted = s.booted
  online : s'.online = s.online
  pingOpt : s'.pingOpt = s.pingOpt
  heartbeat : ciEq k heartbeatKey = false → s'.heartbeat = s.heartbeat
  aligned : ciEq k alignedKey = false → s'.aligned = s.aligned
  txs : ciEq k sampleKey = false → s'.txs = s.txs
  key : ciEq k Conf16.authKey = false → s'.key = s.key
  timeout : ciEq k timeoutKey = false → s'.timeout = s.timeout
  attempts : ciEq k attemptsKey = false → s'.attempts = s.attempts
  retry : ciEq k retryKey = false → s'.retry = s.retry
  ping : ciEq k pingKey = false → s'.ping = s.ping
  alarm : ciEq k dateKey = false → s'.alarm = s.alarm

theorem arm_rest {env : Env} {k : Text} {s s' : St} (hk : ciEq k dateKey = true) (h : armAlarm env s = some s') : Rest k s s' := by
  unfold armAlarm at h
  split at h
  · cases h; constructor <;> intros <;> rfl
  · unfold setAlarm at h
    split at h
    · cases h
    · cases h
      constructor <;> intros <;> first | rfl | (simp_all)

theorem follow_rest {env : Env} {k : Text} {s s' : St} (h : follow env k s = some s') : Rest k s s' := by
  unfold follow at h
  split at h
  · cases h; constructor <;> intros <;> first | rfl | simp_all
  split at h
  · unfold updateSample at h
    cases hc : changeTimers (intOf s.conf.cfg sampleKey) s.txs with
    | none => rw [hc] at h; cases h
    | some l => rw [hc] at h; cases h; constructor <;> intros <;> first | rfl | simp_all
  split at h
  · cases h; constructor <;> intros <;> first | rfl | simp_all
  split at h
  · cases h; constructor <;> intros <;> first | rfl | simp_all
  split at h
  · cases h; constructor <;> intros <;> first | rfl | simp_all
  split at h
  · cases h; constructor <;> intros <;> first | rfl | simp_all
  split at h
  · cases h; constructor <;> intros <;> first | rfl | simp_all
  split at h
  · cases h
    unfold updatePing
    split <;> constructor <;> intros <;> first | rfl | simp_all
  split at h
  · rename_i hk; exact arm_rest hk h
  · cases h; constructor <;> intros <;> rfl

theorem changeTimers_ok {n : Int} : ∀ {l : List Tx}, (∀ x ∈ l, x.timer ≠ none) →
    ∃ l', changeTimers n l = some l' ∧ ∀ x ∈ l', x.timer = some (period n) := by
  intro l
  induction l with
  | nil => intro _; exact ⟨[], rfl, fun x hx => by cases hx⟩
  | cons x r ih =>
    intro h
    obtain ⟨l', h1, h2⟩ := ih (fun y hy => h y (List.mem_cons_of_mem _ hy))
    cases hx : x.timer with
    | none => exact absurd hx (h x List.mem_cons_self)
    | some p =>
      refine ⟨{ x with timer := some (period n) } :: l', ?_, ?_⟩
      · simp only [changeTimers, changeTimer, hx, Option.bind_some, h1, Option.map_some]
      · intro y hy
        rcases List.mem_cons.mp hy with hy | hy
        · rw [hy]
        · exact h2 y hy

end Verif.Eff16
