import Verif.Effects16.Lemmas
import Verif.Conf16.Demo
/-! What stays true in each history. -/
set_option linter.unusedSimpArgs false

namespace Verif.Conf16

/-- A change of a key that is not refused: the profile of the key is supported. -/
theorem known_of_change {env : Env} {s : St} {now : Int} {k t : Text} {w : Write} {e : Key} (he : e ∈ table) (hk : ciEq k e.name = true) (hf : Fresh s.cfg)
    (ha : ¬ Refused (change env s now k t w).2) : Known env e := by
  cases h : entry env k with
  | some e' =>
    have h' := entry_some h
    have : e' = e := key_unique h'.1.1 he (((ciEq_iff _ _).mp h'.2).symm.trans ((ciEq_iff _ _).mp hk))
    exact this ▸ h'.1
  | none =>
    have hg : get env s k = .unknown := by
      unfold get
      rw [h]
      simp only [not_price he hk, Bool.and_false, Bool.false_and, Bool.false_eq_true, if_false]
      split
      · unfold reportCustom
        rw [fresh_none hf he hk]
      · rfl
    refine absurd ?_ ha
    unfold change
    rw [hg]
    simp [not_auth he hk, Refused]

theorem uri_name {e : Key} (he : e ∈ table) (hr : e.rule = .uri) : e.name = "CentralSystemURI".toList := by
  have h : table.all (fun e => e.rule != .uri || e.name == "CentralSystemURI".toList) = true := by decide +kernel
  have := List.all_eq_true.mp h e he
  simpa [hr] using this

/-- A key other than CentralSystemURI is only changed if the answer is Accepted. -/
theorem change_keep {env : Env} {s : St} {now : Int} {k t : Text} {w : Write} {n : Text} (hs : Stored s) (hf : Fresh s.cfg)
    (hn : ciEq "CentralSystemURI".toList n = false) (h : (change env s now k t w).1.cfg.keys n ≠ s.cfg.keys n) :
    ciEq k n = true ∧ (change env s now k t w).2 = .accepted := by
  obtain ⟨u, hu, _⟩ := hs
  obtain ⟨h1, h2⟩ := change_frame hu hf h
  refine ⟨h1, ?_⟩
  by_cases ha : (change env s now k t w).2 = .accepted
  · exact ha
  · by_cases hr : (change env s now k t w).2 = .rebootRequired
    · obtain ⟨e, he, hk, hru⟩ := reboot_uri hr
      rw [uri_name he hru] at hk
      exfalso
      rw [ciEq_iff] at h1 hk
      have : ciEq "CentralSystemURI".toList n = true := (ciEq_iff _ _).mpr (hk.symm.trans h1)
      rw [hn] at this; cases this
    · exact absurd ⟨ha, hr⟩ h2

/-- NextTimeOffsetTransitionDateTime, CustomDisplayCostAndPrice. -/
def dateRow : Key := ⟨"NextTimeOffsetTransitionDateTime".toList, .price, true, (.str 1 (some 40)), .no, .future, .none, false⟩
def displayRow : Key := ⟨"CustomDisplayCostAndPrice".toList, .price, true, .bool, .yes, .none, .none, false⟩

theorem dateRow_mem : dateRow ∈ table := List.mem_of_getElem? (i := 106) rfl
theorem displayRow_mem : displayRow ∈ table := List.mem_of_getElem? (i := 102) rfl

theorem date_accepted {env : Env} {s : St} {now : Int} {k t : Text} {w : Write} (hf : Fresh s.cfg) (hk : ciEq k dateRow.name = true)
    (ha : (change env s now k t w).2 = .accepted) :
    ∃ d, env.date t = some d ∧ now < d ∧ (change env s now k t w).1.cfg.keys dateRow.name = some (.text t) := by
  have hr : ¬ Refused (change env s now k t w).2 := fun h => h.1 ha
  obtain ⟨_, _, x, a, hc, hch⟩ := accepted_key (known_of_change dateRow_mem hk hf hr) hk hf (by decide) hr
  have hc' : check env s now .future t = .val x := hc
  simp only [check] at hc'
  cases hd : env.date t with
  | none => rw [hd] at hc'; cases hc'
  | some d =>
    rw [hd] at hc'
    dsimp only at hc'
    unfold orReject at hc'
    split at hc'
    · rename_i hlt
      cases hc'
      refine ⟨d, rfl, by simpa using hlt, ?_⟩
      rw [hch]
      unfold storeKey
      simp only [store_cfg, upd]
      simp
    · cases hc'

theorem display_same {env : Env} {s : St} {now : Int} {k t : Text} {w : Write} (hs : Stored s) (hf : Fresh s.cfg) :
    (change env s now k t w).1.cfg.keys displayRow.name = s.cfg.keys displayRow.name := by
  by_cases h : (change env s now k t w).1.cfg.keys displayRow.name = s.cfg.keys displayRow.name
  · exact h
  · obtain ⟨h1, h2⟩ := change_keep hs hf (by decide +kernel) h
    have hr : ¬ Refused (change env s now k t w).2 := fun h => h.1 h2
    have := (accepted_key (known_of_change displayRow_mem h1 hf hr) h1 hf (by decide) hr).2.1
    exact absurd rfl this

theorem storeKey_stored {s : St} (h : Stored s) (n : Text) (v : Val) : Stored (storeKey s n v .ok .accepted).1 :=
  store_stored (f := putKey n v) h (fun b u => merged_putKey b u n v)

theorem storeKey_cfg (s : St) (n : Text) (v : Val) (w : Write) (a : Status) : (storeKey s n v w a).1.cfg = putKey n v s.cfg := store_cfg s (putKey n v) w

theorem restart_same {env : Env} {s s' : St} (h : Stored s) (hr : restart env s = some s') : s'.cfg = s.cfg ∧ Stored s' := by
  obtain ⟨u, hu, hc⟩ := h
  unfold restart at hr
  rw [hu] at hr
  dsimp only at hr
  split at hr
  · cases hr; exact ⟨hc.symm, u, rfl, rfl⟩
  · cases hr

end Verif.Conf16

namespace Verif.Eff16
open Conf16 (Text Val Maps Env Write ciEq lower Stored Fresh putKey)

/-- The configuration is that of the file; custom keys have names of their own. -/
structure Sound (s : St) : Prop where
  stored : Stored s.conf
  fresh : Fresh s.conf.cfg

/-- The parts of the station agree with the configuration. -/
structure Inv (s : St) : Prop extends Sound s where
  heartbeat : s.booted = true → s.heartbeat = period (intOf s.conf.cfg heartbeatKey)
  aligned : s.booted = true → s.aligned = period (intOf s.conf.cfg alignedKey)
  sample : ∀ x ∈ s.txs, x.timer = some (period (intOf s.conf.cfg sampleKey))
  attempts : s.attempts = intOf s.conf.cfg attemptsKey
  retry : s.retry = intOf s.conf.cfg retryKey
  timeout : s.timeout = intOf s.conf.cfg timeoutKey
  key : s.key = textOf s.conf.cfg Conf16.authKey

theorem int_congr {m m' : Maps} {k : Text} (h : m'.keys k = m.keys k) : intOf m' k = intOf m k := by unfold intOf; rw [h]
theorem text_congr {m m' : Maps} {k : Text} (h : m'.keys k = m.keys k) : textOf m' k = textOf m k := by unfold textOf; rw [h]

theorem put_ne {m : Maps} {n k : Text} {v : Val} (h : k ≠ n) : (putKey n v m).keys k = m.keys k := by simp [putKey, Conf16.upd, h]

/-- What an accepted change makes of the station. -/
theorem change_cases {env : Env} {s s' : St} {k t : Text} {w : Write} (h : change env s k t w = some s') :
    ∃ c, c = (Conf16.change env s.conf s.now k t w).1 ∧
      (((Conf16.change env s.conf s.now k t w).2 = .accepted ∧ follow env k { s with conf := c } = some s') ∨
       ((Conf16.change env s.conf s.now k t w).2 ≠ .accepted ∧ s' = { s with conf := c })) := by
  unfold change at h
  dsimp only at h
  split at h
  · rename_i ha; exact ⟨_, rfl, .inl ⟨ha, h⟩⟩
  · rename_i ha; cases h; exact ⟨_, rfl, .inr ⟨ha, rfl⟩⟩

theorem change_conf {env : Env} {s s' : St} {k t : Text} {w : Write} (h : change env s k t w = some s') :
    s'.conf = (Conf16.change env s.conf s.now k t w).1 ∧ Rest k { s with conf := s'.conf } s' := by
  obtain ⟨c, hc, h | h⟩ := change_cases h
  · have hr := follow_rest h.2
    have : s'.conf = c := hr.conf
    rw [this]
    exact ⟨hc, hr⟩
  · obtain ⟨_, rfl⟩ := h
    exact ⟨hc, by constructor <;> intros <;> rfl⟩

theorem change_sound {env : Env} {s s' : St} {k t : Text} (hs : Sound s) (h : change env s k t .ok = some s') : Sound s' := by
  obtain ⟨hc, _⟩ := change_conf h
  exact ⟨hc ▸ Conf16.change_stored hs.stored hs.fresh, hc ▸ Conf16.change_fresh hs.fresh⟩

theorem change_some {env : Env} {s : St} {k t : Text} (hs : Inv s) : ∃ s', change env s k t .ok = some s' := by
  unfold change
  dsimp only
  split
  · rename_i ha
    unfold follow
    split
    · exact ⟨_, rfl⟩
    split
    · unfold updateSample
      obtain ⟨l', hl, _⟩ := changeTimers_ok (n := intOf (Conf16.change env s.conf s.now k t .ok).1.cfg sampleKey) (l := s.txs)
        (fun x hx => by rw [hs.sample x hx]; simp)
      dsimp only
      rw [hl]
      exact ⟨_, rfl⟩
    split
    · exact ⟨_, rfl⟩
    split
    · exact ⟨_, rfl⟩
    split
    · exact ⟨_, rfl⟩
    split
    · exact ⟨_, rfl⟩
    split
    · exact ⟨_, rfl⟩
    split
    · exact ⟨_, rfl⟩
    split
    · rename_i hk
      obtain ⟨d, hd, _, ht⟩ := Conf16.date_accepted hs.fresh hk ha
      unfold armAlarm
      have : textOf (Conf16.change env s.conf s.now k t .ok).1.cfg dateKey = some t := by
        unfold textOf
        rw [show (Conf16.change env s.conf s.now k t .ok).1.cfg.keys dateKey = _ from ht]
      dsimp only
      rw [this]
      unfold setAlarm
      dsimp only
      rw [hd]
      exact ⟨_, rfl⟩
    · exact ⟨_, rfl⟩
  · exact ⟨_, rfl⟩

theorem change_inv {env : Env} {s s' : St} {k t : Text} (hs : Inv s) (h : change env s k t .ok = some s') : Inv s' := by
  obtain ⟨c, hc, h1⟩ := change_cases h
  have hsd := change_sound hs.toSound h
  obtain ⟨hcf, hr⟩ := change_conf h
  have hcc : s'.conf = c := hcf.trans hc.symm
  -- a key that is not in question, or an answer that is not Accepted: the same value
  have same : ∀ n, ciEq "CentralSystemURI".toList n = false → (ciEq k n = false ∨ (Conf16.change env s.conf s.now k t .ok).2 ≠ .accepted) →
      s'.conf.cfg.keys n = s.conf.cfg.keys n := by
    intro n hn hor
    by_cases he : (Conf16.change env s.conf s.now k t .ok).1.cfg.keys n = s.conf.cfg.keys n
    · rw [hcf]; exact he
    · obtain ⟨h2, h3⟩ := Conf16.change_keep hs.stored hs.fresh hn he
      rcases hor with hor | hor
      · rw [h2] at hor; cases hor
      · exact absurd h3 hor
  rcases h1 with ⟨ha, hf⟩ | ⟨ha, hf⟩
  · subst hcc
    refine { toSound := hsd, heartbeat := ?_, aligned := ?_, sample := ?_, attempts := ?_, retry := ?_, timeout := ?_, key := ?_ }
    · intro hb
      cases hk : ciEq k heartbeatKey with
      | true => rw [follow_heartbeat hk] at hf; rw [← Option.some.inj hf]; rfl
      | false =>
        rw [hr.heartbeat hk, int_congr (same _ (by decide +kernel) (.inl hk))]
        exact hs.heartbeat (hr.booted ▸ hb)
    · intro hb
      cases hk : ciEq k alignedKey with
      | true => rw [follow_aligned hk] at hf; rw [← Option.some.inj hf]; rfl
      | false =>
        rw [hr.aligned hk, int_congr (same _ (by decide +kernel) (.inl hk))]
        exact hs.aligned (hr.booted ▸ hb)
    · cases hk : ciEq k sampleKey with
      | true =>
        rw [follow_sample hk] at hf
        unfold updateSample at hf
        obtain ⟨l', hl, hl'⟩ := changeTimers_ok (n := intOf s'.conf.cfg sampleKey) (l := s.txs) (fun x hx => by rw [hs.sample x hx]; simp)
        dsimp only at hf
        rw [hl] at hf
        have := Option.some.inj hf
        intro x hx
        rw [← this] at hx
        exact hl' x hx
      | false =>
        rw [hr.txs hk, int_congr (same _ (by decide +kernel) (.inl hk))]
        exact hs.sample
    · cases hk : ciEq k attemptsKey with
      | true => rw [follow_attempts hk] at hf; rw [← Option.some.inj hf]
      | false => rw [hr.attempts hk, int_congr (same _ (by decide +kernel) (.inl hk))]; exact hs.attempts
    · cases hk : ciEq k retryKey with
      | true => rw [follow_retry hk] at hf; rw [← Option.some.inj hf]
      | false => rw [hr.retry hk, int_congr (same _ (by decide +kernel) (.inl hk))]; exact hs.retry
    · cases hk : ciEq k timeoutKey with
      | true => rw [follow_timeout hk] at hf; rw [← Option.some.inj hf]
      | false => rw [hr.timeout hk, int_congr (same _ (by decide +kernel) (.inl hk))]; exact hs.timeout
    · cases hk : ciEq k Conf16.authKey with
      | true => rw [follow_key hk] at hf; rw [← Option.some.inj hf]
      | false => rw [hr.key hk, text_congr (same _ (by decide +kernel) (.inl hk))]; exact hs.key
  · subst hcc
    have hx : s' = { s with conf := s'.conf } := hf
    have hi := fun n (hn : ciEq "CentralSystemURI".toList n = false) => int_congr (same n hn (.inr ha))
    rw [hx]
    rw [hx] at hsd
    refine { toSound := hsd, heartbeat := ?_, aligned := ?_, sample := ?_, attempts := ?_, retry := ?_, timeout := ?_, key := ?_ }
    · intro hb; exact (hs.heartbeat hb).trans (by rw [← hi _ (by decide +kernel)])
    · intro hb; exact (hs.aligned hb).trans (by rw [← hi _ (by decide +kernel)])
    · intro x hx; exact (hs.sample x hx).trans (by rw [← hi _ (by decide +kernel)])
    · exact hs.attempts.trans (hi _ (by decide +kernel)).symm
    · exact hs.retry.trans (hi _ (by decide +kernel)).symm
    · exact hs.timeout.trans (hi _ (by decide +kernel)).symm
    · exact hs.key.trans (text_congr (same _ (by decide +kernel) (.inr ha))).symm

/-! ## The other steps -/

theorem put_sound {s : St} (hs : Sound s) (n : Text) (v : Val) : Sound { s with conf := (Conf16.storeKey s.conf n v .ok .accepted).1 } :=
  ⟨Conf16.storeKey_stored hs.stored n v, by
    show Fresh (Conf16.storeKey s.conf n v .ok .accepted).1.cfg
    rw [Conf16.storeKey_cfg]
    exact hs.fresh⟩

/-- A value is stored for a key of no part of the station. -/
theorem put_inv {s : St} (hs : Inv s) (n : Text) (v : Val) (hb : s.booted = true → n ≠ heartbeatKey)
    (h : alignedKey ≠ n ∧ sampleKey ≠ n ∧ attemptsKey ≠ n ∧ retryKey ≠ n ∧ timeoutKey ≠ n ∧ Conf16.authKey ≠ n) :
    Inv { s with conf := (Conf16.storeKey s.conf n v .ok .accepted).1 } := by
  obtain ⟨h1, h2, h3, h4, h5, h6⟩ := h
  have hc := Conf16.storeKey_cfg s.conf n v .ok .accepted
  refine { toSound := put_sound hs.toSound n v, heartbeat := ?_, aligned := ?_, sample := ?_, attempts := ?_, retry := ?_, timeout := ?_, key := ?_ } <;>
    dsimp only <;> rw [hc]
  · intro hx; rw [int_congr (put_ne (Ne.symm (hb hx)))]; exact hs.heartbeat hx
  · intro hx; rw [int_congr (put_ne h1)]; exact hs.aligned hx
  · rw [int_congr (put_ne h2)]; exact hs.sample
  · rw [int_congr (put_ne h3)]; exact hs.attempts
  · rw [int_congr (put_ne h4)]; exact hs.retry
  · rw [int_congr (put_ne h5)]; exact hs.timeout
  · rw [text_congr (put_ne h6)]; exact hs.key

/-- Everything but the heartbeat. -/
theorem boot_inv {s : St} {a : Bool} {n : Int} (hs : Inv s) (hc : a = true ∨ n ≤ 0 ∨ s.booted = false) : Inv (boot s a n) := by
  unfold boot
  dsimp only
  by_cases hn : n > 0
  · rw [if_pos hn]
    have key : ∀ s : St, Inv { s with booted := false } → Inv (updateAligned (updateHeartbeat { storeInt s heartbeatKey n with booted := true })) := by
      intro s hs
      have := put_inv hs heartbeatKey (.int n) (fun h => by cases h) ⟨by decide +kernel, by decide +kernel, by decide +kernel, by decide +kernel, by decide +kernel, by decide +kernel⟩
      exact { stored := this.stored, fresh := this.fresh, heartbeat := fun _ => rfl, aligned := fun _ => rfl, sample := this.sample, attempts := this.attempts,
              retry := this.retry, timeout := this.timeout, key := this.key }
    have weak : Inv { s with booted := false } :=
      { stored := hs.stored, fresh := hs.fresh, heartbeat := fun h => (by cases h), aligned := fun h => (by cases h), sample := hs.sample, attempts := hs.attempts,
        retry := hs.retry, timeout := hs.timeout, key := hs.key }
    cases a with
    | true => exact key s weak
    | false =>
      have hb : s.booted = false := by
        rcases hc with h | h | h
        · cases h
        · omega
        · exact h
      exact put_inv hs heartbeatKey (.int n) (fun h => by rw [hb] at h; cases h)
        ⟨by decide +kernel, by decide +kernel, by decide +kernel, by decide +kernel, by decide +kernel, by decide +kernel⟩
  · rw [if_neg hn]
    cases a with
    | false => exact hs
    | true =>
      exact { stored := hs.stored, fresh := hs.fresh, heartbeat := fun _ => rfl, aligned := fun _ => rfl, sample := hs.sample, attempts := hs.attempts,
              retry := hs.retry, timeout := hs.timeout, key := hs.key }

theorem fire_inv {s : St} (hs : Inv s) : Inv (fire s) := by
  unfold fire
  have h0 : Inv { s with alarm := none } :=
    { stored := hs.stored, fresh := hs.fresh, heartbeat := hs.heartbeat, aligned := hs.aligned, sample := hs.sample, attempts := hs.attempts,
      retry := hs.retry, timeout := hs.timeout, key := hs.key }
  split
  · exact h0
  · split
    · exact put_inv h0 offsetKey _ (fun _ => by decide +kernel) ⟨by decide +kernel, by decide +kernel, by decide +kernel, by decide +kernel, by decide +kernel, by decide +kernel⟩
    · exact h0

theorem pass_inv {s : St} {t : Int} (hs : Inv s) : Inv (pass s t) := by
  have hn : ∀ s : St, Inv s → ∀ n, Inv { s with now := n } := fun s hs n =>
    { stored := hs.stored, fresh := hs.fresh, heartbeat := hs.heartbeat, aligned := hs.aligned, sample := hs.sample, attempts := hs.attempts,
      retry := hs.retry, timeout := hs.timeout, key := hs.key }
  unfold pass
  split
  · exact hn _ hs _
  · split
    · exact hn _ (fire_inv hs) _
    · exact hn _ hs _

theorem started_inv {c : Conf16.St} {now : Int} (h1 : Stored c) (h2 : Fresh c.cfg) : Inv (started c now []) :=
  { stored := h1, fresh := h2, heartbeat := fun h => (by cases h), aligned := fun h => (by cases h), sample := fun x hx => (by cases hx), attempts := rfl, retry := rfl, timeout := rfl, key := rfl }

theorem arm_eq {env : Env} {s s' : St} (h : armAlarm env s = some s') : ∃ a, s' = { s with alarm := a } := by
  unfold armAlarm at h
  split at h
  · cases h; exact ⟨s.alarm, rfl⟩
  · unfold setAlarm at h
    split at h
    · cases h
    · cases h; exact ⟨_, rfl⟩

theorem start_eq {env : Env} {c : Conf16.St} {now : Int} {l : List Nat} {s : St} (h : start env c now l = some s) : ∃ a, s = { started c now l with alarm := a } := by
  unfold start at h
  split at h
  · exact arm_eq h
  · cases h; exact ⟨none, rfl⟩

theorem start_inv {env : Env} {c : Conf16.St} {now : Int} {s : St} (h1 : Stored c) (h2 : Fresh c.cfg) (h : start env c now [] = some s) : Inv s := by
  obtain ⟨a, rfl⟩ := start_eq h
  have hs := started_inv (now := now) h1 h2
  exact { stored := hs.stored, fresh := hs.fresh, heartbeat := hs.heartbeat, aligned := hs.aligned, sample := hs.sample, attempts := hs.attempts,
          retry := hs.retry, timeout := hs.timeout, key := hs.key }

theorem restart_eq {env : Env} {s s' : St} {t : Int} {l : List Nat} (hs : Stored s.conf) (h : restart env s t l = some s') :
    ∃ c, c.cfg = s.conf.cfg ∧ Stored c ∧ start env c (max s.now t) l = some s' := by
  unfold restart at h
  cases hr : Conf16.restart env s.conf with
  | none => rw [hr] at h; cases h
  | some c => rw [hr] at h; exact ⟨c, (Conf16.restart_same hs hr).1, (Conf16.restart_same hs hr).2, h⟩

theorem begin_inv {env : Env} {base user : Maps} {now : Int} {s : St} (h : Begin env base user now s) : Inv s := by
  obtain ⟨c, hb, hf, hs⟩ := h
  exact start_inv (Conf16.boot_stored hb).1 hf hs

theorem step_inv {env : Env} {s s' : St} {o : Op} (hs : Inv s) (hc : Calm s o) (h : step env s o = some s') : Inv s' := by
  cases o with
  | change k t w => cases (show w = .ok from hc); exact change_inv hs h
  | boot a n => cases h; exact boot_inv hs hc
  | startTx c =>
    cases h
    refine { stored := hs.stored, fresh := hs.fresh, heartbeat := hs.heartbeat, aligned := hs.aligned, sample := ?_, attempts := hs.attempts,
             retry := hs.retry, timeout := hs.timeout, key := hs.key }
    intro x hx
    rcases List.mem_cons.mp hx with hx | hx
    · rw [hx]; rfl
    · exact hs.sample x (List.mem_filter.mp hx).1
  | stopTx c =>
    cases h
    exact { stored := hs.stored, fresh := hs.fresh, heartbeat := hs.heartbeat, aligned := hs.aligned,
            sample := fun x hx => hs.sample x (List.mem_filter.mp hx).1, attempts := hs.attempts, retry := hs.retry, timeout := hs.timeout, key := hs.key }
  | connect =>
    cases h
    exact { stored := hs.stored, fresh := hs.fresh, heartbeat := hs.heartbeat, aligned := hs.aligned, sample := hs.sample, attempts := hs.attempts,
            retry := hs.retry, timeout := hs.timeout, key := rfl }
  | disconnect =>
    cases h
    exact { stored := hs.stored, fresh := hs.fresh, heartbeat := hs.heartbeat, aligned := hs.aligned, sample := hs.sample, attempts := hs.attempts,
            retry := hs.retry, timeout := hs.timeout, key := hs.key }
  | pass t => cases h; exact pass_inv hs
  | restart t l =>
    cases (show l = [] from hc)
    obtain ⟨c, h1, h2, h3⟩ := restart_eq hs.stored h
    exact start_inv h2 (h1 ▸ hs.fresh) h3

theorem run_inv {env : Env} : ∀ {ops : List Op} {s s' : St}, Inv s → CalmRun env s ops → run env s ops = some s' → Inv s' := by
  intro ops
  induction ops with
  | nil => intro s s' hs _ h; cases h; exact hs
  | cons o r ih =>
    intro s s' hs hc h
    cases ho : step env s o with
    | none => simp only [run, ho, Option.bind_none] at h; cases h
    | some s1 =>
      simp only [run, ho, Option.bind_some] at h
      exact ih (step_inv hs hc.1 ho) (hc.2 s1 ho) h

theorem run_append {env : Env} : ∀ {a b : List Op} {s : St}, run env s (a ++ b) = (run env s a).bind (fun s => run env s b) := by
  intro a
  induction a with
  | nil => intro b s; rfl
  | cons o r ih =>
    intro b s
    simp only [List.cons_append, run]
    cases step env s o with
    | none => rfl
    | some s1 => simp only [Option.bind_some]; exact ih

theorem calm_append {env : Env} : ∀ {a b : List Op} {s s1 : St}, CalmRun env s (a ++ b) → run env s a = some s1 → CalmRun env s a ∧ CalmRun env s1 b := by
  intro a
  induction a with
  | nil => intro b s s1 h hr; cases hr; exact ⟨trivial, h⟩
  | cons o r ih =>
    intro b s s1 h hr
    cases ho : step env s o with
    | none => simp only [run, ho, Option.bind_none] at hr; cases hr
    | some s2 =>
      simp only [run, ho, Option.bind_some] at hr
      have := ih (h.2 s2 ho) hr
      exact ⟨⟨h.1, fun s' hs' => by rw [ho] at hs'; cases hs'; exact this.1⟩, this.2⟩

end Verif.Eff16
