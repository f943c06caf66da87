import Verif.Effects16.Lemmas2
/-! The pings, and the time offset. -/
set_option linter.unusedSimpArgs false

namespace Verif.Eff16
open Conf16 (Text Val Maps Env Write ciEq lower Stored Fresh putKey SameName)

theorem sameName_iff {a b : Text} : SameName a b ↔ ciEq a b = true := by
  rw [Conf16.ciEq_iff]; exact Iff.rfl

theorem step_key {env : Env} {s s' : St} {o : Op} {n : Text} (hs : Inv s) (hc : Calm s o) (h : step env s o = some s')
    (hu : ciEq "CentralSystemURI".toList n = false) (h1 : n ≠ heartbeatKey) (h2 : n ≠ offsetKey)
    (hk : ∀ k t w, o = .change k t w → ciEq k n = false) : s'.conf.cfg.keys n = s.conf.cfg.keys n := by
  cases o with
  | change k t w =>
    rw [(change_conf h).1]
    by_cases he : (Conf16.change env s.conf s.now k t w).1.cfg.keys n = s.conf.cfg.keys n
    · exact he
    · have := (Conf16.change_keep hs.stored hs.fresh hu he).1
      rw [hk k t w rfl] at this; cases this
  | boot a i =>
    cases h
    have h0 : (if i > 0 then storeInt s heartbeatKey i else s).conf.cfg.keys n = s.conf.cfg.keys n := by
      split
      · show (Conf16.storeKey s.conf heartbeatKey (.int i) .ok .accepted).1.cfg.keys n = _
        rw [Conf16.storeKey_cfg]; exact put_ne h1
      · rfl
    unfold boot
    dsimp only
    cases a
    · exact h0
    · exact h0
  | startTx c => cases h; rfl
  | stopTx c => cases h; rfl
  | connect => cases h; rfl
  | disconnect => cases h; rfl
  | pass t =>
    cases h
    have hf : (fire s).conf.cfg.keys n = s.conf.cfg.keys n := by
      unfold fire
      split
      · rfl
      · split
        · show (Conf16.storeKey s.conf offsetKey _ .ok .accepted).1.cfg.keys n = _
          rw [Conf16.storeKey_cfg]; exact put_ne h2
        · rfl
    unfold pass
    split
    · rfl
    · split
      · exact hf
      · rfl
  | restart t l =>
    obtain ⟨c, h1, _, h3⟩ := restart_eq hs.stored h
    obtain ⟨a, rfl⟩ := start_eq h3
    show c.cfg.keys n = _
    rw [h1]

/-- CustomDisplayCostAndPrice is read only. -/
theorem step_display {env : Env} {s s' : St} {o : Op} (hs : Inv s) (hc : Calm s o) (h : step env s o = some s') :
    s'.conf.cfg.keys displayKey = s.conf.cfg.keys displayKey := by
  cases o with
  | change k t w => rw [(change_conf h).1]; exact Conf16.display_same hs.stored hs.fresh
  | boot a i => exact step_key hs hc h (by decide +kernel) (by decide +kernel) (by decide +kernel) (fun _ _ _ h => by cases h)
  | startTx c => cases h; rfl
  | stopTx c => cases h; rfl
  | connect => cases h; rfl
  | disconnect => cases h; rfl
  | pass t => exact step_key hs hc h (by decide +kernel) (by decide +kernel) (by decide +kernel) (fun _ _ _ h => by cases h)
  | restart t l => exact step_key hs hc h (by decide +kernel) (by decide +kernel) (by decide +kernel) (fun _ _ _ h => by cases h)

theorem step_now {env : Env} {s s' : St} {o : Op} (hs : Inv s) (h : step env s o = some s') : s.now ≤ s'.now := by
  cases o with
  | change k t w => rw [(change_conf h).2.now]
  | boot a n =>
    cases h
    have : (boot s a n).now = s.now := by
      unfold boot; dsimp only
      by_cases h : n > 0 <;> simp only [h, if_true, if_false] <;> cases a <;> rfl
    rw [this]
  | startTx c => cases h; exact Int.le_refl _
  | stopTx c => cases h; exact Int.le_refl _
  | connect => cases h; exact Int.le_refl _
  | disconnect => cases h; exact Int.le_refl _
  | pass t =>
    cases h
    unfold pass
    split
    · exact Int.le_max_left _ _
    · split <;> exact Int.le_max_left _ _
  | restart t l =>
    obtain ⟨c, _, _, h3⟩ := restart_eq hs.stored h
    obtain ⟨a, rfl⟩ := start_eq h3
    exact Int.le_max_left _ _

/-! ## Pings -/

/-- The options of the connection are those of the configuration. -/
def Ready (s : St) : Prop := s.pingOpt = pingOf s.conf.cfg

/-- While there is a connection its pings are those of the configuration. -/
def Pings (s : St) : Prop := s.online = true → ∀ n, s.conf.cfg.keys pingKey = some (.int n) → s.ping = period n

theorem boot_rest {s : St} {a : Bool} {n : Int} : (boot s a n).pingOpt = s.pingOpt ∧ (boot s a n).online = s.online ∧ (boot s a n).ping = s.ping ∧
    (boot s a n).alarm = s.alarm ∧ (boot s a n).now = s.now := by
  unfold boot; dsimp only
  by_cases h : n > 0 <;> simp only [h, if_true, if_false] <;> cases a <;> exact ⟨rfl, rfl, rfl, rfl, rfl⟩

theorem fire_rest {s : St} : (fire s).pingOpt = s.pingOpt ∧ (fire s).online = s.online ∧ (fire s).ping = s.ping ∧ (fire s).alarm = none := by
  unfold fire
  split
  · exact ⟨rfl, rfl, rfl, rfl⟩
  · split <;> exact ⟨rfl, rfl, rfl, rfl⟩

theorem pass_rest {s : St} {t : Int} : (pass s t).pingOpt = s.pingOpt ∧ (pass s t).online = s.online ∧ (pass s t).ping = s.ping := by
  unfold pass
  split
  · exact ⟨rfl, rfl, rfl⟩
  · split
    · exact ⟨fire_rest.1, fire_rest.2.1, fire_rest.2.2.1⟩
    · exact ⟨rfl, rfl, rfl⟩

theorem step_ready {env : Env} {s s' : St} {o : Op} (hs : Inv s) (hc : Calm s o) (h : step env s o = some s')
    (hk : ∀ k t w, o = .change k t w → ciEq k pingKey = false) (hr : Ready s) : Ready s' := by
  have hkey := step_key (n := pingKey) hs hc h (by decide +kernel) (by decide +kernel) (by decide +kernel) hk
  unfold Ready at hr ⊢
  rw [show pingOf s'.conf.cfg = pingOf s.conf.cfg from int_congr hkey]
  cases o with
  | change k t w => rw [(change_conf h).2.pingOpt]; exact hr
  | boot a n => cases h; rw [boot_rest.1]; exact hr
  | startTx c => cases h; exact hr
  | stopTx c => cases h; exact hr
  | connect => cases h; rfl
  | disconnect => cases h; exact hr
  | pass t => cases h; rw [pass_rest.1]; exact hr
  | restart t l =>
    obtain ⟨c, h1, _, h3⟩ := restart_eq hs.stored h
    obtain ⟨a, rfl⟩ := start_eq h3
    show pingOf c.cfg = _
    rw [h1]

theorem run_ready {env : Env} : ∀ {ops : List Op} {s s' : St}, Inv s → CalmRun env s ops → (∀ o ∈ ops, ¬ o.changes "WebSocketPingInterval") → Ready s →
    run env s ops = some s' → Ready s' := by
  intro ops
  induction ops with
  | nil => intro s s' _ _ _ hr h; cases h; exact hr
  | cons o r ih =>
    intro s s' hs hc hk hr h
    cases ho : step env s o with
    | none => simp only [run, ho, Option.bind_none] at h; cases h
    | some s1 =>
      simp only [run, ho, Option.bind_some] at h
      refine ih (step_inv hs hc.1 ho) (hc.2 s1 ho) (fun o h => hk o (List.mem_cons_of_mem _ h)) (step_ready hs hc.1 ho ?_ hr) h
      intro k t w he
      cases hx : ciEq k pingKey with
      | false => rfl
      | true =>
        refine absurd ?_ (hk o List.mem_cons_self)
        rw [he]
        exact sameName_iff.mpr hx

theorem step_pings {env : Env} {s s' : St} {o : Op} (hs : Inv s) (hc : Calm s o) (h : step env s o = some s') (hn : o ≠ .connect) (hp : Pings s) : Pings s' := by
  cases o with
  | change k t w =>
    obtain ⟨hcf, hr⟩ := change_conf h
    cases hk : ciEq k pingKey with
    | false =>
      have hkey := step_key (n := pingKey) hs hc h (by decide +kernel) (by decide +kernel) (by decide +kernel) (fun _ _ _ he => by cases he; exact hk)
      intro ho n hn
      rw [hr.ping hk]
      exact hp (hr.online ▸ ho) n (hkey ▸ hn)
    | true =>
      obtain ⟨c, hc', ⟨ha, hf⟩ | ⟨ha, hf⟩⟩ := change_cases h
      · rw [follow_ping hk] at hf
        intro ho n hn
        have hcc : s'.conf = c := hcf.trans hc'.symm
        have := Option.some.inj hf
        rw [← this]
        unfold updatePing
        dsimp only
        rw [show c.cfg.keys pingKey = some (.int n) from hcc ▸ hn]
      · have hsame : s'.conf.cfg.keys pingKey = s.conf.cfg.keys pingKey := by
          rw [hcf]
          by_cases he : (Conf16.change env s.conf s.now k t w).1.cfg.keys pingKey = s.conf.cfg.keys pingKey
          · exact he
          · exact absurd (Conf16.change_keep hs.stored hs.fresh (by decide +kernel) he).2 ha
        intro ho n hn
        rw [hsame] at hn
        rw [hf] at ho ⊢
        exact hp ho n hn
  | boot a n =>
    have hkey := step_key (n := pingKey) hs hc h (by decide +kernel) (by decide +kernel) (by decide +kernel) (fun _ _ _ he => by cases he)
    cases h
    intro ho m hm
    rw [boot_rest.2.2.1]
    exact hp (boot_rest.2.1 ▸ ho) m (hkey ▸ hm)
  | startTx c => cases h; exact hp
  | stopTx c => cases h; exact hp
  | connect => exact absurd rfl hn
  | disconnect => cases h; intro ho; cases ho
  | pass t =>
    have hkey := step_key (n := pingKey) hs hc h (by decide +kernel) (by decide +kernel) (by decide +kernel) (fun _ _ _ he => by cases he)
    cases h
    intro ho m hm
    rw [pass_rest.2.2]
    exact hp (pass_rest.2.1 ▸ ho) m (hkey ▸ hm)
  | restart t l =>
    obtain ⟨c, h1, _, h3⟩ := restart_eq hs.stored h
    obtain ⟨a, rfl⟩ := start_eq h3
    intro ho; cases ho

theorem run_pings {env : Env} : ∀ {ops : List Op} {s s' : St}, Inv s → CalmRun env s ops → (∀ o ∈ ops, o ≠ .connect) → Pings s →
    run env s ops = some s' → Pings s' := by
  intro ops
  induction ops with
  | nil => intro s s' _ _ _ hr h; cases h; exact hr
  | cons o r ih =>
    intro s s' hs hc hk hr h
    cases ho : step env s o with
    | none => simp only [run, ho, Option.bind_none] at h; cases h
    | some s1 =>
      simp only [run, ho, Option.bind_some] at h
      exact ih (step_inv hs hc.1 ho) (hc.2 s1 ho) (fun o h => hk o (List.mem_cons_of_mem _ h)) (step_pings hs hc.1 ho (hk o List.mem_cons_self) hr) h

/-! ## Time offset -/

/-- The timer for the time offset runs. -/
structure Armed (env : Env) (x : Text) (d : Int) (s : St) : Prop where
  date : s.conf.cfg.keys dateKey = some (.text x)
  reads : env.date x = some d
  display : s.conf.cfg.keys displayKey = some (.bool true)
  alarm : s.alarm = some d
  now : s.now ≤ d

/-- The time of the date is over. -/
structure Over (env : Env) (x : Text) (d : Int) (s : St) : Prop where
  date : s.conf.cfg.keys dateKey = some (.text x)
  reads : env.date x = some d
  alarm : s.alarm = none
  now : d < s.now

theorem change_alarm {env : Env} {s s' : St} {k t : Text} {w : Write} (h : change env s k t w = some s') (hk : ciEq k dateKey = false) : s'.alarm = s.alarm :=
  (change_conf h).2.alarm hk

theorem step_armed {env : Env} {s s' : St} {o : Op} {x : Text} {d : Int} (hs : Inv s) (hc : Calm s o) (h : step env s o = some s')
    (hk : ∀ k t w, o = .change k t w → ciEq k dateKey = false) (ha : Armed env x d s) (hn : s'.now < d) : Armed env x d s' := by
  have hkey := step_key (n := dateKey) hs hc h (by decide +kernel) (by decide +kernel) (by decide +kernel) hk
  have hdis := step_display hs hc h
  refine ⟨hkey ▸ ha.date, ha.reads, hdis ▸ ha.display, ?_, by omega⟩
  cases o with
  | change k t w => rw [change_alarm h (hk k t w rfl)]; exact ha.alarm
  | boot a n => cases h; rw [boot_rest.2.2.2.1]; exact ha.alarm
  | startTx c => cases h; exact ha.alarm
  | stopTx c => cases h; exact ha.alarm
  | connect => cases h; exact ha.alarm
  | disconnect => cases h; exact ha.alarm
  | pass t =>
    cases h
    have hmax : (pass s t).now = max s.now t := by
      unfold pass; split
      · rfl
      · split <;> rfl
    rw [hmax] at hn
    unfold pass
    rw [ha.alarm]
    dsimp only
    rw [if_neg (by omega)]
  | restart t l =>
    obtain ⟨c, h1, _, h3⟩ := restart_eq hs.stored h
    have h3' := h3
    obtain ⟨a, rfl⟩ := start_eq h3
    unfold start at h3'
    rw [if_pos (by rw [h1]; exact ha.display)] at h3'
    unfold armAlarm at h3'
    have : textOf (started c (max s.now t) l).conf.cfg dateKey = some x := by
      unfold textOf
      rw [show (started c (max s.now t) l).conf.cfg.keys dateKey = _ from (h1 ▸ ha.date : c.cfg.keys dateKey = _)]
    rw [this] at h3'
    unfold setAlarm at h3'
    dsimp only at h3'
    rw [ha.reads] at h3'
    dsimp only at h3'
    have hnow : max s.now t < d := hn
    have hal := congrArg St.alarm (Option.some.inj h3')
    dsimp only at hal ⊢
    rw [← hal]
    exact if_neg (by show ¬ (d < max s.now t); omega)

theorem run_now {env : Env} : ∀ {ops : List Op} {s s' : St}, Inv s → CalmRun env s ops → run env s ops = some s' → s.now ≤ s'.now := by
  intro ops
  induction ops with
  | nil => intro s s' _ _ h; cases h; exact Int.le_refl _
  | cons o r ih =>
    intro s s' hs hc h
    cases ho : step env s o with
    | none => simp only [run, ho, Option.bind_none] at h; cases h
    | some s1 =>
      simp only [run, ho, Option.bind_some] at h
      exact Int.le_trans (step_now hs ho) (ih (step_inv hs hc.1 ho) (hc.2 s1 ho) h)

theorem not_changes {o : Op} {k : String} (h : ¬ o.changes k) : ∀ k' t w, o = .change k' t w → ciEq k' k.toList = false := by
  intro k' t w he
  cases hx : ciEq k' k.toList with
  | false => rfl
  | true =>
    refine absurd ?_ h
    rw [he]
    exact sameName_iff.mpr hx

theorem run_armed {env : Env} {x : Text} {d : Int} : ∀ {ops : List Op} {s s' : St}, Inv s → CalmRun env s ops →
    (∀ o ∈ ops, ¬ o.changes "NextTimeOffsetTransitionDateTime") → Armed env x d s → run env s ops = some s' → s'.now < d → Armed env x d s' := by
  intro ops
  induction ops with
  | nil => intro s s' _ _ _ hr h _; cases h; exact hr
  | cons o r ih =>
    intro s s' hs hc hk hr h hn
    cases ho : step env s o with
    | none => simp only [run, ho, Option.bind_none] at h; cases h
    | some s1 =>
      simp only [run, ho, Option.bind_some] at h
      have hi := step_inv hs hc.1 ho
      refine ih hi (hc.2 s1 ho) (fun o h => hk o (List.mem_cons_of_mem _ h)) (step_armed hs hc.1 ho ?_ hr ?_) h hn
      · intro k t w he
        cases hx : ciEq k dateKey with
        | false => rfl
        | true =>
          refine absurd ?_ (hk o List.mem_cons_self)
          rw [he]
          exact sameName_iff.mpr hx
      · exact Int.lt_of_le_of_lt (run_now hi (hc.2 s1 ho) h) hn

theorem step_over {env : Env} {s s' : St} {o : Op} {x : Text} {d : Int} (hs : Inv s) (hc : Calm s o) (h : step env s o = some s')
    (hk : ∀ k t w, o = .change k t w → ciEq k dateKey = false) (ha : Over env x d s) : Over env x d s' := by
  have hkey := step_key (n := dateKey) hs hc h (by decide +kernel) (by decide +kernel) (by decide +kernel) hk
  have hnow := step_now hs h
  refine ⟨hkey ▸ ha.date, ha.reads, ?_, by have := ha.now; omega⟩
  cases o with
  | change k t w => rw [change_alarm h (hk k t w rfl)]; exact ha.alarm
  | boot a n => cases h; rw [boot_rest.2.2.2.1]; exact ha.alarm
  | startTx c => cases h; exact ha.alarm
  | stopTx c => cases h; exact ha.alarm
  | connect => cases h; exact ha.alarm
  | disconnect => cases h; exact ha.alarm
  | pass t =>
    cases h
    unfold pass
    rw [ha.alarm]
  | restart t l =>
    obtain ⟨c, h1, _, h3⟩ := restart_eq hs.stored h
    unfold start at h3
    split at h3
    · unfold armAlarm at h3
      have : textOf (started c (max s.now t) l).conf.cfg dateKey = some x := by
        unfold textOf
        rw [show (started c (max s.now t) l).conf.cfg.keys dateKey = _ from (h1 ▸ ha.date : c.cfg.keys dateKey = _)]
      rw [this] at h3
      unfold setAlarm at h3
      dsimp only at h3
      rw [ha.reads] at h3
      dsimp only at h3
      have hal := congrArg St.alarm (Option.some.inj h3)
      rw [← hal]
      have := ha.now
      exact if_pos (by show d < max s.now t; omega)
    · cases h3; rfl

theorem run_over {env : Env} {x : Text} {d : Int} : ∀ {ops : List Op} {s s' : St}, Inv s → CalmRun env s ops →
    (∀ o ∈ ops, ¬ o.changes "NextTimeOffsetTransitionDateTime") → Over env x d s → run env s ops = some s' → Over env x d s' := by
  intro ops
  induction ops with
  | nil => intro s s' _ _ _ hr h; cases h; exact hr
  | cons o r ih =>
    intro s s' hs hc hk hr h
    cases ho : step env s o with
    | none => simp only [run, ho, Option.bind_none] at h; cases h
    | some s1 =>
      simp only [run, ho, Option.bind_some] at h
      refine ih (step_inv hs hc.1 ho) (hc.2 s1 ho) (fun o h => hk o (List.mem_cons_of_mem _ h)) (step_over hs hc.1 ho ?_ hr) h
      intro k t w he
      cases hx : ciEq k dateKey with
      | false => rfl
      | true =>
        refine absurd ?_ (hk o List.mem_cons_self)
        rw [he]
        exact sameName_iff.mpr hx

/-- No timer fires in a step: TimeOffset is only changed by a change of it. -/
theorem step_offset {env : Env} {s s' : St} {o : Op} (hs : Inv s) (hc : Calm s o) (h : step env s o = some s')
    (hk : ∀ k t w, o = .change k t w → ciEq k offsetKey = false) (ha : ∀ t, o = .pass t → ∀ d, s.alarm = some d → s'.now < d) :
    s'.conf.cfg.keys offsetKey = s.conf.cfg.keys offsetKey := by
  cases o with
  | change k t w =>
    rw [(change_conf h).1]
    by_cases he : (Conf16.change env s.conf s.now k t w).1.cfg.keys offsetKey = s.conf.cfg.keys offsetKey
    · exact he
    · have := (Conf16.change_keep hs.stored hs.fresh (by decide +kernel) he).1
      rw [hk k t w rfl] at this; cases this
  | boot a i =>
    cases h
    have h0 : (if i > 0 then storeInt s heartbeatKey i else s).conf.cfg.keys offsetKey = s.conf.cfg.keys offsetKey := by
      split
      · show (Conf16.storeKey s.conf heartbeatKey (.int i) .ok .accepted).1.cfg.keys offsetKey = _
        rw [Conf16.storeKey_cfg]; exact put_ne (by decide +kernel)
      · rfl
    unfold boot
    dsimp only
    cases a
    · exact h0
    · exact h0
  | startTx c => cases h; rfl
  | stopTx c => cases h; rfl
  | connect => cases h; rfl
  | disconnect => cases h; rfl
  | pass t =>
    cases h
    have hmax : (pass s t).now = max s.now t := by
      unfold pass; split
      · rfl
      · split <;> rfl
    rw [hmax] at ha
    unfold pass
    split
    · rfl
    · rename_i d hd
      rw [if_neg (by have := ha t rfl d hd; omega)]
  | restart t l =>
    obtain ⟨c, h1, _, h3⟩ := restart_eq hs.stored h
    obtain ⟨a, rfl⟩ := start_eq h3
    show c.cfg.keys offsetKey = _
    rw [h1]

theorem run_offset_armed {env : Env} {x : Text} {d : Int} : ∀ {ops : List Op} {s s' : St}, Inv s → CalmRun env s ops →
    (∀ o ∈ ops, ¬ o.changes "NextTimeOffsetTransitionDateTime" ∧ ¬ o.changes "TimeOffset") → Armed env x d s → run env s ops = some s' → s'.now < d →
    s'.conf.cfg.keys offsetKey = s.conf.cfg.keys offsetKey := by
  intro ops
  induction ops with
  | nil => intro s s' _ _ _ _ h _; cases h; rfl
  | cons o r ih =>
    intro s s' hs hc hk hr h hn
    cases ho : step env s o with
    | none => simp only [run, ho, Option.bind_none] at h; cases h
    | some s1 =>
      simp only [run, ho, Option.bind_some] at h
      have hi := step_inv hs hc.1 ho
      have hn1 : s1.now < d := Int.lt_of_le_of_lt (run_now hi (hc.2 s1 ho) h) hn
      have hq := hk o List.mem_cons_self
      rw [ih hi (hc.2 s1 ho) (fun o h => hk o (List.mem_cons_of_mem _ h)) (step_armed hs hc.1 ho (not_changes hq.1) hr hn1) h hn]
      refine step_offset hs hc.1 ho (not_changes hq.2) ?_
      intro t _ d' hd'
      rw [hr.alarm] at hd'
      cases hd'
      exact hn1

theorem run_offset_over {env : Env} {x : Text} {d : Int} : ∀ {ops : List Op} {s s' : St}, Inv s → CalmRun env s ops →
    (∀ o ∈ ops, ¬ o.changes "NextTimeOffsetTransitionDateTime" ∧ ¬ o.changes "TimeOffset") → Over env x d s → run env s ops = some s' →
    s'.conf.cfg.keys offsetKey = s.conf.cfg.keys offsetKey := by
  intro ops
  induction ops with
  | nil => intro s s' _ _ _ _ h; cases h; rfl
  | cons o r ih =>
    intro s s' hs hc hk hr h
    cases ho : step env s o with
    | none => simp only [run, ho, Option.bind_none] at h; cases h
    | some s1 =>
      simp only [run, ho, Option.bind_some] at h
      have hi := step_inv hs hc.1 ho
      have hq := hk o List.mem_cons_self
      rw [ih hi (hc.2 s1 ho) (fun o h => hk o (List.mem_cons_of_mem _ h)) (step_over hs hc.1 ho (not_changes hq.1) hr) h]
      refine step_offset hs hc.1 ho (not_changes hq.2) ?_
      intro t _ d' hd'
      rw [hr.alarm] at hd'
      cases hd'

end Verif.Eff16
