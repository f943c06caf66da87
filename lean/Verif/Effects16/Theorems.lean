import Verif.Effects16.Lemmas3
import Verif.Effects16.Demo
/-! Properties C252 and C253: an accepted change of the configuration of an OCPP 1.6 station takes effect; the time offset changes at the configured time. -/
set_option linter.unusedSimpArgs false

namespace Verif.Eff16
open Conf16 (Text Val Maps Env Write SameName IsOffset putKey)

theorem runs_period {n : Int} : RunsAt (period n) n := by
  unfold RunsAt period
  exact ⟨fun h => by rw [if_neg (by omega)], fun h => by rw [if_pos (by omega)]⟩

theorem intOf_says {s : St} {k : String} {n : Int} (h : Says s k n) : intOf s.conf.cfg k.toList = n := by
  unfold intOf; rw [show s.conf.cfg.keys k.toList = _ from h]

theorem inv_effect {s : St} (h : Inv s) : InEffect s := by
  refine ⟨?_, ?_, ?_, ?_, ?_, ?_, ?_⟩
  · intro hb n hn; rw [h.heartbeat hb, show intOf s.conf.cfg heartbeatKey = n from intOf_says hn]; exact runs_period
  · intro hb n hn; rw [h.aligned hb, show intOf s.conf.cfg alignedKey = n from intOf_says hn]; exact runs_period
  · intro x hx n hn; exact ⟨_, h.sample x hx, by rw [show intOf s.conf.cfg sampleKey = n from intOf_says hn]; exact runs_period⟩
  · intro n hn; rw [h.attempts]; exact intOf_says hn
  · intro n hn; rw [h.retry]; exact intOf_says hn
  · intro n hn; rw [h.timeout]; exact intOf_says hn
  · intro t ht
    rw [h.key]
    unfold textOf
    rw [show s.conf.cfg.keys Conf16.authKey = _ from ht]

/-! ## C252 -/

/-- C252, partial: after each history in which the file can be written, no transaction is resumed and a registered station gets no answer to a
BootNotification that is not Accepted and has an interval, the heartbeats, the clock aligned and the sampled meter values, the attempts of the
message queue, the connection timeout and the key for the next connection are those that the configuration reports. No further change of the
configuration makes the process crash.
Missing: resumed transactions (`C252_resumed_violated`), such answers (`C252_boot_violated`), pings (`C252_ping_partial`, `C252_ping_violated`). -/
theorem C252_partial {env : Env} {base user : Maps} {now : Int} {s0 s : St} {ops : List Op} (h0 : Begin env base user now s0)
    (hc : CalmRun env s0 ops) (hr : run env s0 ops = some s) : InEffect s ∧ ∀ k t, (step env s (.change k t .ok)).isSome = true := by
  have hi := run_inv (begin_inv h0) hc hr
  refine ⟨inv_effect hi, fun k t => ?_⟩
  obtain ⟨s', h⟩ := change_some (env := env) (k := k) (t := t) hi
  show (change env s k t .ok).isSome = true
  rw [h]; rfl

/-- A history with accepted changes. -/
def busy : List Op :=
  [.boot true 300, .startTx 1, .change "heartbeatinterval".toList "20".toList .ok, .change "MeterValueSampleInterval".toList "5".toList .ok, .startTx 2]

example : CalmRun Conf16.demoEnv (someSt true) busy := by
  unfold busy
  exact ⟨.inl rfl, fun _ _ => ⟨trivial, fun _ _ => ⟨rfl, fun _ _ => ⟨rfl, fun _ _ => ⟨trivial, fun _ _ => trivial⟩⟩⟩⟩⟩

example : ∃ s, run Conf16.demoEnv (someSt true) busy = some s ∧ s.heartbeat = some 20 ∧ s.txs = [⟨2, some (some 5)⟩, ⟨1, some (some 5)⟩] ∧
    Says s "HeartbeatInterval" 20 ∧ Says s "MeterValueSampleInterval" 5 := by
  have h1 := (do_change (s := startTx (boot (someSt true) true 300) 1) (e := Conf16.heartbeatRow) (k := "heartbeatinterval".toList) (t := "20".toList)
    (v := .int 300) (x := .int 20) (by decide +kernel) Conf16.heartbeatRow_mem (by decide +kernel) (by decide +kernel) (by decide +kernel) (by decide +kernel) (by decide +kernel)).2
  rw [follow_heartbeat (by decide +kernel)] at h1
  have h2 := (do_change (s := updateHeartbeat { startTx (boot (someSt true) true 300) 1 with
      conf := put (startTx (boot (someSt true) true 300) 1).conf Conf16.heartbeatRow.name (.int 20) }) (e := Conf16.sampleRow)
    (k := "MeterValueSampleInterval".toList) (t := "5".toList) (v := .int 60) (x := .int 5) (by decide +kernel) Conf16.sampleRow_mem (by decide +kernel) (by decide +kernel) (by decide +kernel)
    (by decide +kernel) (by decide +kernel)).2
  rw [follow_sample (by decide +kernel)] at h2
  refine ⟨startTx { updateHeartbeat { startTx (boot (someSt true) true 300) 1 with
      conf := put (startTx (boot (someSt true) true 300) 1).conf Conf16.heartbeatRow.name (.int 20) } with
      conf := put (put (startTx (boot (someSt true) true 300) 1).conf Conf16.heartbeatRow.name (.int 20)) Conf16.sampleRow.name (.int 5)
      txs := [⟨1, some (some 5)⟩] } 2, ?_, by decide +kernel, by decide +kernel, by unfold Says; decide +kernel, by unfold Says; decide +kernel⟩
  unfold busy
  have e1 : step Conf16.demoEnv (someSt true) (.boot true 300) = some (boot (someSt true) true 300) := rfl
  have e2 : step Conf16.demoEnv (boot (someSt true) true 300) (.startTx 1) = some (startTx (boot (someSt true) true 300) 1) := rfl
  simp only [run, e1, e2, h1, h2, Option.bind_some]
  have e3 : updateSample { updateHeartbeat { startTx (boot (someSt true) true 300) 1 with
      conf := put (startTx (boot (someSt true) true 300) 1).conf Conf16.heartbeatRow.name (.int 20) } with
      conf := put (put (startTx (boot (someSt true) true 300) 1).conf Conf16.heartbeatRow.name (.int 20)) Conf16.sampleRow.name (.int 5) } =
      some { updateHeartbeat { startTx (boot (someSt true) true 300) 1 with
      conf := put (startTx (boot (someSt true) true 300) 1).conf Conf16.heartbeatRow.name (.int 20) } with
      conf := put (put (startTx (boot (someSt true) true 300) 1).conf Conf16.heartbeatRow.name (.int 20)) Conf16.sampleRow.name (.int 5)
      txs := [⟨1, some (some 5)⟩] } := rfl
  exact e3 ▸ rfl

/-- C252 does not hold in general: a transaction that is resumed after a restart has no timer for meter values (impl l.519-523 passes a null
pointer). No sampled meter values are taken for it, although the configuration has an interval, and an accepted change of the interval makes the
process crash. -/
theorem C252_resumed_violated : ∃ env base user now s0 s1, Begin env base user now s0 ∧ run env s0 [.startTx 1, .restart 5 [1]] = some s1 ∧
    s1.txs = [⟨1, none⟩] ∧ Says s1 "MeterValueSampleInterval" 60 ∧
    (Conf16.change env s1.conf s1.now "MeterValueSampleInterval".toList "30".toList .ok).2 = .accepted ∧
    step env s1 (.change "MeterValueSampleInterval".toList "30".toList .ok) = none := by
  have hs : step Conf16.demoEnv (startTx (someSt true) 1) (.restart 5 [1]) = some { started (someConf true) 5 [1] with alarm := some 100 } := by
    rw [do_restart (u := Conf16.noChanges) rfl (merged_none _).symm rfl (some_ok true)]
    exact start_true _ _ _ _ (display_key true) (date_key true)
  have hc := do_change (s := { started (someConf true) 5 [1] with alarm := some 100 }) (e := Conf16.sampleRow) (k := "MeterValueSampleInterval".toList)
    (t := "30".toList) (v := .int 60) (x := .int 30) (by decide +kernel) Conf16.sampleRow_mem (by decide +kernel) (by decide +kernel) (by decide +kernel) (by decide +kernel) (by decide +kernel)
  refine ⟨_, _, _, 0, _, { started (someConf true) 5 [1] with alarm := some 100 }, some_begin true, ?_, rfl, ?_, ?_, ?_⟩
  · have e1 : step Conf16.demoEnv (someSt true) (.startTx 1) = some (startTx (someSt true) 1) := rfl
    simp only [run, e1, hs, Option.bind_some]
  · unfold Says; decide +kernel
  · rw [hc.1]
  · rw [hc.2, follow_sample (by decide +kernel)]
    rfl

/-- C252 does not hold in general: the answer Pending with an interval of 300 seconds to a BootNotification of a registered station (after
TriggerMessage) changes HeartbeatInterval of the configuration, but not the timer (impl l.1670-1672, l.1680-1735). -/
theorem C252_boot_violated : ∃ env base user now s0 s, Begin env base user now s0 ∧ run env s0 [.boot true 60, .boot false 300] = some s ∧
    s.booted = true ∧ Says s "HeartbeatInterval" 300 ∧ s.heartbeat = some 60 := by
  refine ⟨_, _, _, 0, _, boot (boot (someSt true) true 60) false 300, some_begin true, rfl, rfl, ?_, ?_⟩
  · unfold Says; decide +kernel
  · decide +kernel

/-- C252 does not hold in general: after an accepted change of WebSocketPingInterval the next connection begins with pings at the old interval
(the options of the connection are read again only after the timer for the pings was started, impl l.297-318). -/
theorem C252_ping_violated : ∃ env base user now s0 s, Begin env base user now s0 ∧
    run env s0 [.connect, .change "WebSocketPingInterval".toList "10".toList .ok, .disconnect, .connect] = some s ∧
    s.online = true ∧ Says s "WebSocketPingInterval" 10 ∧ s.ping = some 30 := by
  have hc := (do_change (s := connect (someSt true)) (e := Conf16.pingRow) (k := "WebSocketPingInterval".toList)
    (t := "10".toList) (v := .int 30) (x := .int 10) (by decide +kernel) Conf16.pingRow_mem (by decide +kernel) (by decide +kernel) (by decide +kernel) (by decide +kernel) (by decide +kernel)).2
  rw [follow_ping (by decide +kernel)] at hc
  refine ⟨_, _, _, 0, _, connect (disconnect (updatePing { connect (someSt true) with conf := put (connect (someSt true)).conf Conf16.pingRow.name (.int 10) })),
    some_begin true, ?_, rfl, ?_, ?_⟩
  · have e1 : step Conf16.demoEnv (someSt true) .connect = some (connect (someSt true)) := rfl
    simp only [run, e1, hc, Option.bind_some]
    rfl
  · unfold Says; decide +kernel
  · decide +kernel

/-- C252, partial: pings go out at the configured interval if no attempt to change the interval was made between the connection before (or the
first start) and the current connection; changes after that take effect at once.
Missing: a change between the two connections (`C252_ping_violated`). -/
theorem C252_ping_partial {env : Env} {base user : Maps} {now : Int} {s0 s : St} {a b c : List Op} (h0 : Begin env base user now s0)
    (hc : CalmRun env s0 (a ++ (b ++ .connect :: c))) (hr : run env s0 (a ++ (b ++ .connect :: c)) = some s)
    (ha : a = [] ∨ ∃ a', a = a' ++ [.connect]) (hb : ∀ o ∈ b, ¬ o.changes "WebSocketPingInterval") (hcc : ∀ o ∈ c, o ≠ .connect) : PingInEffect s := by
  rw [run_append] at hr
  cases h1 : run env s0 a with
  | none => rw [h1] at hr; cases hr
  | some s1 =>
    rw [h1, Option.bind_some, run_append] at hr
    obtain ⟨hca, hcb⟩ := calm_append hc h1
    have i1 := run_inv (begin_inv h0) hca h1
    have r1 : Ready s1 := by
      rcases ha with rfl | ⟨a', rfl⟩
      · cases h1
        obtain ⟨cf, _, _, hs⟩ := h0
        obtain ⟨al, rfl⟩ := start_eq hs
        rfl
      · rw [run_append] at h1
        cases h2 : run env s0 a' with
        | none => rw [h2] at h1; cases h1
        | some x => rw [h2] at h1; cases h1; rfl
    cases h2 : run env s1 b with
    | none => rw [h2] at hr; cases hr
    | some s2 =>
      rw [h2, Option.bind_some] at hr
      obtain ⟨hcb', hcc'⟩ := calm_append hcb h2
      have i2 := run_inv i1 hcb' h2
      have r2 : s2.pingOpt = pingOf s2.conf.cfg := run_ready i1 hcb' hb r1 h2
      have hr' : run env (connect s2) c = some s := hr
      have p3 : Pings (connect s2) := by
        intro _ n hn
        show period s2.pingOpt = period n
        rw [r2]
        unfold pingOf intOf
        rw [show s2.conf.cfg.keys pingKey = _ from hn]
      have := run_pings (step_inv (env := env) i2 hcc'.1 rfl) (hcc'.2 _ rfl) hcc p3 hr'
      intro ho n hn
      rw [this ho n hn]
      exact runs_period

example : ∃ s, run Conf16.demoEnv (someSt true) ([] ++ ([.startTx 1] ++ .connect :: [.change "WebSocketPingInterval".toList "10".toList .ok])) = some s ∧
    Says s "WebSocketPingInterval" 10 ∧ s.ping = some 10 := by
  have hc := (do_change (s := connect (startTx (someSt true) 1)) (e := Conf16.pingRow) (k := "WebSocketPingInterval".toList)
    (t := "10".toList) (v := .int 30) (x := .int 10) (by decide +kernel) Conf16.pingRow_mem (by decide +kernel) (by decide +kernel) (by decide +kernel) (by decide +kernel) (by decide +kernel)).2
  rw [follow_ping (by decide +kernel)] at hc
  refine ⟨updatePing { connect (startTx (someSt true) 1) with conf := put (connect (startTx (someSt true) 1)).conf Conf16.pingRow.name (.int 10) }, ?_, ?_, ?_⟩
  · have e1 : step Conf16.demoEnv (someSt true) (.startTx 1) = some (startTx (someSt true) 1) := rfl
    have e2 : step Conf16.demoEnv (startTx (someSt true) 1) .connect = some (connect (startTx (someSt true) 1)) := rfl
    simp only [List.nil_append, List.cons_append, run, e1, e2, hc, Option.bind_some]
  · unfold Says; decide +kernel
  · decide +kernel

/-! ## C253 -/

/-- C253, partial: if a change of NextTimeOffsetTransitionDateTime to the time `d` was accepted and no further change of it is attempted, TimeOffset
keeps its value until `d` unless it is changed itself; when `d` is over, it is the value TimeOffsetNextTransition had then, and keeps it.
The station may be restarted before `d`.
Missing: a station that does not run at `d` (`C253_off_violated`); CustomDisplayCostAndPrice is false (`C253_display_violated`); a value of
TimeOffsetNextTransition that is not an offset (C178). -/
theorem C253_partial {env : Env} {base user : Maps} {now d t : Int} {s0 s1 s2 s3 s4 : St} {a b c : List Op} {k x : Text} (h0 : Begin env base user now s0)
    (hc : CalmRun env s0 (a ++ (.change k x .ok :: (b ++ .pass t :: c)))) (h1 : run env s0 a = some s1)
    (hk : SameName k "NextTimeOffsetTransitionDateTime".toList) (hacc : (Conf16.change env s1.conf s1.now k x .ok).2 = .accepted)
    (hdisp : s1.conf.cfg.keys "CustomDisplayCostAndPrice".toList = some (.bool true)) (hd : env.date x = some d)
    (h2 : run env s1 (.change k x .ok :: b) = some s2) (hb : ∀ o ∈ b, ¬ o.changes "NextTimeOffsetTransitionDateTime") (hnow : s2.now < d)
    (ht : d < t) (h3 : step env s2 (.pass t) = some s3) (h4 : run env s3 c = some s4)
    (hcq : ∀ o ∈ c, ¬ o.changes "NextTimeOffsetTransitionDateTime" ∧ ¬ o.changes "TimeOffset") :
    ((∀ o ∈ b, ¬ o.changes "TimeOffset") → ∀ v, SaysText s1 "TimeOffset" v → SaysText s2 "TimeOffset" v) ∧
    (∀ v, SaysText s2 "TimeOffsetNextTransition" v → IsOffset v → SaysText s3 "TimeOffset" v ∧ SaysText s4 "TimeOffset" v) := by
  obtain ⟨hca, hcb⟩ := calm_append hc h1
  have i1 := run_inv (begin_inv h0) hca h1
  have hkc := sameName_iff.mp hk
  cases hx : change env s1 k x .ok with
  | none =>
    have : step env s1 (.change k x .ok) = none := hx
    simp only [run, this, Option.bind_none] at h2; cases h2
  | some sx =>
    have hstep : step env s1 (.change k x .ok) = some sx := hx
    simp only [run, hstep, Option.bind_some] at h2
    have ix := step_inv i1 hcb.1 hstep
    obtain ⟨hcbb, hcc⟩ := calm_append (hcb.2 sx hstep) h2
    -- the timer runs after the change
    have armed : Armed env x d sx := by
      obtain ⟨d', hd', hlt, hset⟩ := Conf16.date_accepted i1.fresh hkc hacc
      rw [hd] at hd'; cases hd'
      obtain ⟨hcf, hrest⟩ := change_conf hx
      have hdate : sx.conf.cfg.keys dateKey = some (.text x) := by rw [hcf]; exact hset
      obtain ⟨cf, hcfe, ⟨_, hfo⟩ | ⟨hna, _⟩⟩ := change_cases hx
      · refine ⟨hdate, hd, (step_display i1 hcb.1 hstep).trans hdisp, ?_, ?_⟩
        · rw [follow_date hkc] at hfo
          unfold armAlarm at hfo
          have htx : textOf cf.cfg dateKey = some x := by
            unfold textOf
            rw [hcfe, ← hcf, hdate]
          dsimp only at hfo
          rw [htx] at hfo
          unfold setAlarm at hfo
          dsimp only at hfo
          rw [hd] at hfo
          dsimp only at hfo
          rw [if_neg (by omega)] at hfo
          rw [← Option.some.inj hfo]
        · rw [hrest.now]; show s1.now ≤ d; omega
      · exact absurd hacc hna
    have i2 := run_inv ix hcbb h2
    have armed2 := run_armed ix hcbb hb armed h2 hnow
    refine ⟨?_, ?_⟩
    · intro hbo v hv
      have hv' := step_offset i1 hcb.1 hstep (fun k' t' w' he => by cases he; exact excl hkc (by decide +kernel)) (fun t he => by cases he)
      exact (run_offset_armed ix hcbb (fun o ho => ⟨hb o ho, hbo o ho⟩) armed h2 hnow).trans (hv'.trans hv)
    · intro v hv hoff
      have hn2 : textOf s2.conf.cfg nextOffsetKey = some v := by
        unfold textOf
        rw [show s2.conf.cfg.keys nextOffsetKey = _ from hv]
      have e3 : s3 = { fire s2 with now := max s2.now t } := by
        have : pass s2 t = s3 := Option.some.inj h3
        rw [← this]
        unfold pass
        rw [armed2.alarm]
        dsimp only
        rw [if_pos (by omega)]
      have ef : fire s2 = { s2 with conf := (Conf16.storeKey s2.conf offsetKey (.text v) .ok .accepted).1, alarm := none } := by
        unfold fire
        rw [hn2]
        dsimp only
        rw [if_pos (Conf16.offsetOk_of hoff)]
      have o3 : s3.conf.cfg.keys offsetKey = some (.text v) := by
        rw [e3, ef]
        dsimp only
        rw [Conf16.storeKey_cfg]
        simp [Conf16.putKey, Conf16.upd]
      have i3 := step_inv i2 hcc.1 h3
      have over3 : Over env x d s3 := by
        refine ⟨(step_key (n := dateKey) i2 hcc.1 h3 (by decide +kernel) (by decide +kernel) (by decide +kernel) (fun _ _ _ he => by cases he)).trans armed2.date,
          hd, by rw [e3, ef], by rw [e3]; show d < max s2.now t; omega⟩
      exact ⟨o3, (run_offset_over i3 (hcc.2 s3 h3) hcq over3 h4).trans o3⟩

/-- The date of the examples, which is the time 100. -/
def october : Text := "2026-10-25T01:00:00Z".toList

/-- The station after the change of the date. -/
def dated (display : Bool) : St := { someSt display with conf := put (someConf display) Conf16.dateRow.name (.text october), alarm := some 100 }

theorem do_date (display : Bool) :
    (Conf16.change Conf16.demoEnv (someSt display).conf (someSt display).now "NextTimeOffsetTransitionDateTime".toList october .ok).2 = .accepted ∧
    step Conf16.demoEnv (someSt display) (.change "NextTimeOffsetTransitionDateTime".toList october .ok) = some (dated display) := by
  have hc := do_change (s := someSt display) (e := Conf16.dateRow) (k := "NextTimeOffsetTransitionDateTime".toList) (t := october) (v := .text "D".toList)
    (x := .text october) (fun h => by cases h) Conf16.dateRow_mem (by decide +kernel) (by cases display <;> decide +kernel) (by decide +kernel) (by decide +kernel) (by cases display <;> decide +kernel)
  refine ⟨by rw [hc.1], ?_⟩
  rw [hc.2, follow_date (by decide +kernel)]
  unfold armAlarm
  have : textOf (put (someConf display) Conf16.dateRow.name (.text october)).cfg dateKey = some october := by cases display <;> decide +kernel
  rw [show textOf ({ someSt display with conf := put (someSt display).conf Conf16.dateRow.name (.text october) } : St).conf.cfg dateKey = some october from this]
  rfl

theorem dated_ok (display : Bool) : Conf16.startOk Conf16.demoEnv (dated display).conf.cfg = true :=
  Conf16.startOk_row (some_ok display) Conf16.dateRow_mem (by decide +kernel) (by decide +kernel)

theorem dated_display (display : Bool) : (dated display).conf.cfg.keys displayKey = some (.bool display) := by cases display <;> decide +kernel

theorem dated_date (display : Bool) : textOf (dated display).conf.cfg dateKey = some october := by cases display <;> decide +kernel

theorem dated_restart (display : Bool) (t : Int) : step Conf16.demoEnv (dated display) (.restart t []) = start Conf16.demoEnv (dated display).conf (max 0 t) [] :=
  do_restart (u := putKey Conf16.dateRow.name (.text october) Conf16.noChanges) rfl
    (by rw [Conf16.merged_putKey, show (dated display).conf.base = someBase display from rfl, merged_none]; rfl) rfl (dated_ok display)

/-- The date is accepted at the time 0, the station is restarted at 50, and the offset changes at 100. -/
example : (Conf16.change Conf16.demoEnv (someSt true).conf (someSt true).now "NextTimeOffsetTransitionDateTime".toList october .ok).2 = .accepted := (do_date true).1

example : ∃ s s', run Conf16.demoEnv (someSt true) [.change "NextTimeOffsetTransitionDateTime".toList october .ok, .restart 50 []] = some s ∧ s.now = 50 ∧
    SaysText s "TimeOffset" "01:00".toList ∧ step Conf16.demoEnv s (.pass 150) = some s' ∧ SaysText s' "TimeOffset" "02:00".toList := by
  refine ⟨{ started (dated true).conf 50 [] with alarm := some 100 }, _, ?_, rfl, ?_, rfl, ?_⟩
  · have e2 : step Conf16.demoEnv (dated true) (.restart 50 []) = some { started (dated true).conf 50 [] with alarm := some 100 } := by
      rw [dated_restart]
      exact start_true _ _ _ _ (dated_display true) (dated_date true)
    simp only [run, (do_date true).2, e2, Option.bind_some]
  · unfold SaysText; decide +kernel
  · unfold SaysText; decide +kernel

/-- C253 does not hold in general: a station that is off when the configured time comes does not apply the new offset when it starts again
(impl l.3450-3453: a date in the past is ignored). -/
theorem C253_off_violated : ∃ env base user now s0 s, Begin env base user now s0 ∧
    run env s0 [.change "NextTimeOffsetTransitionDateTime".toList october .ok, .restart 200 [], .pass 1000] = some s ∧
    env.date october = some 100 ∧ SaysText s "NextTimeOffsetTransitionDateTime" october ∧
    SaysText s "TimeOffsetNextTransition" "02:00".toList ∧ SaysText s "TimeOffset" "01:00".toList := by
  refine ⟨_, _, _, 0, _, pass { started (dated true).conf 200 [] with alarm := none } 1000, some_begin true, ?_, rfl, ?_, ?_, ?_⟩
  · have e2 : step Conf16.demoEnv (dated true) (.restart 200 []) = some { started (dated true).conf 200 [] with alarm := none } := by
      rw [dated_restart]
      exact start_true _ _ _ _ (dated_display true) (dated_date true)
    simp only [run, (do_date true).2, e2, Option.bind_some]
    rfl
  · unfold SaysText; decide +kernel
  · unfold SaysText; decide +kernel
  · unfold SaysText; decide +kernel

/-- C253 does not hold in general: with CustomDisplayCostAndPrice false a restart before the configured time stops the timer (impl l.234), although
the change of the date was accepted and the timer ran before the restart. -/
theorem C253_display_violated : ∃ env base user now s0 s s', Begin env base user now s0 ∧
    run env s0 [.change "NextTimeOffsetTransitionDateTime".toList october .ok, .restart 50 [], .pass 150] = some s ∧
    run env s0 [.change "NextTimeOffsetTransitionDateTime".toList october .ok, .pass 150] = some s' ∧
    env.date october = some 100 ∧ SaysText s "TimeOffset" "01:00".toList ∧ SaysText s' "TimeOffset" "02:00".toList := by
  refine ⟨_, _, _, 0, _, pass (started (dated false).conf 50 []) 150, pass (dated false) 150, some_begin false, ?_, ?_, rfl, ?_, ?_⟩
  · have e2 : step Conf16.demoEnv (dated false) (.restart 50 []) = some (started (dated false).conf 50 []) := by
      rw [dated_restart]
      exact start_false _ _ _ (dated_display false)
    simp only [run, (do_date false).2, e2, Option.bind_some]
    rfl
  · simp only [run, (do_date false).2, Option.bind_some]
    rfl
  · unfold SaysText; decide +kernel
  · unfold SaysText; decide +kernel

end Verif.Eff16
