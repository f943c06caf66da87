import Verif.MessageQueue.FailPos

/-! # One case analysis for all operations except a restart -/

namespace Verif.MQ

set_option linter.unusedSimpArgs false

/-- Operations that process a CALLRESULT or CALLERROR. -/
def BaseOp.isRecv : BaseOp → Bool
  | .recvResult _ | .recvError _ | .callError _ => true
  | _ => false

/-- Events of the receive and timer paths. -/
def Ev.isIn : Ev → Bool
  | .recv _ | .errRecv _ | .timerFired _ => true
  | _ => false

/-- `z` is `s` after the receive or timer path looked at it. -/
structure InView (s z : St) (b : BaseOp) : Prop where
  eq : z = { s with hold := z.hold, pendT := z.pendT, pendE := z.pendE, timerArmed := z.timerArmed, trace := z.trace,
                    fault := z.fault }
  hold : (z.hold = s.hold ∧ b.isRecv = false) ∨ (z.hold = none ∧ b.isRecv = true)
  trace : ∃ es, z.trace = s.trace ++ es ∧ ∀ e ∈ es, e.isIn = true

inductive OpView (s : St) (b : BaseOp) : St → Prop
  | nop : b.isPush = true ∨ b.isRecv = false → OpView s b s
  | push (s') : b.isPush = true → PushFrame s s' → OpView s b s'
  | sleep (ok) : b = .worker ok → s.selTx = none → s.selNormal = none → OpView s b { s with newMsg := false }
  | sent (q m s') : b = .worker true → s.inFlight = none → s.paused = false → s.awake = true →
      (s.hold = none ∨ s.hold = some m.uid) →
      ((q = .tx ∧ s.selTx = some m) ∨ (q = .normal ∧ s.selTx = none ∧ s.selNormal = some m)) →
      SentView s s' q m → OpView s b s'
  | fail (q m s') : b = .worker false → s.inFlight = none → s.paused = false → s.awake = true →
      ((q = .tx ∧ s.selTx = some m) ∨ (q = .normal ∧ s.selTx = none ∧ s.selNormal = some m)) →
      FailView s s' q m → FailPos s s' q m → OpView s b s'
  | result (u s') : b = .recvResult u → ResultView s s' u → OpView s b s'
  | seen (z) : InView s z b → OpView s b z
  | failed (m z s') : s.inFlight = some m → InView s z b → FailedView z s' m → OpView s b s'
  | csmsCall (u) : b = .csmsCall u → OpView s b { s with hold := some u, trace := s.trace ++ [.csmsCall u] }
  | reply (u h) : b = .reply u → h = (if s.hold = some u then none else s.hold) →
      OpView s b { s with hold := h, trace := s.trace ++ [.reply u] }
  | resetHold : b = .resetHold → OpView s b { s with hold := none }
  | pause : b = .pause → OpView s b { s with ctr := s.ctr + 1, paused := true, resuming := false }
  | resumeLater (d) : b = .resume d → OpView s b { s with ctr := s.ctr + 1, resuming := true, resumeCbs := (s.ctr + 1) :: s.resumeCbs }
  | resumeNow (d) : b = .resume d → OpView s b { s with ctr := s.ctr + 1, paused := false, resuming := false }
  | resumeFire : b = .resumeFire s.ctr → s.ctr ∈ s.resumeCbs → OpView s b { s with paused := false, resuming := false }
  | reg (a) : b = .regStatus a → OpView s b { s with reg := a }
  | acc (a) : b = .regStatus a → OpView s b { s with reg := a, accepted := true, trace := s.trace ++ [.accepted] }
  | notify : OpView s b { s with newMsg := true, notifyAt := none }
  | tick (d : Nat) : OpView s b { s with now := s.now + d }
  | stop : b = .stop → OpView s b { s with running := false }
  | addStopped (u t) : b = .addStopped u t → OpView s b { s with midTx := (u, t) :: s.midTx.filter (fun e => e.1 != u) }
  | mv (a x mv) : b = .addMeterValueId a x → mv = (s.addMeterValueId a x).mvMap → OpView s b { s with mvMap := mv }
  | notifyStart (a t l) : b = .notifyStart a t → s.mvMap.lookup a = some l → OpView s b { s with
      txq := s.txq.map (fun m => if l.contains m.uid then { m with txId := some t } else m),
      mvMap := s.mvMap.filter (fun e => e.1 != a) }
  | cfg (c) : c.v2 = s.cfg.v2 → OpView s b { s with cfg := c }

theorem opView (s : St) (b : BaseOp) (hr : b.isRestart = false) : OpView s b (baseStep s b) := by
  by_cases hpush : b.isPush = true
  · rcases push_frame s b hpush with e | hp
    · rw [e]; exact .nop (Or.inl hpush)
    · exact .push _ hpush hp
  cases b <;> simp only [BaseOp.isPush, not_true_eq_false, BaseOp.isRestart, Bool.true_eq_false] at hpush hr
  case worker ok =>
    refine worker_cases (P := OpView s _) s ok (.nop (Or.inr rfl)) ?_ ?_
    · intro h1 h2; exact .sleep ok rfl h1 h2
    · intro q m h1 h2 h3 h4 h5
      cases ok
      · exact .fail q m _ rfl h1 h2 h3 h5 (attempt_failed s q m) (attempt_failed_pos s q m)
      · exact .sent q m _ rfl h1 h2 h3 h4 h5 (attempt_sent s q m)
  case recvResult u => exact .result u _ rfl (recvResult_view s u)
  case recvError u =>
    simp only [baseStep, St.recvError]
    cases hi : s.inFlight with
    | none =>
      simp only [St.emit, hi]
      exact .seen _ ⟨by simp [hi], Or.inr ⟨rfl, rfl⟩, [.recv u], rfl, by simp [Ev.isIn]⟩
    | some m =>
      simp only [St.emit, hi]
      split
      · exact .seen _ ⟨by simp [hi], Or.inr ⟨rfl, rfl⟩, [.recv u], rfl, by simp [Ev.isIn]⟩
      · exact .seen _ ⟨by simp [hi], Or.inr ⟨rfl, rfl⟩, [.recv u, .errRecv u], by simp, by simp [Ev.isIn]⟩
  case runError =>
    simp only [baseStep, St.runError]
    split
    · exact .nop (Or.inr rfl)
    · rcases Option.eq_none_or_eq_some s.inFlight with hi | ⟨m, hi⟩
      ·
        simp only [St.handleFail, hi]
        exact .seen _ ⟨by simp [hi], Or.inl ⟨rfl, rfl⟩, [], by simp, by simp⟩
      ·
        refine .failed m { s with pendE := s.pendE - 1 } _ hi ⟨rfl, Or.inl ⟨rfl, rfl⟩, [], by simp, by simp⟩ ?_
        exact handleFail_view _ _ _ hi
  case timerFire =>
    simp only [baseStep, St.timerFire]
    split
    · split
      · exact .seen _ ⟨rfl, Or.inl ⟨rfl, rfl⟩, [_], rfl, by simp [Ev.isIn]⟩
      · exact .nop (Or.inr rfl)
    · exact .nop (Or.inr rfl)
  case runTimeout =>
    simp only [baseStep, St.runTimeout]
    split
    · exact .nop (Or.inr rfl)
    · rcases Option.eq_none_or_eq_some s.inFlight with hi | ⟨m, hi⟩
      ·
        simp only [St.handleFail, hi]
        exact .seen _ ⟨by simp [hi], Or.inl ⟨rfl, rfl⟩, [], by simp, by simp⟩
      ·
        refine .failed m { s with pendT := s.pendT - 1 } _ hi ⟨rfl, Or.inl ⟨rfl, rfl⟩, [], by simp, by simp⟩ ?_
        exact handleFail_view _ _ _ hi
  case timeout =>
    simp only [baseStep]
    split
    · rename_i harm
      cases hi : s.inFlight with
      | none =>
        simp only [St.timerFire, hi, St.runTimeout]
        split
        · exact .nop (Or.inr rfl)
        · simp only [St.handleFail, hi]
          exact .seen _ ⟨by simp [hi], Or.inl ⟨rfl, rfl⟩, [], by simp, by simp⟩
      | some m =>
        have e : s.timerFire = { s with timerArmed := false, pendT := s.pendT + 1, trace := s.trace ++ [.timerFired m.uid] } := by
          simp [St.timerFire, hi, harm, St.emit]
        rw [e]; simp only [St.runTimeout]
        rw [if_neg (by simp)]
        refine .failed m { s with timerArmed := false, pendT := s.pendT + 1 - 1, trace := s.trace ++ [.timerFired m.uid] } _ hi
          ⟨rfl, Or.inl ⟨rfl, rfl⟩, [_], rfl, by simp [Ev.isIn]⟩ ?_
        exact handleFail_view _ _ _ hi
    · exact .nop (Or.inr rfl)
  case callError u =>
    simp only [baseStep]
    have key : ∀ z : St, InView s z (.callError u) → z.inFlight = s.inFlight → OpView s (.callError u) z.runError := by
      intro z hz hzi
      unfold St.runError
      split
      · exact .seen _ hz
      · rcases Option.eq_none_or_eq_some z.inFlight with hi | ⟨m, hi⟩
        ·
          simp only [St.handleFail, hi]
          refine .seen _ ⟨?_, hz.hold, hz.trace⟩
          rw [hz.eq]; simp [← hzi, hi]
        ·
          refine .failed m { z with pendE := z.pendE - 1 } _ (hzi ▸ hi) ⟨?_, hz.hold, hz.trace⟩ (handleFail_view _ _ _ hi)
          rw [hz.eq]
    refine key _ ?_ ?_
    · unfold St.recvError
      cases hi : s.inFlight with
      | none =>
        simp only [St.emit, hi]
        exact ⟨by simp [hi], Or.inr ⟨rfl, rfl⟩, [.recv u], rfl, by simp [Ev.isIn]⟩
      | some m =>
        simp only [St.emit, hi]
        split
        · exact ⟨by simp [hi], Or.inr ⟨rfl, rfl⟩, [.recv u], rfl, by simp [Ev.isIn]⟩
        · exact ⟨by simp [hi], Or.inr ⟨rfl, rfl⟩, [.recv u, .errRecv u], by simp, by simp [Ev.isIn]⟩
    · unfold St.recvError
      cases hi : s.inFlight with
      | none => simp only [St.emit, hi]
      | some m =>
        simp only [St.emit, hi]
        split <;> simp [hi]
  case csmsCall u => exact .csmsCall u rfl
  case reply u =>
    simp only [baseStep, St.reply]
    split
    · exact .nop (Or.inr rfl)
    · split
      · rename_i h
        exact .reply u none rfl (by rw [if_pos (show s.hold = some u from h)])
      · rename_i h
        exact .reply u s.hold rfl (by rw [if_neg (show ¬ s.hold = some u from h)])
  case resetHold => exact .resetHold rfl
  case pause => exact .pause rfl
  case resume d =>
    simp only [baseStep, St.resume]
    split
    · exact .nop (Or.inr rfl)
    · split
      · exact .resumeLater d rfl
      · simp only [St.resumeNow, if_true]; exact .resumeNow d rfl
  case resumeFire c =>
    simp only [baseStep, St.resumeFire, St.resumeNow]
    split
    · rename_i hc
      split
      · rename_i h; subst h; exact .resumeFire rfl hc
      · exact .nop (Or.inr rfl)
    · exact .nop (Or.inr rfl)
  case regStatus a =>
    simp only [baseStep, St.regStatus]
    split
    · exact .acc a rfl
    · exact .reg a rfl
  case notifyFire =>
    simp only [baseStep, St.notifyFire]
    split
    · split
      · exact .notify
      · exact .nop (Or.inr rfl)
    · exact .nop (Or.inr rfl)
  case tick d => exact .tick d
  case stop => exact .stop rfl
  case addStopped u t => exact .addStopped u t rfl
  case addMeterValueId a x =>
    simp only [baseStep, St.addMeterValueId]
    split
    · rename_i l hl; exact .mv a x _ rfl (by simp [St.addMeterValueId, hl])
    · rename_i hl; exact .mv a x _ rfl (by simp [St.addMeterValueId, hl])
  case notifyStart a t =>
    simp only [baseStep, St.notifyStart]
    split
    · rename_i l hl; exact .notifyStart a t l rfl hl
    · exact .nop (Or.inr rfl)
  case setAttempts => exact .cfg _ rfl
  case setRetryInterval => exact .cfg _ rfl

/-! ## C13 -/

/-- No transmissions in `es`. -/
def NoSend (es : List Ev) : Prop := ∀ e ∈ es, ∀ m, e ≠ .send m

theorem isIn_noSend {es : List Ev} (h : ∀ e ∈ es, e.isIn = true) : NoSend es := by
  rintro e he m rfl; have := h _ he; simp [Ev.isIn] at this

theorem noSend_append {a b : List Ev} (h1 : NoSend a) (h2 : NoSend b) : NoSend (a ++ b) := by
  intro e he m; rcases List.mem_append.1 he with h | h
  · exact h1 e h m
  · exact h2 e h m

/-- Only a successful worker iteration transmits. -/
theorem op_noSend {s : St} {b : BaseOp} {s' : St} (h : OpView s b s') (hp : s.paused = true ∨ s.inFlight.isSome = true ∨ b ≠ .worker true) :
    ∃ es, s'.trace = s.trace ++ es ∧ NoSend es := by
  cases h with
  | push _ _ hp =>
    obtain ⟨es, h1, h2⟩ := hp.trace
    refine ⟨es, h1, ?_⟩
    rintro e he m rfl; have := h2 _ he; simp at this
  | sent q m s' h0 h1 h2 => simp_all
  | fail q m s' h0 h1 h2 h3 h4 hv =>
    obtain ⟨es, h5, h6⟩ := hv.trace
    exact ⟨es, h5, by rintro e he m rfl; have := h6 _ he; simp at this⟩
  | result u s' _ hv =>
    rcases hv.fl with ⟨_, _, es, h5, h6⟩ | ⟨_, _, m, _, _, h5⟩
    · exact ⟨es, h5, by rintro e he m rfl; have := h6 _ he; simp at this⟩
    · exact ⟨_, h5, by simp [NoSend]⟩
  | seen z hz =>
    obtain ⟨es, h5, h6⟩ := hz.trace
    exact ⟨es, h5, isIn_noSend h6⟩
  | failed m z s' _ hz hv =>
    obtain ⟨es, h5, h6⟩ := hz.trace
    obtain ⟨es', h7, h8⟩ := hv.trace
    refine ⟨es ++ es', by rw [h7, h5, List.append_assoc], noSend_append (isIn_noSend h6) ?_⟩
    rintro e he m rfl; have := h8 _ he; simp at this
  | csmsCall | reply | acc => exact ⟨[_], rfl, by simp [NoSend]⟩
  | _ => exact ⟨[], by simp, by simp [NoSend]⟩

/-- Callback counters never exceed the current counter. -/
def JCb (s : St) : Prop := ∀ c ∈ s.resumeCbs, c ≤ s.ctr

theorem JCb.op {s : St} {b : BaseOp} {s' : St} (v : OpView s b s') (h : JCb s) : JCb s' := by
  cases v with
  | push _ _ hp => rw [hp.eq]; exact h
  | sent q m s' h0 h1 h2 _ _ _ v => rw [v.eq]; exact h
  | fail q m s' h0 h1 h2 _ _ v => rw [v.eq]; exact h
  | result u s' _ v => rw [v.eq]; exact h
  | seen z v => rw [v.eq]; exact h
  | failed m z s' _ v1 v =>
    have hz : JCb z := by rw [v1.eq]; exact h
    rw [v.eq]; exact hz
  | pause => intro c hc; have := h c hc; simp only; omega
  | resumeNow => intro c hc; have := h c hc; simp only; omega
  | resumeLater =>
    intro c hc; simp only [List.mem_cons] at hc
    rcases hc with rfl | hc
    · simp
    · have := h c hc; simp only; omega
  | _ => exact h

theorem run_JCb (cfg : Cfg) (now : Int) (ops : List Op) : JCb (run (init cfg now) ops) := by
  refine run_state (J := JCb) (ok := fun _ _ => True) (fun _ h => h) ?_ (fun _ _ _ => trivial) ?_ _ (init_sinv cfg now) ?_ ops
    (along_true _ _)
  · intro s b _ _ hr _ _ h; exact JCb.op (opView s b hr) h
  · intro s p s' cfg ign op _ _ _ _ _ hf _; intro c hc; rw [hf.cbs.1] at hc; simp at hc
  · simp [JCb, init]

/-- Paused, with no valid resume callback left, and nothing transmitted since `tr0`. -/
structure JPause (tr0 : List Ev) (s : St) : Prop where
  st : s.fault ≠ none ∨ (s.paused = true ∧ ∀ c ∈ s.resumeCbs, c < s.ctr)
  tr : ∃ es, s.trace = tr0 ++ es ∧ NoSend es

theorem JPause.op {tr0 : List Ev} {s : St} {b : BaseOp} {s' : St} (v : OpView s b s') (hf : s.fault = none)
    (hb : ∀ d, b ≠ .resume d) (h : JPause tr0 s) : JPause tr0 s' := by
  have ⟨hp, hc⟩ : s.paused = true ∧ ∀ c ∈ s.resumeCbs, c < s.ctr := by
    rcases h.st with h | h
    · exact absurd hf h
    · exact h
  refine ⟨?_, ?_⟩
  · right
    cases v with
    | push _ _ hp' => rw [hp'.eq]; exact ⟨hp, hc⟩
    | sent q m s' h0 h1 h2 _ _ _ v => simp [hp] at h2
    | fail q m s' h0 h1 h2 _ _ v => simp [hp] at h2
    | result u s' _ v => rw [v.eq]; exact ⟨hp, hc⟩
    | seen z v => rw [v.eq]; exact ⟨hp, hc⟩
    | failed m z s' _ v1 v => rw [v.eq]; dsimp only; rw [v1.eq]; exact ⟨hp, hc⟩
    | pause => exact ⟨rfl, fun c h => Nat.lt_succ_of_lt (hc c h)⟩
    | resumeNow d hd => exact absurd hd (hb d)
    | resumeLater d hd => exact absurd hd (hb d)
    | resumeFire hd hm => exact absurd (hc _ hm) (Nat.lt_irrefl _)
    | _ => exact ⟨hp, hc⟩
  · obtain ⟨es, h1, h2⟩ := h.tr
    obtain ⟨es', h3, h4⟩ := op_noSend v (Or.inl hp)
    exact ⟨es ++ es', by rw [h3, h1, List.append_assoc], noSend_append h2 h4⟩

theorem gap_noSend {s p : St} {op : Op} (h : Gap s p op) : ∃ es, p.trace = s.trace ++ es ∧ NoSend es := by
  obtain ⟨es, h1, h2, _⟩ := h
  refine ⟨es, h1, ?_⟩
  rintro e he m rfl; have := h2 _ he; simp at this

theorem restart_noSend {s p s' : St} {cfg : Cfg} {ign : Bool} {op : Op} (h : Gap s p op) (hf : RestartFacts p s' cfg ign) :
    ∃ es, s'.trace = s.trace ++ es ∧ NoSend es := by
  obtain ⟨es, h1, h2⟩ := gap_noSend h
  obtain ⟨ds, h3, h4⟩ := hf.tr
  refine ⟨es ++ [.restart] ++ ds, by rw [h3, h1]; simp, noSend_append (noSend_append h2 (by simp [NoSend])) ?_⟩
  rintro e he m rfl; obtain ⟨r, _, _, h⟩ := h4 _ he; cases h

theorem run_JPause {tr0 : List Ev} (s : St) (hs : SInv s) (h : JPause tr0 s) (ops : List Op)
    (hops : ∀ op ∈ ops, ∀ d, op ≠ .run (.resume d)) : JPause tr0 (run s ops) := by
  refine run_state (J := JPause tr0) (ok := fun _ op => ∀ d, op ≠ .run (.resume d)) (fun _ h => ⟨h.st, h.tr⟩) ?_
    (fun _ _ h => h) ?_ _ hs h ops (along_of_forall hops)
  · intro s b _ hf hr hb _ h; exact JPause.op (opView s b hr) hf (fun d e => hb d (by rw [e])) h
  · intro s p s' cfg ign op _ _ h _ ht hf _
    refine ⟨Or.inr ⟨hf.paused, by rw [hf.cbs.1]; simp⟩, ?_⟩
    obtain ⟨es, h1, h2⟩ := h.tr
    obtain ⟨es', h3, h4⟩ := restart_noSend ht hf
    exact ⟨es ++ es', by rw [h3, h1, List.append_assoc], noSend_append h2 h4⟩

/-- A callback counter that is out of date. -/
def JStale (c : Nat) (s : St) : Prop := c < s.ctr

theorem JStale.op {c : Nat} {s : St} {b : BaseOp} {s' : St} (v : OpView s b s') (h : JStale c s) : JStale c s' := by
  cases v with
  | push _ _ hp => rw [hp.eq]; exact h
  | sent q m s' h0 h1 h2 _ _ _ v => rw [v.eq]; exact h
  | fail q m s' h0 h1 h2 _ _ v => rw [v.eq]; exact h
  | result u s' _ v => rw [v.eq]; exact h
  | seen z v => rw [v.eq]; exact h
  | failed m z s' _ v1 v =>
    have hz : JStale c z := by rw [v1.eq]; exact h
    rw [v.eq]; exact hz
  | pause | resumeNow | resumeLater => exact Nat.lt_succ_of_lt h
  | _ => exact h

/-! ## C10 -/

/-- The hold is exactly the request that has not been replied to. -/
structure J10 (s : St) : Prop where
  hold : s.hold = unreplied s.trace
  ok : BeforeSend (fun a m => unreplied a = none ∨ unreplied a = some m.uid) s.trace

def Ev.replyQuiet : Ev → Bool
  | .csmsCall _ | .reply _ | .restart => false
  | _ => true

theorem unreplied_ext {tr es : List Ev} (h : ∀ e ∈ es, e.replyQuiet = true) : unreplied (tr ++ es) = unreplied tr := by
  refine foldl_ext replyStep none ?_
  intro e he a
  have := h e he
  cases e <;> simp_all [Ev.replyQuiet, replyStep]

theorem unreplied_snoc (tr : List Ev) (e : Ev) : unreplied (tr ++ [e]) = replyStep (unreplied tr) e := by
  simp [unreplied, List.foldl_append]

theorem J10.quiet {s s' : St} (h : J10 s) (hh : s'.hold = s.hold)
    (ht : ∃ es, s'.trace = s.trace ++ es ∧ ∀ e ∈ es, e.replyQuiet = true ∧ ∀ m, e ≠ .send m) : J10 s' := by
  obtain ⟨es, ht, hq⟩ := ht
  refine ⟨?_, ?_⟩
  · rw [hh, ht, unreplied_ext (fun e he => (hq e he).1)]; exact h.hold
  · rw [ht]; exact beforeSend_ext h.ok (fun e he => (hq e he).2)

theorem in_reply {e : Ev} (h : e.isIn = true) : e.replyQuiet = true ∧ ∀ m, e ≠ .send m := by
  cases e <;> simp_all [Ev.isIn, Ev.replyQuiet]

theorem inView_J10 {s z : St} {b : BaseOp} (v : InView s z b) (hb : b.isRecv = true ∨ b = .resetHold → unreplied s.trace = none)
    (h : J10 s) : z.hold = s.hold := by
  rcases v.hold with ⟨h1, _⟩ | ⟨h1, h2⟩
  · exact h1
  · rw [h1, h.hold, hb (Or.inl h2)]

theorem J10.op {s : St} {b : BaseOp} {s' : St} (v : OpView s b s')
    (hb : b.isRecv = true ∨ b = .resetHold → unreplied s.trace = none) (h : J10 s) : J10 s' := by
  cases v with
  | push _ _ hp =>
    obtain ⟨es, h1, h2⟩ := hp.trace
    refine h.quiet (by rw [hp.eq]) ⟨es, h1, ?_⟩
    intro e he; rcases h2 e he with ⟨_, rfl⟩ | ⟨_, _, rfl⟩ | ⟨_, _, rfl⟩ <;> simp [Ev.replyQuiet]
  | sent q m s' h0 h1 h2 _ hh _ v =>
    have ht : s'.trace = s.trace ++ [.send (s.prepare m)] := by rw [v.eq]
    refine ⟨?_, ?_⟩
    · rw [ht, unreplied_snoc]; rw [v.eq]; exact h.hold
    · rw [ht]; refine beforeSend_snoc h.ok (fun x hx => ?_)
      cases hx
      rw [← h.hold]; exact hh
  | fail q m s' h0 h1 h2 _ _ v =>
    obtain ⟨es, h1, h2⟩ := v.trace
    refine h.quiet (by rw [v.eq]) ⟨es, h1, ?_⟩
    intro e he; rcases h2 e he with ⟨_, _, rfl⟩ | ⟨_, _, rfl⟩ <;> simp [Ev.replyQuiet]
  | result u s' hbe v =>
    have hn := hb (Or.inl (by rw [hbe]; rfl))
    have hh : s'.hold = s.hold := by rw [v.eq]; rw [h.hold, hn]
    rcases v.fl with ⟨_, _, es, h1, h2⟩ | ⟨_, _, m, _, _, h5⟩
    · refine h.quiet hh ⟨es, h1, ?_⟩
      intro e he; rcases h2 e he with ⟨_, rfl⟩ | ⟨_, _, rfl⟩ <;> simp [Ev.replyQuiet]
    · exact h.quiet hh ⟨_, h5, by simp [Ev.replyQuiet]⟩
  | seen z v =>
    obtain ⟨es, h1, h2⟩ := v.trace
    exact h.quiet (inView_J10 v hb h) ⟨es, h1, fun e he => in_reply (h2 e he)⟩
  | failed m z s' _ v1 v =>
    obtain ⟨es, h1, h2⟩ := v1.trace
    obtain ⟨es', h3, h4⟩ := v.trace
    refine h.quiet (by rw [v.eq]; show z.hold = s.hold; exact inView_J10 v1 hb h) ⟨es ++ es', by rw [h3, h1, List.append_assoc], ?_⟩
    intro e he
    rcases List.mem_append.1 he with he | he
    · exact in_reply (h2 e he)
    · rcases h4 e he with ⟨_, _, rfl⟩ | ⟨_, _, rfl⟩ | ⟨_, _, rfl⟩ <;> simp [Ev.replyQuiet]
  | csmsCall u => exact ⟨by simp [unreplied_snoc, replyStep], beforeSend_ext h.ok (by simp)⟩
  | reply u hd _ he =>
    refine ⟨?_, beforeSend_ext h.ok (by simp)⟩
    simp only [unreplied_snoc, replyStep, he, h.hold]
  | acc => exact h.quiet rfl ⟨[_], rfl, by simp [Ev.replyQuiet]⟩
  | resetHold hbe => exact h.quiet (by rw [h.hold, hb (Or.inr hbe)]) ⟨[], by simp, by simp⟩
  | _ => exact h.quiet rfl ⟨[], by simp, by simp⟩

/-- No CALLRESULT/CALLERROR is processed, and no hold lifted by hand, while a CSMS request is unreplied. -/
def quietWhileUnreplied (s : St) : Op → Prop
  | .run b => b.isRecv = true ∨ b = .resetHold → unreplied s.trace = none
  | .crash _ _ _ _ => True

theorem run_J10 (cfg : Cfg) (now : Int) (ops : List Op) (hops : Along quietWhileUnreplied (init cfg now) ops) :
    J10 (run (init cfg now) ops) := by
  refine run_state (J := J10) (ok := quietWhileUnreplied) (fun _ h => ⟨h.hold, h.ok⟩) ?_ ?_ ?_ _ (init_sinv cfg now) ?_ ops hops
  · intro s b _ _ hr ho _ h; exact J10.op (opView s b hr) ho h
  · intro s op h; cases op <;> exact h
  · intro s p s' cfg ign op _ _ h _ ht hf _
    obtain ⟨es, ds, e1, e2, e3⟩ := restart_events ht hf
    have hn : unreplied s'.trace = none :=
      foldl_restart replyStep s'.trace s.trace es ds none none (fun _ => rfl)
        (fun e he a => by obtain ⟨i, rfl⟩ := e3 e he; rfl) e1
    exact ⟨by rw [hf.hold, hn], beforeSend_restart h.ok ht hf⟩
  · exact ⟨rfl, by simp [init, BeforeSend]⟩

/-! ## C12 -/

/-- A message that was never attempted and does not wait for acceptance. -/
def Msg.isFresh (m : Msg) : Bool := !m.stall && decide (m.attempts = 0)

/-- Such a message is in the normal queue or at the head of the transaction queue. -/
def St.hasFresh (s : St) : Prop := (∃ m ∈ s.nq, m.isFresh = true) ∨ ∃ m ∈ s.txq.head?, m.isFresh = true

structure J12 (s : St) : Prop where
  wake : s.running = true → s.hasFresh → s.newMsg = true
  due : ∀ m ∈ s.nq ++ s.txq, m.isFresh = true → m.ts ≤ s.now
  fl : ∀ m, s.inFlight = some m → m.attempts ≠ 0

theorem notFresh {m : Msg} {n : Nat} (h : m.attempts = n) (hn : n ≠ 0) : m.isFresh = false := by
  simp [Msg.isFresh, h, hn]

theorem J12.same {s s' : St} (h : J12 s) (hrun : s'.running = true → s.running = true) (ht : s'.txq = s.txq) (hn : s'.nq = s.nq)
    (hm : s'.newMsg = false → s.newMsg = false) (hnow : s.now ≤ s'.now) (hi : ∀ m, s'.inFlight = some m → s.inFlight = some m) : J12 s' := by
  refine ⟨?_, ?_, fun m hm => h.fl m (hi m hm)⟩
  · intro hr hf
    have : s.newMsg = true := h.wake (hrun hr) (by unfold St.hasFresh at *; rw [ht, hn] at hf; exact hf)
    cases hx : s'.newMsg
    · rw [hm hx] at this; cases this
    · rfl
  · intro m hmem hfr
    rw [ht, hn] at hmem
    have := h.due m hmem hfr
    omega

theorem allowed_fresh {m : Msg} {now : Int} {a : Bool} (h : m.isFresh = true) (ht : m.ts ≤ now) : m.allowed now a = true := by
  simp [Msg.isFresh] at h
  simp [Msg.allowed, h.1]; omega

theorem fresh_selects {s : St} (h : J12 s) (hf : s.hasFresh) (h1 : s.selTx = none) : s.selNormal ≠ none := by
  intro h2
  rcases hf with ⟨m, hm, hfr⟩ | ⟨m, hm, hfr⟩
  · have := allowed_fresh (a := s.accepted) hfr (h.due m (by simp [hm]) hfr)
    have h3 := List.find?_eq_none.1 h2 m hm
    simp [this] at h3
  · cases ht : s.txq with
    | nil => rw [ht] at hm; simp at hm
    | cons x xs =>
      rw [ht] at hm; simp at hm; subst hm
      have := allowed_fresh (a := s.accepted) hfr (h.due x (by simp [ht]) hfr)
      rw [St.selTx, ht] at h1
      simp only [this, h2, Msg.before, Bool.true_and, if_true] at h1
      cases h1

theorem J12.op {s : St} {b : BaseOp} {s' : St} (v : OpView s b s') (h : J12 s) : J12 s' := by
  cases v with
  | push _ _ hp =>
    have hnow : s'.now = s.now := by rw [hp.eq]
    rcases hp.queues with ⟨h1, h2⟩ | ⟨h1, m, e1, e2, e3, e4, e5, h2⟩
    · exact h.same (by rw [hp.eq]; exact id) h1 h2 hp.new (by rw [hnow]; exact Int.le_refl _) (by rw [hp.eq]; simp)
    · refine ⟨fun _ _ => h1, ?_, by rw [hp.eq]; exact h.fl⟩
      intro x hx hfr
      rw [hnow]
      have : x = m ∨ x ∈ s.nq ++ s.txq := by
        rcases h2 with ⟨a, c⟩ | ⟨a, c | c⟩
        all_goals
          rcases List.mem_append.1 hx with hx | hx
        · exact Or.inr (by simp [c.subset hx])
        · have := a.subset hx; simp at this; rcases this with h | h
          · exact Or.inr (by simp [h])
          · exact Or.inl h
        · have := c.subset hx; simp at this; rcases this with h | h
          · exact Or.inr (by simp [h])
          · exact Or.inl h
        · exact Or.inr (by simp [a.subset hx])
        · have := c.subset hx; simp at this; rcases this with h | h
          · exact Or.inl h
          · exact Or.inr (by simp [h])
        · exact Or.inr (by simp [a.subset hx])
      rcases this with rfl | this
      · omega
      · exact h.due x this hfr
  | sleep ok _ h1 h2 =>
    refine ⟨?_, h.due, h.fl⟩
    intro _ hf
    exact absurd h2 (fresh_selects h hf h1)
  | sent q m s' h0 h1 h2 haw hh hs v =>
    refine ⟨?_, ?_, ?_⟩
    · intro hr hf
      have hr' : s.running = true := by rw [v.eq] at hr; exact hr
      have : s.newMsg = true := by simp [St.awake, hr'] at haw; exact haw.1.2
      rw [v.new]
      split
      · rename_i hc
        rcases hf with ⟨x, hx, _⟩ | ⟨x, hx, _⟩
        · rw [hc.2] at hx; simp at hx
        · rw [hc.1] at hx; simp at hx
      · exact this
    · intro x hx hfr
      have hnow : s'.now = s.now := by rw [v.eq]
      rw [hnow]
      refine h.due x ?_ hfr
      rcases List.mem_append.1 hx with hx | hx
      · simp [v.nq.subset hx]
      · rw [v.txq] at hx; split at hx
        · simp [List.mem_of_mem_tail hx]
        · simp [hx]
    · intro x hx; rw [v.eq] at hx; simp only [Option.some.injEq] at hx; subst hx; simp [St.prepare]
  | fail q m s' h0 h1 h2 haw hs v =>
    refine ⟨?_, ?_, ?_⟩
    · intro hr hf
      have hr' : s.running = true := by rw [v.eq] at hr; exact hr
      have : s.newMsg = true := by simp [St.awake, hr'] at haw; exact haw.1.2
      rw [v.new]
      split
      · rename_i hc
        rcases hf with ⟨x, hx, _⟩ | ⟨x, hx, _⟩
        · rw [hc.2] at hx; simp at hx
        · rw [hc.1] at hx; simp at hx
      · exact this
    · intro x hx hfr
      have hnow : s'.now = s.now := by rw [v.eq]
      rw [hnow]
      rcases List.mem_append.1 hx with hx | hx
      · rcases v.nq x hx with hx | ⟨_, _, ha, _⟩
        · exact h.due x (by simp [hx]) hfr
        · rw [notFresh ha (by omega)] at hfr; cases hfr
      · rcases v.txq with e | ⟨m2, _, _, ha, _, e⟩
        · rw [e] at hx; exact h.due x (by simp [hx]) hfr
        · rw [e] at hx
          rcases List.mem_cons.1 hx with rfl | hx
          · rw [notFresh ha (by omega)] at hfr; cases hfr
          · exact h.due x (by simp [List.mem_of_mem_tail hx]) hfr
    · rw [v.eq]; simp
  | result u s' _ v =>
    refine h.same (by rw [v.eq]; exact id) (by rw [v.eq]) (by rw [v.eq]) (by rw [v.eq]; exact id) (by rw [v.eq]; exact Int.le_refl _) ?_
    rcases v.fl with ⟨a, _⟩ | ⟨a, _⟩ <;> rw [a] <;> simp
  | seen z v =>
    exact h.same (by rw [v.eq]; exact id) (by rw [v.eq]) (by rw [v.eq]) (by rw [v.eq]; exact id) (by rw [v.eq]; exact Int.le_refl _)
      (by rw [v.eq]; simp)
  | failed m z s' hi v1 v =>
    have hrun : s'.running = s.running := by rw [v.eq]; dsimp only; rw [v1.eq]
    have hnow : s'.now = s.now := by rw [v.eq]; dsimp only; rw [v1.eq]
    have hnew : s'.newMsg = s.newMsg := by rw [v.eq]; dsimp only; rw [v1.eq]
    have hzi : z.inFlight = s.inFlight := by rw [v1.eq]
    have hzt : z.txq = s.txq := by rw [v1.eq]
    have hzn : z.nq = s.nq := by rw [v1.eq]
    have hfl : ∀ x, s'.inFlight = some x → s.inFlight = some x := by
      rcases v.fl with ⟨a, _⟩ | ⟨a, _⟩ <;> rw [a]
      · simp
      · rw [hzi]; simp
    rcases v.queues with ⟨a, c⟩ | ⟨m', _, _, ha, _, _, hq⟩
    · exact h.same (by rw [hrun]; exact id) (by rw [a, hzt]) (by rw [c, hzn]) (by rw [hnew]; exact id) (by rw [hnow]; exact Int.le_refl _) hfl
    · have hnf : m'.isFresh = false := notFresh ha (h.fl m hi)
      refine ⟨?_, ?_, fun x hx => h.fl x (hfl x hx)⟩
      · rw [hrun, hnew]
        intro hr hf
        refine h.wake hr ?_
        rcases hq with ⟨e1, e2⟩ | ⟨e1, e2⟩
        · rcases hf with ⟨x, hx, hfr⟩ | ⟨x, hx, hfr⟩
          · exact Or.inl ⟨x, by rw [e2, hzn] at hx; exact hx, hfr⟩
          · rw [e1] at hx; simp at hx; subst hx; rw [hnf] at hfr; cases hfr
        · rcases hf with ⟨x, hx, hfr⟩ | ⟨x, hx, hfr⟩
          · rw [e2] at hx
            rcases List.mem_cons.1 hx with rfl | hx
            · rw [hnf] at hfr; cases hfr
            · exact Or.inl ⟨x, by rw [hzn] at hx; exact hx, hfr⟩
          · exact Or.inr ⟨x, by rw [e1, hzt] at hx; exact hx, hfr⟩
      · intro x hx hfr
        rw [hnow]
        have : x = m' ∨ x ∈ s.nq ++ s.txq := by
          rcases hq with ⟨e1, e2⟩ | ⟨e1, e2⟩ <;> rw [e1, e2, hzt, hzn] at hx <;> simp at hx ⊢ <;> rcases hx with h | h | h <;> simp [h]
        rcases this with rfl | this
        · rw [hnf] at hfr; cases hfr
        · exact h.due x this hfr
  | notify => exact ⟨fun _ _ => rfl, h.due, h.fl⟩
  | tick d => exact h.same id rfl rfl id (by simp only; omega) (fun _ h => h)
  | stop => exact h.same (by simp) rfl rfl id (Int.le_refl _) (fun _ h => h)
  | notifyStart a t l =>
    refine ⟨?_, ?_, h.fl⟩
    · intro hr hf
      refine h.wake hr ?_
      rcases hf with ⟨x, hx, hfr⟩ | ⟨x, hx, hfr⟩
      · exact Or.inl ⟨x, hx, hfr⟩
      · simp only [List.head?_map, Option.mem_def, Option.map_eq_some_iff] at hx
        obtain ⟨y, hy, e⟩ := hx
        refine Or.inr ⟨y, hy, ?_⟩
        rw [← e] at hfr; split at hfr <;> exact hfr
    · intro x hx hfr
      simp only [List.mem_append, List.mem_map] at hx
      rcases hx with hx | ⟨y, hy, e⟩
      · exact h.due x (by simp [hx]) hfr
      · have h1 : y.isFresh = true := by rw [← e] at hfr; split at hfr <;> exact hfr
        have h2 : x.ts = y.ts := by rw [← e]; split <;> rfl
        rw [h2]; exact h.due y (by simp [hy]) h1
  | _ => exact h.same id rfl rfl id (Int.le_refl _) (fun _ h => h)

theorem run_J12 (cfg : Cfg) (now : Int) (ops : List Op) : J12 (run (init cfg now) ops) := by
  refine run_state (J := J12) (ok := fun _ _ => True) (fun _ h => ⟨h.wake, h.due, h.fl⟩) ?_ (fun _ _ _ => trivial) ?_ _
    (init_sinv cfg now) ?_ ops (along_true _ _)
  · intro s b _ _ hr _ _ h; exact J12.op (opView s b hr) h
  · intro s p s' cfg ign op _ _ _ _ _ hf _
    have hno : ∀ m ∈ s'.nq ++ s'.txq, m.isFresh = false := by
      intro m hm; rcases List.mem_append.1 hm with hm | hm
      · simp [Msg.isFresh, (hf.stallN m hm).1]
      · simp [Msg.isFresh, (hf.stallT m hm).1]
    refine ⟨?_, ?_, by rw [hf.inFlight]; simp⟩
    · rintro _ (⟨m, hm, hfr⟩ | ⟨m, hm, hfr⟩)
      · rw [hno m (by simp [hm])] at hfr; cases hfr
      · rw [hno m (by simp [List.mem_of_mem_head? hm])] at hfr; cases hfr
    · intro m hm hfr; rw [hno m hm] at hfr; cases hfr
  · refine ⟨?_, ?_, ?_⟩ <;> simp [init, St.hasFresh]

end Verif.MQ
