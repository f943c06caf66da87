import Verif.MessageQueue.OpViews

/-! # Invariants of the whole state (C02 strong, C10–C14) -/

namespace Verif.MQ

set_option linter.unusedSimpArgs false

/-! ## Events that do not matter to a fold -/

theorem foldl_ext {α} (f : α → Ev → α) (a0 : α) {tr es : List Ev} (h : ∀ e ∈ es, ∀ a, f a e = a) :
    (tr ++ es).foldl f a0 = tr.foldl f a0 := by
  rw [List.foldl_append]; exact foldl_neutral f es h _

theorem beforeSend_ext {P : List Ev → Msg → Prop} {tr es : List Ev} (h : BeforeSend P tr)
    (he : ∀ e ∈ es, ∀ m, e ≠ .send m) : BeforeSend P (tr ++ es) := by
  induction es generalizing tr with
  | nil => simpa using h
  | cons e es ih =>
    have : tr ++ e :: es = (tr ++ [e]) ++ es := by simp
    rw [this]
    exact ih (beforeSend_snoc h (fun m hm => absurd hm (he e (by simp) m))) (fun x hx => he x (by simp [hx]))

/-! ## Serial histories: C02 in terms of network events, C11 -/

structure JS (s : St) : Prop where
  pend : s.pendT = 0 ∧ s.pendE = 0
  armed : s.timerArmed = true → s.inFlight.isSome = true
  alive : s.fault ≠ some .nullInFlight
  idle : s.inFlight = none → netOpen s.trace = none
  busy : ∀ m, s.inFlight = some m → netOpen s.trace = none ∨ netOpen s.trace = some m.uid
  ok : BeforeSend (fun a _ => netOpen a = none) s.trace

def Ev.netQuiet : Ev → Bool
  | .send _ | .answer _ _ | .errRecv _ | .timerFired _ | .restart => false
  | _ => true

theorem netOpen_ext {tr es : List Ev} (h : ∀ e ∈ es, e.netQuiet = true) : netOpen (tr ++ es) = netOpen tr := by
  refine foldl_ext netStep none ?_
  intro e he a
  have := h e he
  cases e <;> simp_all [Ev.netQuiet, netStep]

theorem netOpen_snoc (tr : List Ev) (e : Ev) : netOpen (tr ++ [e]) = netStep (netOpen tr) e := by
  simp [netOpen, List.foldl_append]

theorem JS.quiet {s s' : St} (h : JS s) (hp : s'.pendT = s.pendT ∧ s'.pendE = s.pendE)
    (hf : s'.fault ≠ some .nullInFlight)
    (hi : (s'.inFlight = s.inFlight ∧ s'.timerArmed = s.timerArmed))
    (ht : ∃ es, s'.trace = s.trace ++ es ∧ ∀ e ∈ es, e.netQuiet = true) : JS s' := by
  obtain ⟨es, ht, hq⟩ := ht
  have hn := netOpen_ext (tr := s.trace) hq
  refine ⟨by rw [hp.1, hp.2]; exact h.pend, by rw [hi.1, hi.2]; exact h.armed, hf, ?_, ?_, ?_⟩
  · rw [hi.1, ht, hn]; exact h.idle
  · rw [hi.1, ht, hn]; exact h.busy
  · rw [ht]
    refine beforeSend_ext h.ok ?_
    rintro e he m rfl
    have := hq _ he; simp [Ev.netQuiet] at this

theorem JS.cleared {s s' : St} (h : JS s) (hp : s'.pendT = 0 ∧ s'.pendE = 0)
    (hf : s'.fault ≠ some .nullInFlight) (hi : s'.timerArmed = true → s'.inFlight.isSome = true)
    (hn : netOpen s'.trace = none) (ht : ∃ es, s'.trace = s.trace ++ es ∧ ∀ e ∈ es, ∀ m, e ≠ .send m) : JS s' := by
  obtain ⟨es, ht, hq⟩ := ht
  refine ⟨hp, hi, hf, fun _ => hn, fun m _ => Or.inl hn, ?_⟩
  rw [ht]; exact beforeSend_ext h.ok hq

theorem fail_quiet {e : Ev} (h : (∃ u i, e = .failed u i) ∨ (∃ i b, e = .fulfil i b) ∨ ∃ i w, e = .done i w) :
    e.netQuiet = true := by
  rcases h with ⟨_, _, rfl⟩ | ⟨_, _, rfl⟩ | ⟨_, _, rfl⟩ <;> rfl

theorem JS.push {s s' : St} (h : JS s) (hS : SInv s) (hf : s.fault = none) (hp : PushFrame s s') : JS s' := by
  have hfault := hp.fault hf hS.psLt
  obtain ⟨es, ht, he⟩ := hp.trace
  refine h.quiet ?_ (by rw [hfault]; simp) ?_ ⟨es, ht, ?_⟩
  · rw [hp.eq]; exact ⟨rfl, rfl⟩
  · rw [hp.eq]; exact ⟨rfl, rfl⟩
  · intro e hm; rcases he e hm with ⟨_, rfl⟩ | ⟨_, _, rfl⟩ | ⟨_, _, rfl⟩ <;> rfl

theorem JS.base (s : St) (b : BaseOp) (hS : SInv s) (hf : s.fault = none) (hr : b.isRestart = false)
    (hb : b.serial = true) (h : JS s) : JS (baseStep s b) := by
  by_cases hpush : b.isPush = true
  · rcases push_frame s b hpush with e | hp
    · rw [e]; exact h
    · exact h.push hS hf hp
  have hnull : s.fault ≠ some .nullInFlight := by rw [hf]; simp
  cases b <;> simp only [BaseOp.isPush, not_true_eq_false, BaseOp.isRestart, BaseOp.serial, Bool.false_eq_true] at hpush hr hb
  case worker ok =>
    refine worker_cases (P := JS) s ok h ?_ ?_
    · intro _ _; exact h.quiet ⟨rfl, rfl⟩ hnull ⟨rfl, rfl⟩ ⟨[], by simp, by simp⟩
    · intro q m hi hp _ _ _
      cases ok
      · have v := attempt_failed s q m
        obtain ⟨es, ht, he⟩ := v.trace
        have hq : ∀ e ∈ es, e.netQuiet = true := by
          intro e hm; rcases he e hm with ⟨_, _, rfl⟩ | ⟨_, _, rfl⟩ <;> rfl
        refine h.cleared ?_ (v.fault hf) ?_ ?_ ⟨es, ht, ?_⟩
        · rw [v.eq]; exact h.pend
        · rw [v.eq]; simp
        · rw [ht, netOpen_ext hq]; exact h.idle hi
        · rintro e hm m rfl; have := hq _ hm; simp [Ev.netQuiet] at this
      · have v := attempt_sent s q m
        have ht : (s.attempt q m true).trace = s.trace ++ [.send (s.prepare m)] := by rw [v.eq]
        refine ⟨by rw [v.eq]; exact h.pend, by rw [v.eq]; simp, by rw [v.eq]; exact hnull, by rw [v.eq]; simp, ?_, ?_⟩
        · intro x hx
          rw [v.eq] at hx; simp only [Option.some.injEq] at hx
          right; rw [ht, netOpen_snoc, ← hx]; rfl
        · rw [ht]; exact beforeSend_snoc h.ok (fun _ _ => h.idle hi)
  case recvResult u =>
    have v := recvResult_view s u
    simp only [baseStep]
    rcases v.fl with ⟨h1, h2, es, h3, h4⟩ | ⟨h1, h2, m, h3, h4, h5⟩
    · refine h.quiet ?_ (v.fault hf) ⟨h1, h2⟩ ⟨es, h3, ?_⟩
      · rw [v.eq]; exact ⟨rfl, rfl⟩
      · intro e he; rcases h4 e he with ⟨_, rfl⟩ | ⟨_, _, rfl⟩ <;> rfl
    · refine h.cleared ?_ (v.fault hf) ?_ ?_ ⟨_, h5, by simp⟩
      · rw [v.eq]; exact h.pend
      · rw [h2]; simp
      · rw [h5]
        have e : s.trace ++ [Ev.recv u, Ev.fulfil m.iid false, Ev.answer m.uid m.iid, Ev.done m.iid .answered] =
            (((s.trace ++ [Ev.recv u]) ++ [Ev.fulfil m.iid false]) ++ [Ev.answer m.uid m.iid]) ++ [Ev.done m.iid .answered] := by simp
        rw [e, netOpen_snoc, netOpen_snoc, netOpen_snoc, netOpen_snoc]
        simp only [netStep]
        rcases h.busy m h3 with h6 | h6 <;> simp [h6]
  case timeout =>
    simp only [baseStep]
    split
    · rename_i harm
      have hs := h.armed harm
      obtain ⟨m, hm⟩ := Option.isSome_iff_exists.1 hs
      have e1 : s.timerFire.runTimeout = ((({ s with timerArmed := false } : St)).emit (.timerFired m.uid)).handleFail true := by
        simp only [St.timerFire, hm, harm, if_true, St.runTimeout, St.emit, h.pend.1]
        simp
      rw [e1]
      have v := handleFail_view ((({ s with timerArmed := false } : St)).emit (.timerFired m.uid)) true m hm
      generalize St.handleFail _ true = z at v
      obtain ⟨es, ht, he⟩ := v.trace
      refine h.cleared ?_ (v.fault hf) ?_ ?_ ⟨.timerFired m.uid :: es, by rw [ht]; simp [St.emit], ?_⟩
      · rw [v.eq]; exact h.pend
      · rcases v.fl with ⟨a, b⟩ | ⟨a, b⟩ <;> rw [b] <;> simp [St.emit]
      · rw [ht, netOpen_ext (fun e he' => fail_quiet (he e he'))]
        show netOpen (s.trace ++ [.timerFired m.uid]) = none
        rw [netOpen_snoc]; simp only [netStep]
        rcases h.busy m hm with h6 | h6 <;> simp [h6]
      · intro e he' x hx; subst hx; simp at he'
        have := fail_quiet (he _ he'); simp [Ev.netQuiet] at this
    · exact h
  case callError u =>
    simp only [baseStep]
    unfold St.recvError
    simp only
    cases hi : s.inFlight with
    | none =>
      simp only [St.emit, hi, St.runError, h.pend.2, if_true]
      exact h.quiet ⟨rfl, h.pend.2.symm ▸ rfl⟩ hnull ⟨by simp [hi], rfl⟩ ⟨[_], rfl, by simp [Ev.netQuiet]⟩
    | some m =>
      simp only [St.emit, hi]
      split
      · simp only [St.runError, h.pend.2, if_true]
        exact h.quiet ⟨rfl, h.pend.2.symm ▸ rfl⟩ hnull ⟨by simp [hi], rfl⟩ ⟨[_], rfl, by simp [Ev.netQuiet]⟩
      · rename_i hu
        have hu' : m.uid = u := by simpa using hu
        simp only [St.runError, h.pend.2]
        simp only [Nat.zero_add, Nat.one_ne_zero, if_false, Nat.sub_self]
        have v := handleFail_view { s with hold := none, pendE := 0, trace := s.trace ++ [.recv u] ++ [.errRecv u] } false m hi
        have hz : ({ s with hold := none, pendE := 0, trace := s.trace ++ [.recv u] ++ [.errRecv u] } : St).handleFail false =
            ({ s with hold := none, pendE := 0, inFlight := some m, trace := s.trace ++ [.recv u] ++ [.errRecv u] } : St).handleFail false := by
          congr 1; simp [hi]
        rw [hz] at v
        generalize St.handleFail _ false = z at v ⊢
        obtain ⟨es, ht, he⟩ := v.trace
        refine h.cleared ?_ (v.fault hf) ?_ ?_ ⟨.recv u :: .errRecv u :: es, by rw [ht]; simp, ?_⟩
        · rw [v.eq]; exact ⟨h.pend.1, rfl⟩
        · rcases v.fl with ⟨a, b⟩ | ⟨a, b⟩
          · rw [b]; simp
          · rw [a]; simp [hi]
        · rw [ht, netOpen_ext (fun e he' => fail_quiet (he e he'))]
          show netOpen (s.trace ++ [.recv u] ++ [.errRecv u]) = none
          rw [netOpen_snoc, netOpen_snoc]; simp only [netStep]
          rcases h.busy m hi with h6 | h6 <;> simp [h6, hu']
        · intro e he' x hx; subst hx; simp at he'
          have := fail_quiet (he _ he'); simp [Ev.netQuiet] at this
  case csmsCall u => exact h.quiet ⟨rfl, rfl⟩ hnull ⟨rfl, rfl⟩ ⟨[_], rfl, by simp [Ev.netQuiet]⟩
  case reply u =>
    simp only [baseStep, St.reply]
    split
    · exact h
    · split
      · exact h.quiet ⟨rfl, rfl⟩ hnull ⟨rfl, rfl⟩ ⟨[_], rfl, by simp [Ev.netQuiet]⟩
      · exact h.quiet ⟨rfl, rfl⟩ hnull ⟨rfl, rfl⟩ ⟨[_], rfl, by simp [Ev.netQuiet]⟩
  case resume d =>
    simp only [baseStep, St.resume]
    split
    · exact h
    · split
      · exact h.quiet ⟨rfl, rfl⟩ hnull ⟨rfl, rfl⟩ ⟨[], by simp, by simp⟩
      · simp only [St.resumeNow, if_true]; exact h.quiet ⟨rfl, rfl⟩ hnull ⟨rfl, rfl⟩ ⟨[], by simp, by simp⟩
  case resumeFire c =>
    simp only [baseStep, St.resumeFire, St.resumeNow]
    split
    · split
      · exact h.quiet ⟨rfl, rfl⟩ hnull ⟨rfl, rfl⟩ ⟨[], by simp, by simp⟩
      · exact h
    · exact h
  case restart => exact absurd hr (by simp)
  case regStatus a =>
    simp only [baseStep, St.regStatus]
    split
    · exact h.quiet ⟨rfl, rfl⟩ hnull ⟨rfl, rfl⟩ ⟨[_], rfl, by simp [Ev.netQuiet]⟩
    · exact h.quiet ⟨rfl, rfl⟩ hnull ⟨rfl, rfl⟩ ⟨[], by simp, by simp⟩
  case notifyFire =>
    simp only [baseStep, St.notifyFire]
    split
    · split
      · exact h.quiet ⟨rfl, rfl⟩ hnull ⟨rfl, rfl⟩ ⟨[], by simp, by simp⟩
      · exact h
    · exact h
  case addMeterValueId =>
    simp only [baseStep, St.addMeterValueId]
    split <;> exact h.quiet ⟨rfl, rfl⟩ hnull ⟨rfl, rfl⟩ ⟨[], by simp, by simp⟩
  case notifyStart =>
    simp only [baseStep, St.notifyStart]
    split
    · exact h.quiet ⟨rfl, rfl⟩ hnull ⟨rfl, rfl⟩ ⟨[], by simp, by simp⟩
    · exact h
  all_goals exact h.quiet ⟨rfl, rfl⟩ hnull ⟨rfl, rfl⟩ ⟨[], by simp [baseStep, St.pause, St.addStopped], by simp⟩

theorem run_JS (cfg : Cfg) (now : Int) (ops : List Op) (hops : ∀ op ∈ ops, op.serial = true) :
    JS (run (init cfg now) ops) := by
  refine run_state (J := JS) (ok := fun _ op => op.serial = true) ?_ ?_ (fun _ _ h => h) ?_ _ (init_sinv cfg now) ?_ ops
    (along_of_forall hops)
  · intro s h; exact ⟨h.pend, h.armed, h.alive, h.idle, h.busy, h.ok⟩
  · intro s b hS hf hr ho _ h; exact JS.base s b hS hf hr ho h
  · intro s p s' cfg ign op ho hS h hn ht hf hop
    obtain ⟨es, ds, e1, e2, e3⟩ := restart_events ht hf
    have hn : netOpen s'.trace = none :=
      foldl_restart netStep s'.trace s.trace es ds none none (fun _ => rfl)
        (fun e he a => by obtain ⟨i, rfl⟩ := e3 e he; rfl) e1
    exact ⟨⟨hf.pend.1, hf.pend.2.1⟩, by rw [hf.pend.2.2]; simp, by rw [hf.fault]; simp, fun _ => hn, fun _ _ => Or.inl hn,
      beforeSend_restart h.ok ht hf⟩
  · constructor <;> simp [init, netOpen, BeforeSend]

end Verif.MQ
