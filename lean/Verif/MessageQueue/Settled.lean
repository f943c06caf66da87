import Verif.MessageQueue.Theorems2

/-!
# What becomes of the future of a message (C207)

`push_call_async` gives the caller a future (message_queue.hpp l.698-723).  The callers of the library block on these
futures.  Here: at any time, the future of every message handed over since the last start is still open with the message
queued or outstanding, or it has been fulfilled, or the message was dropped because of overflow
(`check_queue_sizes`) — in which case the promise is destroyed unfulfilled.
-/

namespace Verif.MQ

/-- The message with number `i` is queued or outstanding. -/
def Core.Held (c : Core) (i : Nat) : Prop :=
  (∃ m ∈ c.txq, m.iid = i) ∨ (∃ m ∈ c.nq, m.iid = i) ∨ ∃ m, c.inf = some m ∧ m.iid = i

/-- What the events `es` tell about the end of message `i`; `mid`: messages may be popped by mistake. -/
def Ended (mid : Prop) (es : List Ev) (i : Nat) : Prop :=
  (∃ off, .fulfil i off ∈ es) ∨ .done i .evicted ∈ es ∨ (mid ∧ .done i .popped ∈ es)

def JE (mid : Prop) (c : Core) : Prop :=
  ∀ i k, .push i k ∈ sinceRestart c.tr → c.Held i ∨ Ended mid (sinceRestart c.tr) i

theorem since_append (tr es : List Ev) (h : .restart ∉ es) : sinceRestart (tr ++ es) = sinceRestart tr ++ es := by
  induction es generalizing tr with
  | nil => simp
  | cons e es ih =>
    simp only [List.mem_cons, not_or] at h
    have : tr ++ e :: es = (tr ++ [e]) ++ es := by simp
    rw [this, ih _ h.2, since_snoc]
    cases e <;> simp_all [sinceStep]

theorem Ended.mono {mid es es' i} (h : Ended mid es i) (hs : ∀ e ∈ es, e ∈ es') : Ended mid es' i := by
  rcases h with ⟨o, h⟩ | h | ⟨hm, h⟩
  · exact Or.inl ⟨o, hs _ h⟩
  · exact Or.inr (Or.inl (hs _ h))
  · exact Or.inr (Or.inr ⟨hm, hs _ h⟩)

theorem JE.step {mid : Prop} {c c' : Core} (h : JE mid c) (es : List Ev) (ht : c'.tr = c.tr ++ es) (hr : .restart ∉ es)
    (hp : ∀ i k, .push i k ∈ es → c'.Held i) (hh : ∀ i, c.Held i → c'.Held i ∨ Ended mid es i) : JE mid c' := by
  intro i k hm
  rw [ht, since_append _ _ hr] at hm ⊢
  rcases List.mem_append.1 hm with hm | hm
  · rcases h i k hm with h1 | h1
    · rcases hh i h1 with h2 | h2
      · exact Or.inl h2
      · exact Or.inr (h2.mono (fun e he => List.mem_append_right _ he))
    · exact Or.inr (h1.mono (fun e he => List.mem_append_left _ he))
  · exact Or.inl (hp i k hm)

@[simp] theorem Core.db_tr (c : Core) (w : DbWrite) : (c.db w).tr = c.tr := rfl
@[simp] theorem Core.db_held (c : Core) (w : DbWrite) (i : Nat) : (c.db w).Held i ↔ c.Held i := Iff.rfl

theorem JE.db {mid : Prop} {c : Core} (h : JE mid c) (w : DbWrite) : JE mid (c.db w) := h

theorem JE.micro {fl : Flags} {c c' : Core} (h : JE fl.mid c) (hm : Micro fl c c') : JE fl.mid c' := by
  cases hm with
  | ev e he =>
    refine h.step [e] rfl ?_ ?_ (fun i hi => Or.inl hi) <;> cases e <;> simp_all [Ev.obs]
  | failed m _ => exact h.step [.failed m.uid m.iid] rfl (by simp) (by simp) (fun i hi => Or.inl hi)
  | accept => exact h.step [.accepted] rfl (by simp) (by simp) (fun i hi => Or.inl hi)
  | unreg => exact h.step [] (by simp) (by simp) (by simp) (fun i hi => Or.inl hi)
  | att => exact h.step [] (by simp) (by simp) (by simp) (fun i hi => Or.inl hi)
  | bump => exact h.step [] (by simp) (by simp) (by simp) (fun i hi => Or.inl hi)
  | fulfilFresh off => exact h.step [.fulfil c.nextId off] rfl (by simp) (by simp) (fun i hi => Or.inl hi)
  | pushTx m =>
    refine JE.db (h.step [.push m.iid m.kind] rfl (by simp) ?_ ?_) _
    · intro i k hi
      simp only [List.mem_singleton, Ev.push.injEq] at hi
      exact Or.inl ⟨m, by simp, hi.1.symm⟩
    · rintro i (⟨x, hx, rfl⟩ | hi | hi)
      · exact Or.inl (Or.inl ⟨x, by simp [hx], rfl⟩)
      · exact Or.inl (Or.inr (Or.inl hi))
      · exact Or.inl (Or.inr (Or.inr hi))
  | pushN m nq' per hk hi ha hq hn =>
    have h1 : JE fl.mid { c with nq := nq', nextId := c.nextId + 1, tr := c.tr ++ [Ev.push m.iid m.kind] } := by
      have hs : ∀ x, x = m ∨ x ∈ c.nq → x ∈ nq' := by
        rintro x (rfl | hx) <;> rcases hn with rfl | rfl <;> simp_all
      refine h.step [.push m.iid m.kind] rfl (by simp) ?_ ?_
      · intro i k hi
        simp only [List.mem_singleton, Ev.push.injEq] at hi
        exact Or.inr (Or.inl ⟨m, hs m (Or.inl rfl), hi.1.symm⟩)
      · rintro i (hi | ⟨x, hx, rfl⟩ | hi)
        · exact Or.inl (Or.inl hi)
        · exact Or.inl (Or.inr (Or.inl ⟨x, hs x (Or.inr hx), rfl⟩))
        · exact Or.inl (Or.inr (Or.inr hi))
    cases per
    · exact h1
    · exact h1.db _
  | evictN m rest per hn =>
    have h1 : JE fl.mid { c with nq := rest, tr := c.tr ++ [Ev.done m.iid .evicted] } := by
      refine h.step [.done m.iid .evicted] rfl (by simp) (by simp) ?_
      rintro i (hi | ⟨x, hx, rfl⟩ | hi)
      · exact Or.inl (Or.inl hi)
      · rw [hn] at hx
        rcases List.mem_cons.1 hx with rfl | hx
        · exact Or.inr (Or.inr (Or.inl (by simp)))
        · exact Or.inl (Or.inr (Or.inl ⟨x, hx, rfl⟩))
      · exact Or.inl (Or.inr (Or.inr hi))
    cases per
    · exact h1
    · exact h1.db _
  | evictT m hm hu =>
    refine JE.db (h.step [.done m.iid .evicted] rfl (by simp) (by simp) ?_) _
    rintro i (⟨x, hx, rfl⟩ | hi | hi)
    · by_cases e : x.iid = m.iid
      · rw [e]; exact Or.inr (Or.inr (Or.inl (by simp)))
      · exact Or.inl (Or.inl ⟨x, by simp [hx, e], rfl⟩)
    · exact Or.inl (Or.inr (Or.inl hi))
    · exact Or.inl (Or.inr (Or.inr hi))
  | sendTx m m1 rest hi hq hs ha hal =>
    refine h.step [.send m1] rfl (by simp) (by simp) ?_
    rintro i (⟨x, hx, rfl⟩ | hi' | ⟨x, hx, rfl⟩)
    · rw [hq] at hx
      rcases List.mem_cons.1 hx with rfl | hx
      · exact Or.inl (Or.inr (Or.inr ⟨m1, rfl, hs.1⟩))
      · exact Or.inl (Or.inl ⟨x, hx, rfl⟩)
    · exact Or.inl (Or.inr (Or.inl hi'))
    · rw [hi] at hx; cases hx
  | sendN m m1 pre post hi hq hs ha hal =>
    refine h.step [.send m1] rfl (by simp) (by simp) ?_
    rintro i (hi' | ⟨x, hx, rfl⟩ | ⟨x, hx, rfl⟩)
    · exact Or.inl (Or.inl hi')
    · rw [hq] at hx
      rcases List.mem_append.1 hx with hx | hx
      · exact Or.inl (Or.inr (Or.inl ⟨x, by simp [hx], rfl⟩))
      · rcases List.mem_cons.1 hx with rfl | hx
        · exact Or.inl (Or.inr (Or.inr ⟨m1, rfl, hs.1⟩))
        · exact Or.inl (Or.inr (Or.inl ⟨x, by simp [hx], rfl⟩))
    · rw [hi] at hx; cases hx
  | failTx hfl m m1 rest hi hq hs ha =>
    refine h.step [] (by simp) (by simp) (by simp) ?_
    rintro i (⟨x, hx, rfl⟩ | hi' | hi')
    · rw [hq] at hx
      rcases List.mem_cons.1 hx with rfl | hx
      · exact Or.inl (Or.inl ⟨m1, by simp, hs.1⟩)
      · exact Or.inl (Or.inl ⟨x, by simp [hx], rfl⟩)
    · exact Or.inl (Or.inr (Or.inl hi'))
    · exact Or.inl (Or.inr (Or.inr hi'))
  | failN hfl m m1 pre post hi hq hs ha =>
    refine h.step [] (by simp) (by simp) (by simp) ?_
    rintro i (hi' | ⟨x, hx, rfl⟩ | hi')
    · exact Or.inl (Or.inl hi')
    · rw [hq] at hx
      rcases List.mem_append.1 hx with hx | hx
      · exact Or.inl (Or.inr (Or.inl ⟨x, by simp [hx], rfl⟩))
      · rcases List.mem_cons.1 hx with rfl | hx
        · exact Or.inl (Or.inr (Or.inl ⟨m1, by simp, hs.1⟩))
        · exact Or.inl (Or.inr (Or.inl ⟨x, by simp [hx], rfl⟩))
    · exact Or.inl (Or.inr (Or.inr hi'))
  | failPop hfl m m1 f pre post rest hi hq hs ha hp hr hmid =>
    refine h.step [.fulfil m.iid true, .done f.iid .popped] (by simp) (by simp) (by simp) ?_
    rintro i (hi' | ⟨x, hx, rfl⟩ | ⟨x, hx, rfl⟩)
    · exact Or.inl (Or.inl hi')
    · rw [hq] at hx
      by_cases hxm : x.iid = m.iid
      · rw [hxm]; exact Or.inr (Or.inl ⟨true, by simp⟩)
      · have hx' : x ∈ f :: rest := by
          rw [← hr]
          rcases List.mem_append.1 hx with hx | hx
          · simp [hx]
          · rcases List.mem_cons.1 hx with rfl | hx
            · exact absurd rfl hxm
            · simp [hx]
        rcases List.mem_cons.1 hx' with rfl | hx'
        · rcases hmid with rfl | hmid
          · simp only [List.nil_append, List.cons.injEq] at hr
            rw [← hr.1] at hxm; exact absurd hs.1 hxm
          · exact Or.inr (Or.inr (Or.inr ⟨hmid, by simp⟩))
        · exact Or.inl (Or.inr (Or.inl ⟨x, hx', rfl⟩))
    · rw [hi] at hx; cases hx
  | answer m per hi hp ht =>
    have h1 : JE fl.mid { c with
        inf := none, ps := m.iid :: c.ps,
        tr := c.tr ++ [Ev.fulfil m.iid false] ++ [Ev.answer m.uid m.iid] ++ [Ev.done m.iid .answered] } := by
      refine h.step [.fulfil m.iid false, .answer m.uid m.iid, .done m.iid .answered] (by simp) (by simp) (by simp) ?_
      rintro i (hi' | hi' | ⟨x, hx, rfl⟩)
      · exact Or.inl (Or.inl hi')
      · exact Or.inl (Or.inr (Or.inl hi'))
      · rw [hi] at hx; cases hx
        exact Or.inr (Or.inl ⟨false, by simp⟩)
    cases per
    · exact h1
    · exact h1.db _
  | giveUp m off per hi hp ht hA =>
    have h1 : JE fl.mid { c with
        inf := none, ps := m.iid :: c.ps,
        tr := c.tr ++ [Ev.failed m.uid m.iid] ++ [Ev.fulfil m.iid off] ++ [Ev.done m.iid .gaveUp] } := by
      refine h.step [.failed m.uid m.iid, .fulfil m.iid off, .done m.iid .gaveUp] (by simp) (by simp) (by simp) ?_
      rintro i (hi' | hi' | ⟨x, hx, rfl⟩)
      · exact Or.inl (Or.inl hi')
      · exact Or.inl (Or.inr (Or.inl hi'))
      · rw [hi] at hx; cases hx
        exact Or.inr (Or.inl ⟨off, by simp⟩)
    cases per
    · exact h1
    · exact h1.db _
  | retryTx m m' hi hk hs ha hA =>
    refine h.step [.failed m.uid m.iid] rfl (by simp) (by simp) ?_
    rintro i (⟨x, hx, rfl⟩ | hi' | ⟨x, hx, rfl⟩)
    · exact Or.inl (Or.inl ⟨x, by simp [hx], rfl⟩)
    · exact Or.inl (Or.inr (Or.inl hi'))
    · rw [hi] at hx; cases hx
      exact Or.inl (Or.inl ⟨m', by simp, hs.1⟩)
  | retryN m m' hi hk hs ha hA =>
    refine h.step [.failed m.uid m.iid] rfl (by simp) (by simp) ?_
    rintro i (hi' | ⟨x, hx, rfl⟩ | ⟨x, hx, rfl⟩)
    · exact Or.inl (Or.inl hi')
    · exact Or.inl (Or.inr (Or.inl ⟨x, by simp [hx], rfl⟩))
    · rw [hi] at hx; cases hx
      exact Or.inl (Or.inr (Or.inl ⟨m', by simp, hs.1⟩))
  | mapTx f hf =>
    refine h.step [] (by simp) (by simp) (by simp) ?_
    rintro i (⟨x, hx, rfl⟩ | hi' | hi')
    · exact Or.inl (Or.inl ⟨f x, List.mem_map_of_mem hx, (hf x).1.1⟩)
    · exact Or.inl (Or.inr (Or.inl hi'))
    · exact Or.inl (Or.inr (Or.inr hi'))
  | faultNull => exact h.step [] (by simp) (by simp) (by simp) (fun i hi => Or.inl hi)
  | faultPromise => exact h.step [] (by simp) (by simp) (by simp) (fun i hi => Or.inl hi)

theorem JE.restart {mid : Prop} {s p s' : St} {cfg ign} {op : Op} (ht : Gap s p op) (hf : RestartFacts p s' cfg ign) :
    JE mid s'.core := by
  intro i k hm
  exfalso
  obtain ⟨es, ds, e1, _, e3⟩ := restart_events ht hf
  have hm : Ev.push i k ∈ sinceRestart s'.trace := hm
  rw [e1, since_append _ ds (by intro h; obtain ⟨j, hj⟩ := e3 _ h; cases hj), since_snoc] at hm
  simp only [sinceStep, List.nil_append] at hm
  obtain ⟨j, hj⟩ := e3 _ hm
  cases hj

theorem run_JE (cfg : Cfg) (now : Int) (ops : List Op) : JE True (run (init cfg now) ops).core := by
  refine run_core (J := JE True) (fl := ⟨True, True, True, True⟩) (ok := fun _ _ => True) (fun s op _ => Flags.le_top _)
    (fun c ws h => h) (fun c c' _ h hm => JE.micro (fl := ⟨True, True, True, True⟩) h hm) ?_ _ (init_sinv cfg now) ?_ ops
    (along_true _ _)
  · intro s p s' cfg ign op _ _ _ ht hf _; exact JE.restart ht hf
  · intro i k h; simp [init, St.core, sinceRestart] at h

theorem run_JE_front (cfg : Cfg) (now : Int) (ops : List Op)
    (hops : Along (fun s op => ∀ b, op = .run b → midFail s b = false) (init cfg now) ops) :
    JE False (run (init cfg now) ops).core := by
  refine run_core (J := JE False) (fl := ⟨True, True, True, False⟩)
    (ok := fun s op => ∀ b, op = .run b → midFail s b = false) ?_
    (fun c ws h => h) (fun c c' _ h hm => JE.micro (fl := ⟨True, True, True, False⟩) h hm) ?_ _ (init_sinv cfg now) ?_ ops hops
  · intro s op ho
    refine ⟨fun _ => trivial, fun _ => trivial, fun _ => trivial, ?_⟩
    intro h
    cases op with
    | run b => have h1 := ho b rfl; rw [show midFail s b = true from h] at h1; cases h1
    | crash => exact h
  · intro s p s' cfg ign op _ _ _ ht hf _; exact JE.restart ht hf
  · intro i k h; simp [init, St.core, sinceRestart] at h

/-! ## Evicted messages -/

structure JX (c : Core) : Prop where
  lt : ∀ i, .done i .evicted ∈ sinceRestart c.tr → i < c.nextId
  gone : ∀ i, .done i .evicted ∈ sinceRestart c.tr → ¬ c.Held i
  ps : ∀ i, .done i .evicted ∈ sinceRestart c.tr → i ∉ c.ps

theorem JX.step {c c' : Core} (h : JX c) (es : List Ev) (ht : c'.tr = c.tr ++ es)
    (hr : ∀ e ∈ es, e ≠ .restart ∧ ∀ i, e ≠ .done i .evicted) (hn : c.nextId ≤ c'.nextId)
    (hh : ∀ i, c'.Held i → c.Held i ∨ c.nextId ≤ i) (hp : ∀ i ∈ c'.ps, i ∈ c.ps ∨ c.Held i ∨ c.nextId ≤ i) : JX c' := by
  have key : ∀ i, .done i .evicted ∈ sinceRestart c'.tr → .done i .evicted ∈ sinceRestart c.tr := by
    intro i hi
    rw [ht, since_append _ _ (fun h => (hr _ h).1 rfl)] at hi
    rcases List.mem_append.1 hi with hi | hi
    · exact hi
    · exact absurd rfl ((hr _ hi).2 i)
  constructor
  · intro i hi; exact Nat.lt_of_lt_of_le (h.lt i (key i hi)) hn
  · intro i hi hc
    rcases hh i hc with hc | hc
    · exact h.gone i (key i hi) hc
    · exact absurd (h.lt i (key i hi)) (by omega)
  · intro i hi hc
    rcases hp i hc with hc | hc | hc
    · exact h.ps i (key i hi) hc
    · exact h.gone i (key i hi) hc
    · exact absurd (h.lt i (key i hi)) (by omega)

theorem JX.evict {c c' : Core} (h : JX c) (j : Nat) (ht : c'.tr = c.tr ++ [.done j .evicted]) (hn : c'.nextId = c.nextId)
    (hj : j < c.nextId) (hp : c'.ps = c.ps) (hjp : j ∉ c.ps) (hh : ∀ i, c'.Held i → c.Held i ∧ i ≠ j) : JX c' := by
  have key : ∀ i, .done i .evicted ∈ sinceRestart c'.tr → .done i .evicted ∈ sinceRestart c.tr ∨ i = j := by
    intro i hi
    rw [ht, since_append _ _ (by simp)] at hi
    simpa using hi
  constructor
  · intro i hi; rw [hn]
    rcases key i hi with hi | rfl
    · exact h.lt i hi
    · exact hj
  · intro i hi hc
    rcases key i hi with hi | rfl
    · exact h.gone i hi (hh i hc).1
    · exact (hh _ hc).2 rfl
  · intro i hi; rw [hp]
    rcases key i hi with hi | rfl
    · exact h.ps i hi
    · exact hjp

theorem JX.db {c : Core} (h : JX c) (w : DbWrite) : JX (c.db w) := ⟨h.lt, h.gone, h.ps⟩

theorem JX.micro {fl : Flags} {c c' : Core} (hC : CInv c) (h7 : J07 c) (h : JX c) (hm : Micro fl c c') : JX c' := by
  cases hm with
  | ev e he =>
    exact h.step [e] rfl (by cases e <;> simp_all [Ev.obs]) (Nat.le_refl _) (fun i => Or.inl) (fun i => Or.inl)
  | failed m _ => exact h.step [.failed m.uid m.iid] rfl (by simp) (Nat.le_refl _) (fun i => Or.inl) (fun i => Or.inl)
  | accept => exact h.step [.accepted] rfl (by simp) (Nat.le_refl _) (fun i => Or.inl) (fun i => Or.inl)
  | unreg => exact h.step [] (by simp) (by simp) (Nat.le_refl _) (fun i => Or.inl) (fun i => Or.inl)
  | att => exact h.step [] (by simp) (by simp) (Nat.le_refl _) (fun i => Or.inl) (fun i => Or.inl)
  | bump => exact h.step [] (by simp) (by simp) (Nat.le_succ _) (fun i => Or.inl) (fun i => Or.inl)
  | fulfilFresh off =>
    refine h.step [.fulfil c.nextId off] rfl (by simp) (Nat.le_succ _) (fun i => Or.inl) ?_
    intro i hi
    rcases List.mem_cons.1 hi with rfl | hi
    · exact Or.inr (Or.inr (Nat.le_refl _))
    · exact Or.inl hi
  | pushTx m hk hi =>
    refine JX.db (c := { c with txq := c.txq ++ [m], nextId := c.nextId + 1, tr := c.tr ++ [Ev.push m.iid m.kind] })
      (h.step [.push m.iid m.kind] rfl (by simp) (Nat.le_succ _) ?_ (fun i => Or.inl)) _
    rintro i (⟨x, hx, rfl⟩ | hi' | hi')
    · rcases List.mem_append.1 hx with hx | hx
      · exact Or.inl (Or.inl ⟨x, hx, rfl⟩)
      · rw [List.mem_singleton.1 hx, hi]; exact Or.inr (Nat.le_refl _)
    · exact Or.inl (Or.inr (Or.inl hi'))
    · exact Or.inl (Or.inr (Or.inr hi'))
  | pushN m nq' per hk hi ha hq hn =>
    have h1 : JX { c with nq := nq', nextId := c.nextId + 1, tr := c.tr ++ [Ev.push m.iid m.kind] } := by
      have hs : ∀ x ∈ nq', x = m ∨ x ∈ c.nq := by
        intro x hx; rcases hn with rfl | rfl
        · exact List.mem_cons.1 hx
        · rcases List.mem_append.1 hx with hx | hx
          · exact Or.inr hx
          · exact Or.inl (List.mem_singleton.1 hx)
      refine h.step [.push m.iid m.kind] rfl (by simp) (Nat.le_succ _) ?_ (fun i => Or.inl)
      rintro i (hi' | ⟨x, hx, rfl⟩ | hi')
      · exact Or.inl (Or.inl hi')
      · rcases hs x hx with rfl | hx
        · rw [hi]; exact Or.inr (Nat.le_refl _)
        · exact Or.inl (Or.inr (Or.inl ⟨x, hx, rfl⟩))
      · exact Or.inl (Or.inr (Or.inr hi'))
    cases per
    · exact h1
    · exact h1.db _
  | evictN m rest per hn =>
    have hmem : m ∈ c.nq := by rw [hn]; simp
    have h1 : JX { c with nq := rest, tr := c.tr ++ [Ev.done m.iid .evicted] } := by
      refine h.evict m.iid rfl rfl (hC.nq_lt hmem).1 rfl (h7.n m hmem) ?_
      rintro i (⟨x, hx, rfl⟩ | ⟨x, hx, rfl⟩ | ⟨x, hx, rfl⟩)
      · exact ⟨Or.inl ⟨x, hx, rfl⟩, fun e => (hC.nq_lt hmem).2 (e ▸ (hC.txq_lt hx).2)⟩
      · refine ⟨Or.inr (Or.inl ⟨x, by rw [hn]; simp [show x ∈ rest from hx], rfl⟩), fun e => ?_⟩
        have hd := hC.inv.nNodup
        rw [hn, List.nodup_append] at hd
        have hd := hd.2.1
        simp only [List.map_cons, List.nodup_cons] at hd
        exact hd.1 (List.mem_map.2 ⟨x, hx, e⟩)
      · exact ⟨Or.inr (Or.inr ⟨x, hx, rfl⟩), fun e => (hC.inf_ne hx).2 m hmem e.symm⟩
    cases per
    · exact h1
    · exact h1.db _
  | evictT m hm hu =>
    refine JX.db (c := { c with
        txq := c.txq.filter (fun x => x.iid != m.iid), tr := c.tr ++ [Ev.done m.iid .evicted] }) (h.evict m.iid rfl rfl (hC.txq_lt hm).1 rfl (h7.tx m hm) ?_) _
    rintro i (⟨x, hx, rfl⟩ | ⟨x, hx, rfl⟩ | ⟨x, hx, rfl⟩)
    · simp only [List.mem_filter, bne_iff_ne] at hx
      exact ⟨Or.inl ⟨x, hx.1, rfl⟩, hx.2⟩
    · exact ⟨Or.inr (Or.inl ⟨x, hx, rfl⟩), fun e => (hC.nq_lt hx).2 (e ▸ (hC.txq_lt hm).2)⟩
    · exact ⟨Or.inr (Or.inr ⟨x, hx, rfl⟩), fun e => (hC.inf_ne hx).1 m hm e.symm⟩
  | sendTx m m1 rest hi hq hs ha hal =>
    refine h.step [.send m1] rfl (by simp) (Nat.le_refl _) ?_ (fun i => Or.inl)
    rintro i (⟨x, hx, rfl⟩ | hi' | ⟨x, hx, rfl⟩)
    · exact Or.inl (Or.inl ⟨x, by rw [hq]; simp [show x ∈ rest from hx], rfl⟩)
    · exact Or.inl (Or.inr (Or.inl hi'))
    · cases hx
      exact Or.inl (Or.inl ⟨m, by rw [hq]; simp, hs.1.symm⟩)
  | sendN m m1 pre post hi hq hs ha hal =>
    refine h.step [.send m1] rfl (by simp) (Nat.le_refl _) ?_ (fun i => Or.inl)
    rintro i (hi' | ⟨x, hx, rfl⟩ | ⟨x, hx, rfl⟩)
    · exact Or.inl (Or.inl hi')
    · refine Or.inl (Or.inr (Or.inl ⟨x, ?_, rfl⟩))
      rw [hq]; rcases List.mem_append.1 hx with hx | hx <;> simp [hx]
    · cases hx
      exact Or.inl (Or.inr (Or.inl ⟨m, by rw [hq]; simp, hs.1.symm⟩))
  | failTx hfl m m1 rest hi hq hs ha =>
    refine h.step [] (by simp) (by simp) (Nat.le_refl _) ?_ (fun i => Or.inl)
    rintro i (⟨x, hx, rfl⟩ | hi' | hi')
    · rcases List.mem_cons.1 hx with rfl | hx
      · exact Or.inl (Or.inl ⟨m, by rw [hq]; simp, hs.1.symm⟩)
      · exact Or.inl (Or.inl ⟨x, by rw [hq]; simp [hx], rfl⟩)
    · exact Or.inl (Or.inr (Or.inl hi'))
    · exact Or.inl (Or.inr (Or.inr hi'))
  | failN hfl m m1 pre post hi hq hs ha =>
    refine h.step [] (by simp) (by simp) (Nat.le_refl _) ?_ (fun i => Or.inl)
    rintro i (hi' | ⟨x, hx, rfl⟩ | hi')
    · exact Or.inl (Or.inl hi')
    · rcases List.mem_append.1 hx with hx | hx
      · exact Or.inl (Or.inr (Or.inl ⟨x, by rw [hq]; simp [hx], rfl⟩))
      · rcases List.mem_cons.1 hx with rfl | hx
        · exact Or.inl (Or.inr (Or.inl ⟨m, by rw [hq]; simp, hs.1.symm⟩))
        · exact Or.inl (Or.inr (Or.inl ⟨x, by rw [hq]; simp [hx], rfl⟩))
    · exact Or.inl (Or.inr (Or.inr hi'))
  | failPop hfl m m1 f pre post rest hi hq hs ha hp hr hmid =>
    have hmm : c.Held m.iid := Or.inr (Or.inl ⟨m, by rw [hq]; simp, rfl⟩)
    refine h.step [.fulfil m.iid true, .done f.iid .popped] (by simp) (by simp) (Nat.le_refl _) ?_ ?_
    · rintro i (hi' | ⟨x, hx, rfl⟩ | hi')
      · exact Or.inl (Or.inl hi')
      · have hx' : x ∈ pre ++ m1 :: post := by rw [hr]; exact List.mem_cons_of_mem _ hx
        rcases List.mem_append.1 hx' with hx | hx
        · exact Or.inl (Or.inr (Or.inl ⟨x, by rw [hq]; simp [hx], rfl⟩))
        · rcases List.mem_cons.1 hx with rfl | hx
          · rw [hs.1]; exact Or.inl hmm
          · exact Or.inl (Or.inr (Or.inl ⟨x, by rw [hq]; simp [hx], rfl⟩))
      · exact Or.inl (Or.inr (Or.inr hi'))
    · intro i hi
      rcases List.mem_cons.1 hi with rfl | hi
      · exact Or.inr (Or.inl hmm)
      · exact Or.inl hi
  | answer m per hi hp ht =>
    have h1 : JX { c with
        inf := none, ps := m.iid :: c.ps,
        tr := c.tr ++ [Ev.fulfil m.iid false] ++ [Ev.answer m.uid m.iid] ++ [Ev.done m.iid .answered] } := by
      refine h.step [.fulfil m.iid false, .answer m.uid m.iid, .done m.iid .answered] (by simp) (by simp) (Nat.le_refl _) ?_ ?_
      · rintro i (hi' | hi' | ⟨x, hx, rfl⟩)
        · exact Or.inl (Or.inl hi')
        · exact Or.inl (Or.inr (Or.inl hi'))
        · cases hx
      · intro i hi'
        rcases List.mem_cons.1 hi' with rfl | hi'
        · exact Or.inr (Or.inl (Or.inr (Or.inr ⟨m, hi, rfl⟩)))
        · exact Or.inl hi'
    cases per
    · exact h1
    · exact h1.db _
  | giveUp m off per hi hp ht hA =>
    have h1 : JX { c with
        inf := none, ps := m.iid :: c.ps,
        tr := c.tr ++ [Ev.failed m.uid m.iid] ++ [Ev.fulfil m.iid off] ++ [Ev.done m.iid .gaveUp] } := by
      refine h.step [.failed m.uid m.iid, .fulfil m.iid off, .done m.iid .gaveUp] (by simp) (by simp) (Nat.le_refl _) ?_ ?_
      · rintro i (hi' | hi' | ⟨x, hx, rfl⟩)
        · exact Or.inl (Or.inl hi')
        · exact Or.inl (Or.inr (Or.inl hi'))
        · cases hx
      · intro i hi'
        rcases List.mem_cons.1 hi' with rfl | hi'
        · exact Or.inr (Or.inl (Or.inr (Or.inr ⟨m, hi, rfl⟩)))
        · exact Or.inl hi'
    cases per
    · exact h1
    · exact h1.db _
  | retryTx m m' hi hk hs ha hA =>
    refine h.step [.failed m.uid m.iid] rfl (by simp) (Nat.le_succ _) ?_ (fun i => Or.inl)
    rintro i (⟨x, hx, rfl⟩ | hi' | ⟨x, hx, rfl⟩)
    · rcases List.mem_cons.1 hx with rfl | hx
      · exact Or.inl (Or.inr (Or.inr ⟨m, hi, hs.1.symm⟩))
      · exact Or.inl (Or.inl ⟨x, hx, rfl⟩)
    · exact Or.inl (Or.inr (Or.inl hi'))
    · cases hx
  | retryN m m' hi hk hs ha hA =>
    refine h.step [.failed m.uid m.iid] rfl (by simp) (Nat.le_succ _) ?_ (fun i => Or.inl)
    rintro i (hi' | ⟨x, hx, rfl⟩ | ⟨x, hx, rfl⟩)
    · exact Or.inl (Or.inl hi')
    · rcases List.mem_cons.1 hx with rfl | hx
      · exact Or.inl (Or.inr (Or.inr ⟨m, hi, hs.1.symm⟩))
      · exact Or.inl (Or.inr (Or.inl ⟨x, hx, rfl⟩))
    · cases hx
  | mapTx f hf =>
    refine h.step [] (by simp) (by simp) (Nat.le_refl _) ?_ (fun i => Or.inl)
    rintro i (⟨x, hx, rfl⟩ | hi' | hi')
    · obtain ⟨y, hy, rfl⟩ := List.mem_map.1 hx
      exact Or.inl (Or.inl ⟨y, hy, (hf y).1.1.symm⟩)
    · exact Or.inl (Or.inr (Or.inl hi'))
    · exact Or.inl (Or.inr (Or.inr hi'))
  | faultNull => exact h.step [] (by simp) (by simp) (Nat.le_refl _) (fun i => Or.inl) (fun i => Or.inl)
  | faultPromise => exact h.step [] (by simp) (by simp) (Nat.le_refl _) (fun i => Or.inl) (fun i => Or.inl)

theorem JX.restart {s p s' : St} {cfg ign} {op : Op} (ht : Gap s p op) (hf : RestartFacts p s' cfg ign) : JX s'.core := by
  have : ∀ i, .done i .evicted ∉ sinceRestart s'.core.tr := by
    intro i hm
    obtain ⟨es, ds, e1, _, e3⟩ := restart_events ht hf
    have hm : Ev.done i .evicted ∈ sinceRestart s'.trace := hm
    rw [e1, since_append _ ds (by intro h; obtain ⟨j, hj⟩ := e3 _ h; cases hj), since_snoc] at hm
    simp only [sinceStep, List.nil_append] at hm
    obtain ⟨j, hj⟩ := e3 _ hm
    cases hj
  exact ⟨fun i hi => absurd hi (this i), fun i hi => absurd hi (this i), fun i hi => absurd hi (this i)⟩

theorem run_JX (cfg : Cfg) (now : Int) (ops : List Op)
    (hops : Along (fun s op => ∀ b, op = .run b → midFail s b = false) (init cfg now) ops) :
    JX (run (init cfg now) ops).core := by
  refine (run_core (J := fun c => J07 c ∧ JX c) (fl := ⟨True, True, True, False⟩)
    (ok := fun s op => ∀ b, op = .run b → midFail s b = false) ?_
    (fun c ws h => ⟨⟨h.1.tx, h.1.n, h.1.inf, h.1.ok⟩, ⟨h.2.lt, h.2.gone, h.2.ps⟩⟩)
    (fun c c' hC h hm => ⟨h.1.micro id hC hm, h.2.micro hC h.1 hm⟩) ?_ _ (init_sinv cfg now) ?_ ops hops).2
  · intro s op ho
    refine ⟨fun _ => trivial, fun _ => trivial, fun _ => trivial, ?_⟩
    intro h
    cases op with
    | run b => have h1 := ho b rfl; rw [show midFail s b = true from h] at h1; cases h1
    | crash => exact h
  · intro s p s' cfg ign op _ _ _ ht hf _; exact ⟨J07.restart hf, JX.restart ht hf⟩
  · refine ⟨?_, ?_⟩
    · constructor <;> simp [init, St.core]
    · constructor <;> simp [init, St.core, sinceRestart]

/-! ## C207 -/

theorem JE.final {mid : Prop} {s : St} (h : JE mid s.core) (hp : JP s.core) (i : Nat) (k : Kind)
    (hi : .push i k ∈ sinceRestart s.trace) :
    (∃ m ∈ s.txq ++ s.nq ++ s.inFlight.toList, m.iid = i) ∨ fulfilCount i (sinceRestart s.trace) = 1 ∨
      .done i .evicted ∈ sinceRestart s.trace ∨ (mid ∧ .done i .popped ∈ sinceRestart s.trace) := by
  rcases h i k hi with (⟨m, hm, rfl⟩ | ⟨m, hm, rfl⟩ | ⟨m, hm, rfl⟩) | ⟨off, hf⟩ | he | he
  · exact Or.inl ⟨m, by simp [show m ∈ s.txq from hm], rfl⟩
  · exact Or.inl ⟨m, by simp [show m ∈ s.nq from hm], rfl⟩
  · exact Or.inl ⟨m, by simp [show s.inFlight = some m from hm], rfl⟩
  · refine Or.inr (Or.inl ?_)
    have h1 : fulfilCount i (sinceRestart s.trace) ≤ 1 := hp.once i
    have h2 : 0 < fulfilCount i (sinceRestart s.trace) := by
      rw [fulfilCount, List.countP_pos_iff]; exact ⟨_, hf, by simp⟩
    omega
  · exact Or.inr (Or.inr (Or.inl he))
  · exact Or.inr (Or.inr (Or.inr he))

/-- **C207, every history.** Every message handed over since the last start is still queued or outstanding, or its
future was fulfilled exactly once, or it was removed from the queue because of overflow, or it was removed by the failed send
of another message (the defect of C07). -/
theorem C207_accounted (cfg : Cfg) (now : Int) (ops : List Op) (i : Nat) (k : Kind)
    (hi : .push i k ∈ sinceRestart (run (init cfg now) ops).trace) :
    let s := run (init cfg now) ops
    (∃ m ∈ s.txq ++ s.nq ++ s.inFlight.toList, m.iid = i) ∨ fulfilCount i (sinceRestart s.trace) = 1 ∨
      .done i .evicted ∈ sinceRestart s.trace ∨ .done i .popped ∈ sinceRestart s.trace := by
  rcases (run_JE cfg now ops).final (run_JP cfg now ops) i k hi with h | h | h | h
  · exact Or.inl h
  · exact Or.inr (Or.inl h)
  · exact Or.inr (Or.inr (Or.inl h))
  · exact Or.inr (Or.inr (Or.inr h.2))

/-- **C207, partial.** (Missing: the futures of messages dropped because of overflow, and histories with the defect of
C07, see `C207_violated`.) If nothing was dropped for overflow, and no send fails for a normal message that is not at the
front of its queue, every message handed over since the last start is queued or outstanding with its future open, or it is
neither and its future was fulfilled exactly once. -/
theorem C207_settled_partial (cfg : Cfg) (now : Int) (ops : List Op)
    (hops : Along (fun s op => ∀ b, op = .run b → midFail s b = false) (init cfg now) ops)
    (hev : ∀ i, .done i .evicted ∉ sinceRestart (run (init cfg now) ops).trace) (i : Nat) (k : Kind)
    (hi : .push i k ∈ sinceRestart (run (init cfg now) ops).trace) :
    let s := run (init cfg now) ops
    ((∃ m ∈ s.txq ++ s.nq ++ s.inFlight.toList, m.iid = i) ∧ fulfilCount i (sinceRestart s.trace) = 0) ∨
      ((∀ m ∈ s.txq ++ s.nq ++ s.inFlight.toList, m.iid ≠ i) ∧ fulfilCount i (sinceRestart s.trace) = 1) := by
  intro s
  have h7 := (C07_promise_once_partial cfg now ops hops).2.2
  have hcl : fulfilCount i (sinceRestart s.trace) = 1 → ∀ m ∈ s.txq ++ s.nq ++ s.inFlight.toList, m.iid ≠ i := by
    intro h
    have h2 : 0 < fulfilCount i (sinceRestart s.trace) := by omega
    rw [fulfilCount, List.countP_pos_iff] at h2
    obtain ⟨e, he, h3⟩ := h2
    cases e with
    | fulfil j off =>
      have : j = i := by simpa using h3
      subst this
      obtain ⟨a, b, c⟩ := h7 j off he
      intro m hm
      rcases List.mem_append.1 hm with hm | hm
      · rcases List.mem_append.1 hm with hm | hm
        · exact a m hm
        · exact b m hm
      · exact c m (by simpa using hm)
    | _ => simp at h3
  have h1 : fulfilCount i (sinceRestart s.trace) ≤ 1 := C07_observed_once cfg now ops i
  rcases (run_JE_front cfg now ops hops).final (run_JP cfg now ops) i k hi with h | h | h | h
  · by_cases hc : fulfilCount i (sinceRestart s.trace) = 1
    · exact Or.inr ⟨hcl hc, hc⟩
    · exact Or.inl ⟨h, by show fulfilCount i (sinceRestart s.trace) = 0; omega⟩
  · exact Or.inr ⟨hcl h, h⟩
  · exact absurd h (hev i)
  · exact h.1.elim

example : Along (fun s op => ∀ b, op = .run b → midFail s b = false) (init {} 0) (demo.take 16) ∧
    (∀ i, .done i .evicted ∉ sinceRestart (run (init {} 0) (demo.take 16)).trace) ∧
    fulfilCount 0 (sinceRestart (run (init {} 0) (demo.take 16)).trace) = 1 ∧
    (run (init {} 0) (demo.take 16)).inFlight.toList.map Msg.iid = [2] := by
  refine ⟨along_of_check _ _ ?_, ?_, ?_, ?_⟩
  · decide +kernel
  · intro i h
    have hb : (sinceRestart (run (init {} 0) (demo.take 16)).trace).all
        (fun e => match e with | .done _ .evicted => false | _ => true) = true := by decide +kernel
    have := List.all_eq_true.1 hb _ h
    simp at this
  · decide +kernel
  · decide +kernel

/-- **C207, dropped messages.** The future of a message that was removed because of overflow is not fulfilled before, and
will not be at any later time of the same run of the process: its promise has been destroyed (`std::future_error` for whoever
waits for it). -/
theorem C207_dropped_never (cfg : Cfg) (now : Int) (ops : List Op)
    (hops : Along (fun s op => ∀ b, op = .run b → midFail s b = false) (init cfg now) ops) (i : Nat)
    (hi : .done i .evicted ∈ sinceRestart (run (init cfg now) ops).trace) :
    fulfilCount i (sinceRestart (run (init cfg now) ops).trace) = 0 :=
  (run_JP cfg now ops).zero i ((run_JX cfg now ops hops).ps i hi)

/-- What happens to the trace when a message is put into a queue. -/
theorem addTx_push (s : St) (m : Msg) : .push m.iid m.kind ∈ (s.addTx m).trace := by
  unfold St.addTx
  dsimp only
  obtain ⟨es, h, _⟩ := (frame_checkSizes { (({ s with txq := s.txq ++ [m] }.emit (.push m.iid m.kind)).db (.ins .tx m.row)) with
    newMsg := true }).trace
  rw [h]
  simp [St.emit, St.db]

theorem addNormal_push (s : St) (m : Msg) : .push m.iid m.kind ∈ (s.addNormal m).trace := by
  unfold St.addNormal
  dsimp only
  obtain ⟨es, h, _⟩ := (frame_checkSizes { (if (({ s with nq := if m.kind = Kind.boot then m :: s.nq else s.nq ++ [m] }).emit
      (.push m.iid m.kind)).cfg.checkQueue m.kind = true
    then (({ s with nq := if m.kind = Kind.boot then m :: s.nq else s.nq ++ [m] }).emit (.push m.iid m.kind)).db (.ins .normal m.row)
    else ({ s with nq := if m.kind = Kind.boot then m :: s.nq else s.nq ++ [m] }).emit (.push m.iid m.kind)) with
    newMsg := true }).trace
  rw [h]
  by_cases hc : s.cfg.checkQueue m.kind = true <;> simp [St.emit, St.db, hc]

theorem pushAsync_settles (s : St) (k : Kind) (hp : s.nextId ∉ s.promiseSet) :
    .push s.nextId k ∈ (s.pushCallAsync k false).trace ∨ .fulfil s.nextId true ∈ (s.pushCallAsync k false).trace := by
  have hd : ∀ (t : St) (m : Msg), m.iid ∉ t.promiseSet →
      let z := if !t.running then t.fulfil m.iid true else if m.kind.isTx then t.addTx m
        else if t.takesNormal m.kind then t.addNormal m else t.fulfil m.iid true
      .push m.iid m.kind ∈ z.trace ∨ .fulfil m.iid true ∈ z.trace := by
    intro t m hm
    dsimp only
    have hfu : .fulfil m.iid true ∈ (t.fulfil m.iid true).trace := by simp [St.fulfil, hm, St.emit]
    split
    · exact Or.inr hfu
    · split
      · exact Or.inl (addTx_push _ _)
      · split
        · exact Or.inl (addNormal_push _ _)
        · exact Or.inr hfu
  exact hd (s.fresh k false false).1 (s.fresh k false false).2 hp

/-- **C207, messages that are not taken.** In every reachable state, a message handed over with `push_call_async` is put into a
queue, or its future is fulfilled at once as offline (a message that is neither would leave a future that nobody settles). -/
theorem C207_handed (cfg : Cfg) (now : Int) (ops : List Op) (k : Kind) (hf : (run (init cfg now) ops).fault = none) :
    let s := run (init cfg now) ops
    let s' := step s (.run (.pushAsync k))
    .push s.nextId k ∈ s'.trace ∨ .fulfil s.nextId true ∈ s'.trace := by
  intro s s'
  have hS : SInv s := run_sinv _ (init_sinv cfg now) ops
  have hp : s.nextId ∉ s.promiseSet := fun h => absurd (hS.psLt _ h) (Nat.lt_irrefl _)
  have e : s' = ({ s with writes := [] } : St).pushCallAsync k false := by
    show step s _ = _
    unfold step
    rw [if_neg (by simp [show s.fault = none from hf])]
    rfl
  rw [e]
  exact pushAsync_settles { s with writes := [] } k hp

example : .fulfil 0 true ∈ (step (init {} 0) (.run (.pushAsync (.normal 3)))).trace ∧
    .push 1 (.normal 3) ∈ (step (run (init {} 0) bringUp) (.run (.pushAsync (.normal 3)))).trace := by decide +kernel

/-- Two messages whose answers are awaited are handed over while the queue may hold one. -/
def overflow : List Op :=
  bringUp ++ [.run (.pushAsync (.normal 1)), .run (.pushAsync (.normal 2)), .run (.worker true), .run (.recvResult 2)]

/-- **C207 is violated**: a message handed over with `push_call_async` is dropped by the next one; it is not queued any more
and its future is never fulfilled, while the younger message is transmitted and answered. -/
theorem C207_violated : ∃ cfg ops i k, .push i k ∈ sinceRestart (run (init cfg 0) ops).trace ∧
    (∀ m ∈ (run (init cfg 0) ops).txq ++ (run (init cfg 0) ops).nq ++ (run (init cfg 0) ops).inFlight.toList, m.iid ≠ i) ∧
    fulfilCount i (run (init cfg 0) ops).trace = 0 ∧ (∃ j, i < j ∧ fulfilCount j (run (init cfg 0) ops).trace = 1) := by
  refine ⟨{ threshold := 1 }, overflow, 1, .normal 1, ?_, ?_, ?_, 2, ?_⟩ <;> decide +kernel

example : Along (fun s op => ∀ b, op = .run b → midFail s b = false) (init { threshold := 1 } 0) overflow ∧
    .done 1 .evicted ∈ sinceRestart (run (init { threshold := 1 } 0) overflow).trace := by
  refine ⟨along_of_check _ _ ?_, ?_⟩ <;> decide +kernel

end Verif.MQ
