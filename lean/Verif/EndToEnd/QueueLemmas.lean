import Verif.EndToEnd.Model
import Verif.MessageQueue.OpCases

/-! # Which messages operations of the queue add -/

namespace Verif.MQ

set_option linter.unusedSimpArgs false

/-- The kind of message a base operation hands over. -/
def BaseOp.kind? : BaseOp → Option Kind
  | .push k _ | .pushAsync k | .dispatch k _ | .dispatchAsync k _ => some k
  | _ => none

/-- Every push in `s'` was in `s` or is one with number `n` and kind `k`. -/
def OnlyPush (s s' : St) (n : Nat) (k? : Option Kind) : Prop :=
  ∀ i k, .push i k ∈ s'.trace → .push i k ∈ s.trace ∨ (i = n ∧ k? = some k)

theorem OnlyPush.of_ext {s s' : St} {n : Nat} {k? : Option Kind} (es : List Ev) (h : s'.trace = s.trace ++ es)
    (he : ∀ i k, .push i k ∈ es → i = n ∧ k? = some k) : OnlyPush s s' n k? := by
  intro i k hi
  rw [h, List.mem_append] at hi
  rcases hi with hi | hi
  · exact Or.inl hi
  · exact Or.inr (he i k hi)

theorem addTx_trace (s : St) (m : Msg) : ∃ es, (s.addTx m).trace = s.trace ++ .push m.iid m.kind :: es ∧
    ∀ e ∈ es, ∃ i, e = .done i .evicted := by
  unfold St.addTx
  obtain ⟨es, h1, h2⟩ := (frame_checkSizes
    { (({ s with txq := s.txq ++ [m] }.emit (.push m.iid m.kind)).db (.ins .tx m.row)) with newMsg := true }).trace
  exact ⟨es, by rw [h1]; simp [St.emit, St.db], h2⟩

theorem addNormal_trace (s : St) (m : Msg) : ∃ es, (s.addNormal m).trace = s.trace ++ .push m.iid m.kind :: es ∧
    ∀ e ∈ es, ∃ i, e = .done i .evicted := by
  unfold St.addNormal
  simp only
  generalize hy : (if (({ s with nq := if m.kind = Kind.boot then m :: s.nq else s.nq ++ [m] }.emit
      (.push m.iid m.kind)).cfg.checkQueue m.kind) = true
    then (({ s with nq := if m.kind = Kind.boot then m :: s.nq else s.nq ++ [m] }.emit
      (.push m.iid m.kind)).db (.ins .normal m.row))
    else ({ s with nq := if m.kind = Kind.boot then m :: s.nq else s.nq ++ [m] }.emit (.push m.iid m.kind))) = y
  have ht : y.trace = s.trace ++ [.push m.iid m.kind] := by
    rw [← hy]; by_cases hc : s.cfg.checkQueue m.kind = true <;> simp [St.emit, St.db, hc]
  obtain ⟨es, h1, h2⟩ := (frame_checkSizes { y with newMsg := true }).trace
  exact ⟨es, by rw [h1]; simp [ht], h2⟩

theorem only_of_push {s s' : St} {n : Nat} {k : Kind} {es : List Ev} (h : s'.trace = s.trace ++ .push n k :: es)
    (he : ∀ e ∈ es, ∃ i, e = .done i .evicted) : OnlyPush s s' n (some k) := by
  refine .of_ext _ h ?_
  intro i j hi
  rcases List.mem_cons.1 hi with h | h
  · cases h; exact ⟨rfl, rfl⟩
  · obtain ⟨_, h⟩ := he _ h; cases h

theorem only_pushCall (s : St) (k : Kind) (stall trig : Bool) : OnlyPush s (s.pushCall k stall trig) s.nextId (some k) := by
  unfold St.pushCall St.fresh
  simp only
  split
  · exact .of_ext [] (by simp) (by simp)
  · split
    · obtain ⟨es, h1, h2⟩ := addTx_trace { s with nextId := s.nextId + 1 } ⟨s.nextId, s.nextId, k, 0, s.now, stall, none, false, trig⟩
      exact only_of_push h1 h2
    · split
      · obtain ⟨es, h1, h2⟩ := addNormal_trace { s with nextId := s.nextId + 1 } ⟨s.nextId, s.nextId, k, 0, s.now, stall, none, false, trig⟩
        exact only_of_push h1 h2
      · exact .of_ext [] (by simp) (by simp)

theorem only_fulfil (s : St) (i : Nat) (off : Bool) (n : Nat) (k? : Option Kind) :
    OnlyPush s (({ s with nextId := s.nextId + 1 } : St).fulfil i off) n k? := by
  unfold St.fulfil
  split
  · exact .of_ext [] (by simp) (by simp)
  · exact .of_ext [.fulfil i off] rfl (by simp)

theorem only_pushCallAsync (s : St) (k : Kind) (trig : Bool) : OnlyPush s (s.pushCallAsync k trig) s.nextId (some k) := by
  unfold St.pushCallAsync St.fresh
  simp only
  split
  · exact only_fulfil _ _ _ _ _
  · split
    · obtain ⟨es, h1, h2⟩ := addTx_trace { s with nextId := s.nextId + 1 } ⟨s.nextId, s.nextId, k, 0, s.now, false, none, false, trig⟩
      exact only_of_push h1 h2
    · split
      · obtain ⟨es, h1, h2⟩ := addNormal_trace { s with nextId := s.nextId + 1 } ⟨s.nextId, s.nextId, k, 0, s.now, false, none, false, trig⟩
        exact only_of_push h1 h2
      · exact only_fulfil _ _ _ _ _

theorem OnlyPush.refl (s : St) (n : Nat) (k? : Option Kind) : OnlyPush s s n k? := fun _ _ h => Or.inl h

/-- An operation adds at most the message it hands over. -/
theorem only_base (s : St) (b : BaseOp) (hr : b.isRestart = false) : OnlyPush s (baseStep s b) s.nextId b.kind? := by
  by_cases hp : b.isPush = true
  · cases b <;> simp only [BaseOp.isPush, Bool.false_eq_true] at hp
    · exact only_pushCall _ _ _ _
    · exact only_pushCallAsync _ _ _
    · simp only [baseStep, St.dispatch]
      split
      · exact only_pushCall _ _ _ _
      · exact only_pushCall _ _ _ _
      · exact .refl _ _ _
    · simp only [baseStep, St.dispatchAsync]
      split
      · exact only_pushCallAsync _ _ _
      · exact .refl _ _ _
  · generalize hs' : baseStep s b = s'
    have v := opView s b hr
    rw [hs'] at v
    clear hs'
    have inv : ∀ {z : St}, InView s z b → OnlyPush s z s.nextId b.kind? := by
      intro z v
      obtain ⟨es, h1, h2⟩ := v.trace
      exact .of_ext es h1 (fun i k h => by have := h2 _ h; simp [Ev.isIn] at this)
    cases v with
    | nop => exact .refl _ _ _
    | push _ h _ => exact absurd h hp
    | sent q m s' _ _ _ _ _ _ v => rw [v.eq]; exact .of_ext [_] rfl (by simp)
    | fail q m s' _ _ _ _ _ v =>
      obtain ⟨es, h1, h2⟩ := v.trace
      exact .of_ext es h1 (fun i k h => by have := h2 _ h; simp at this)
    | result u s' _ v =>
      rcases v.fl with ⟨_, _, es, h1, h2⟩ | ⟨_, _, m, _, _, h1⟩
      · exact .of_ext es h1 (fun i k h => by have := h2 _ h; simp at this)
      · exact .of_ext _ h1 (by simp)
    | seen z v => exact inv v
    | failed m z s' _ v1 v =>
      obtain ⟨es, h1, h2⟩ := v.trace
      intro i k hi
      rw [h1, List.mem_append] at hi
      rcases hi with hi | hi
      · exact inv v1 i k hi
      · have := h2 _ hi; simp at this
    | csmsCall | reply | acc => exact .of_ext [_] rfl (by simp)
    | _ => exact .of_ext [] (by simp) (by simp)

/-- Only `stop` ends the operation of the queue. -/
theorem running_base (s : St) (b : BaseOp) (hr : b.isRestart = false) (hb : b ≠ .stop) :
    (baseStep s b).running = s.running := by
  by_cases hstop : (baseStep s b).running = s.running
  · exact hstop
  · generalize hs' : baseStep s b = s' at hstop ⊢
    have v := opView s b hr
    rw [hs'] at v
    cases v with
    | push _ _ h => rw [h.eq]
    | sent q m s' _ _ _ _ _ _ v => rw [v.eq]
    | fail q m s' _ _ _ _ _ v => rw [v.eq]
    | result u s' _ v => rw [v.eq]
    | seen z v => rw [v.eq]
    | failed m z s' _ v1 v => rw [v.eq]; dsimp only; rw [v1.eq]
    | stop h => exact absurd h hb
    | _ => rfl

theorem prio_tx (a b c d : Bool) : prio a b c true d ≠ .discard := by
  cases a <;> cases b <;> cases c <;> cases d <;> decide

/-- A transaction-related message handed over to a running queue is taken. -/
theorem dispatch_takes (s : St) (k : Kind) (trig : Bool) (hk : k.isTx = true) (hr : s.running = true) :
    .push s.nextId k ∈ (s.dispatch k trig).trace := by
  have key : ∀ st, .push s.nextId k ∈ (s.pushCall k st trig).trace := by
    intro st
    unfold St.pushCall St.fresh
    simp only
    rw [if_neg (by simp [hr]), if_pos hk]
    obtain ⟨es, h1, _⟩ := addTx_trace { s with nextId := s.nextId + 1 } ⟨s.nextId, s.nextId, k, 0, s.now, st, none, false, trig⟩
    rw [h1]
    simp
  unfold St.dispatch
  split
  · exact key _
  · exact key _
  · rename_i h
    rw [hk] at h
    exact absurd h (prio_tx _ _ _ _)

theorem dispatch_next (s : St) (k : Kind) (trig : Bool) (hk : k.isTx = true) :
    (s.dispatch k trig).nextId = s.nextId + 1 ∧
    (s.fault = none → (∀ i ∈ s.promiseSet, i < s.nextId) → (s.dispatch k trig).fault = none) := by
  unfold St.dispatch
  split
  · have h := pushFrame_pushCall s k false trig
    exact ⟨by rw [h.eq], h.fault⟩
  · have h := pushFrame_pushCall s k true trig
    exact ⟨by rw [h.eq], h.fault⟩
  · rename_i h
    rw [hk] at h
    exact absurd h (prio_tx _ _ _ _)

/-! ## The kind of a message on the wire is the kind it was handed over with -/

structure Kinds (c : Core) : Prop where
  rows : ∀ r ∈ c.dbT, .push r.iid r.kind ∈ c.tr
  sends : ∀ m, .send m ∈ c.tr → m.kind.isTx = true → .push m.iid m.kind ∈ c.tr
  ins : ∀ q r, .ins q r ∈ c.ws → .push r.iid r.kind ∈ c.tr

theorem Kinds.ext {c c' : Core} (h : Kinds c) (es : List Ev) (ht : c'.tr = c.tr ++ es) (hd : ∀ r ∈ c'.dbT, r ∈ c.dbT)
    (hs : ∀ m, .send m ∈ es → m.kind.isTx = true → .push m.iid m.kind ∈ c.tr)
    (hw : ∀ q r, .ins q r ∈ c'.ws → .ins q r ∈ c.ws) : Kinds c' := by
  refine ⟨?_, ?_, ?_⟩
  · intro r hr; rw [ht]; exact List.mem_append_left _ (h.rows r (hd r hr))
  · intro m hm hk
    rw [ht] at hm ⊢
    rcases List.mem_append.1 hm with hm | hm
    · exact List.mem_append_left _ (h.sends m hm hk)
    · exact List.mem_append_left _ (hs m hm hk)
  · intro q r hr; rw [ht]; exact List.mem_append_left _ (h.ins q r (hw q r hr))

theorem del_sub (q : Q) (i : Nat) (y : Reason) (t : List Row) : ∀ r ∈ (DbWrite.del q i y).onTable .tx t, r ∈ t := by
  intro r hr
  simp only [DbWrite.onTable] at hr
  split at hr
  · exact (List.mem_filter.1 hr).1
  · exact hr

theorem Kinds.micro {fl : Flags} {c c' : Core} (hC : CInv c) (h : Kinds c) (hm : Micro fl c c') : Kinds c' := by
  cases hm with
  | ev e he => exact h.ext [e] rfl (fun _ h => h) (by rintro m hm; simp only [List.mem_singleton] at hm; subst hm; simp [Ev.obs] at he) (fun _ _ h => h)
  | failed | accept | fulfilFresh | retryTx | retryN =>
    exact h.ext [_] rfl (fun _ h => h) (by simp) (fun _ _ h => h)
  | unreg | att | bump | failTx | failN | mapTx | faultNull | faultPromise => exact ⟨h.rows, h.sends, h.ins⟩
  | pushTx m hk hi ha hq =>
    refine ⟨?_, ?_, ?_⟩
    · intro r hr
      simp only [Core.db, DbWrite.onTable, if_true, List.mem_append, List.mem_singleton] at hr ⊢
      rcases hr with hr | rfl
      · exact Or.inl (h.rows r hr)
      · exact Or.inr rfl
    · intro x hx hk'
      simp only [Core.db, List.mem_append, List.mem_singleton, reduceCtorEq, or_false] at hx ⊢
      exact Or.inl (h.sends x hx hk')
    · intro q r hr
      simp only [Core.db, List.mem_append, List.mem_singleton] at hr ⊢
      rcases hr with hr | hr
      · exact Or.inl (h.ins q r hr)
      · cases hr; exact Or.inr rfl
  | pushN m nq' per hk hi ha hq hn =>
    cases per
    · exact h.ext [_] rfl (fun _ h => h) (by simp) (fun _ _ h => h)
    · refine ⟨?_, ?_, ?_⟩
      · intro r hr
        simp only [Core.db, DbWrite.onTable, if_true, List.mem_append, List.mem_singleton, reduceCtorEq, if_false] at hr ⊢
        exact Or.inl (h.rows r hr)
      · intro x hx hk'
        simp only [Core.db, List.mem_append, List.mem_singleton, reduceCtorEq, or_false, if_true] at hx ⊢
        exact Or.inl (h.sends x hx hk')
      · intro q r hr
        simp only [Core.db, List.mem_append, List.mem_singleton, if_true] at hr ⊢
        rcases hr with hr | hr
        · exact Or.inl (h.ins q r hr)
        · cases hr; exact Or.inr rfl
  | evictN m rest per hn =>
    cases per
    · exact h.ext [_] rfl (fun _ h => h) (by simp) (fun _ _ h => h)
    · exact h.ext [Ev.done m.iid .evicted] rfl (del_sub .normal m.iid .evicted c.dbT) (by simp) (fun q r hr => by simpa [Core.db] using hr)
  | evictT m hm hu =>
    exact h.ext [Ev.done m.iid .evicted] rfl (del_sub .tx m.iid .evicted c.dbT) (by simp) (fun q r hr => by simpa [Core.db] using hr)
  | sendTx m m1 rest hi hq hs ha hal =>
    refine h.ext [Ev.send m1] rfl (fun _ h => h) ?_ (fun _ _ h => h)
    intro x hx hk
    simp only [List.mem_singleton, Ev.send.injEq] at hx
    subst hx
    obtain ⟨r, hr, e1, e2⟩ := hC.txRow (m := m) (by rw [hq]; simp)
    have := h.rows r hr
    rw [e1, e2] at this
    rw [hs.1, hs.2.1]; exact this
  | sendN m m1 pre post hi hq hs ha hal =>
    refine h.ext [Ev.send m1] rfl (fun _ h => h) ?_ (fun _ _ h => h)
    intro x hx hk
    simp only [List.mem_singleton, Ev.send.injEq] at hx
    subst hx
    have := hC.inv.nqKind m (by rw [hq]; simp)
    rw [hs.2.1, this] at hk; cases hk
  | failPop _ m m1 f pre post rest hi hq hs ha hnp hr hmid =>
    exact h.ext [Ev.fulfil m.iid true, Ev.done f.iid .popped] (by simp) (fun _ h => h) (by simp) (fun _ _ h => h)
  | answer m per hi hnp ht =>
    cases per
    · exact h.ext [Ev.fulfil m.iid false, Ev.answer m.uid m.iid, Ev.done m.iid .answered] (by simp) (fun _ h => h) (by simp)
        (fun _ _ h => h)
    · exact h.ext [Ev.fulfil m.iid false, Ev.answer m.uid m.iid, Ev.done m.iid .answered] (by simp [Core.db])
        (del_sub (qOf m) m.iid .answered c.dbT) (by simp) (fun q r hr => by simpa [Core.db] using hr)
  | giveUp m off per hi hnp ht hA =>
    cases per
    · exact h.ext [Ev.failed m.uid m.iid, Ev.fulfil m.iid off, Ev.done m.iid .gaveUp] (by simp) (fun _ h => h) (by simp)
        (fun _ _ h => h)
    · exact h.ext [Ev.failed m.uid m.iid, Ev.fulfil m.iid off, Ev.done m.iid .gaveUp] (by simp [Core.db])
        (del_sub (qOf m) m.iid .gaveUp c.dbT) (by simp) (fun q r hr => by simpa [Core.db] using hr)

theorem Kinds.micros {fl : Flags} {c c' : Core} (hC : CInv c) (h : Kinds c) (hm : Micros fl c c') : Kinds c' := by
  have : CInv c' ∧ Kinds c' := by
    induction hm with
    | refl => exact ⟨hC, h⟩
    | tail h1 h2 ih => exact ⟨CInv.micros ih.1 (.one h2), ih.2.micro ih.1 h2⟩
  exact this.2

theorem Kinds.noWrites {s : St} (h : Kinds s.core) : Kinds ({ s with writes := [] } : St).core :=
  ⟨h.rows, h.sends, by intro q r hr; cases hr⟩

theorem row_of_foldT (ws : List DbWrite) (t : List Row) (r : Row) (h : r ∈ ws.foldl (fun t w => w.onTable .tx t) t) :
    r ∈ t ∨ .ins .tx r ∈ ws := by
  induction ws generalizing t with
  | nil => exact Or.inl h
  | cons w ws ih =>
    rcases ih _ h with h1 | h1
    · cases w with
      | ins q r' =>
        simp only [DbWrite.onTable] at h1
        split at h1
        · rename_i hq
          simp only [List.mem_append, List.mem_singleton] at h1
          rcases h1 with h1 | h1
          · exact Or.inl h1
          · exact Or.inr (by simp [hq, h1])
        · exact Or.inl h1
      | del q j w => exact Or.inl (del_sub _ _ _ _ _ h1)
      | clear q =>
        simp only [DbWrite.onTable] at h1
        split at h1
        · simp at h1
        · exact Or.inl h1
    · exact Or.inr (by simp [h1])

theorem Kinds.restart {p : St} (cfg : Cfg) (ign : Bool) (hdb : DbInv p.dbN p.dbT p.nextId p.trace)
    (rows : ∀ r ∈ p.dbT, .push r.iid r.kind ∈ p.trace)
    (sends : ∀ m, .send m ∈ p.trace → m.kind.isTx = true → .push m.iid m.kind ∈ p.trace) (hw : p.writes = []) :
    Kinds (p.restart cfg ign).core := by
  have hf := restart_facts p cfg ign hdb
  have hins : ∀ q r, .ins q r ∈ (p.restart cfg ign).writes → False := by
    intro q r h; have := restart_ins _ _ _ h; rw [hw] at this; cases this
  generalize p.restart cfg ign = s' at hf hins ⊢
  obtain ⟨ds, h4, h5⟩ := hf.tr
  refine ⟨?_, ?_, fun q r h => absurd h (hins q r)⟩
  · intro r hr
    have e1 : r.key ∈ s'.dbT.map Row.key := List.mem_map.2 ⟨r, hr, rfl⟩
    rw [show List.map Row.key s'.dbT = _ from hf.inv.eq] at e1
    simp only [infTx, List.nil_append] at e1
    rw [hf.txKeys] at e1
    obtain ⟨r0, hr0, e2⟩ := List.mem_map.1 e1
    simp only [Row.key, Prod.mk.injEq] at e2
    rw [← e2.1, ← e2.2]
    show _ ∈ s'.trace
    rw [h4, List.append_assoc]
    exact List.mem_append_left _ (rows r0 (List.mem_filter.1 hr0).1)
  · intro m hm hk
    have hm' : .send m ∈ s'.trace := hm
    show _ ∈ s'.trace
    rw [h4, List.append_assoc] at hm' ⊢
    rcases List.mem_append.1 hm' with hm' | hm'
    · exact List.mem_append_left _ (sends m hm' hk)
    · simp only [List.mem_append, List.mem_singleton, reduceCtorEq, false_or] at hm'
      obtain ⟨r, _, _, e⟩ := h5 _ hm'; cases e

/-- One step of the queue that is not interrupted, other than a restart. -/
theorem run_eq {s : St} (b : BaseOp) (hf : s.fault = none) : step s (.run b) = baseStep { s with writes := [] } b := by
  simp [step, hf]

theorem run_stuck {s : St} (b : BaseOp) (hf : s.fault ≠ none) (hr : b.isRestart = false) : step s (.run b) = s := by
  have hf' : s.fault.isSome = true := by cases h : s.fault <;> simp_all
  cases b <;> simp_all [step, BaseOp.isRestart]

theorem SInv.noWrites {s : St} (h : SInv s) : SInv { s with writes := [] } := ⟨h.inv, h.psLt⟩

theorem Kinds.run {s : St} (hS : SInv s) (h : Kinds s.core) (b : BaseOp) (hr : b.isRestart = false) :
    Kinds (step s (.run b)).core := by
  by_cases hf : s.fault = none
  · rw [run_eq b hf]
    exact h.noWrites.micros hS.noWrites (micros_baseStep _ b hS.noWrites.tidy hf hr)
  · rw [run_stuck b hf hr]; exact h

theorem restart_step (s : St) (cfg : Cfg) (ign : Bool) :
    step s (.run (.restart cfg ign)) = ({ s with writes := [] } : St).restart cfg ign := by
  by_cases hf : s.fault.isSome <;> simp [step, hf, baseStep]

theorem Kinds.restarted {s : St} (hS : SInv s) (h : Kinds s.core) (cfg : Cfg) (ign : Bool) :
    Kinds (step s (.run (.restart cfg ign))).core := by
  rw [restart_step]
  exact Kinds.restart cfg ign hS.db h.rows h.sends rfl

/-- The state that a power cut inside the operation `b` leaves behind. -/
def cutState (s : St) (b : BaseOp) (k : Nat) : St :=
  ({ s with writes := [], nextId := (baseStep { s with writes := [] } b).nextId } : St).partialWrites
    ((baseStep { s with writes := [] } b).writes.take k)

theorem crash_eq {s : St} (b : BaseOp) (k : Nat) (cfg : Cfg) (ign : Bool) (hf : s.fault = none) :
    step s (.crash b k cfg ign) = (cutState s b k).restart cfg ign := by
  simp [step, hf, cutState]

theorem crash_stuck {s : St} (b : BaseOp) (k : Nat) (cfg : Cfg) (ign : Bool) (hf : s.fault ≠ none) :
    step s (.crash b k cfg ign) = step s (.run (.restart cfg ign)) := by
  have hf' : s.fault.isSome = true := by cases h : s.fault <;> simp_all
  simp [step, hf']

theorem cutState_db {s : St} (hS : SInv s) (hf : s.fault = none) (b : BaseOp) (k : Nat) :
    DbInv (cutState s b k).dbN (cutState s b k).dbT (cutState s b k).nextId (cutState s b k).trace := by
  obtain ⟨ws, e1, hc⟩ := baseStep_cut { s with writes := [] } b hS.noWrites hf
  simp only [List.nil_append] at e1
  have := hc.good k
  unfold cutState
  rw [e1]
  exact this

theorem cutState_trace (s : St) (b : BaseOp) (k : Nat) :
    (cutState s b k).trace = s.trace ++ ((baseStep { s with writes := [] } b).writes.take k).flatMap DbWrite.ev := rfl

/-- Pushes made known by an interrupted operation are among those of the completed operation. -/
theorem cut_push {s : St} (hS : SInv s) (h : Kinds s.core) (hf : s.fault = none) (b : BaseOp) (hr : b.isRestart = false)
    (k : Nat) (i : Nat) (kd : Kind) (hp : .push i kd ∈ (cutState s b k).trace) :
    .push i kd ∈ s.trace ∨ .push i kd ∈ (baseStep { s with writes := [] } b).trace := by
  rw [cutState_trace, List.mem_append] at hp
  rcases hp with hp | hp
  · exact Or.inl hp
  · right
    obtain ⟨w, hw, hev⟩ := List.mem_flatMap.1 hp
    have hK := h.noWrites.micros hS.noWrites (micros_baseStep { s with writes := [] } b hS.noWrites.tidy hf hr)
    cases w with
    | ins q r =>
      simp only [DbWrite.ev, List.mem_singleton, Ev.push.injEq] at hev
      have := hK.ins q r (List.mem_of_mem_take hw)
      rw [hev.1, hev.2]; exact this
    | del q j y => simp [DbWrite.ev] at hev
    | clear q => simp [DbWrite.ev] at hev

theorem cut_next {s : St} (hS : SInv s) (hf : s.fault = none) (b : BaseOp) (hr : b.isRestart = false) (k : Nat) :
    s.nextId ≤ (cutState s b k).nextId :=
  (micros_ins (micros_baseStep { s with writes := [] } b hS.noWrites.tidy hf hr)).1

theorem Kinds.crash {s : St} (hS : SInv s) (h : Kinds s.core) (b : BaseOp) (k : Nat) (cfg : Cfg)
    (ign : Bool) : Kinds (step s (.crash b k cfg ign)).core := by
  by_cases hf : s.fault = none
  · rw [crash_eq b k cfg ign hf]
    refine Kinds.restart cfg ign (cutState_db hS hf b k) ?_ ?_ rfl
    · intro r hr'
      rw [cutState_trace]
      rcases row_of_foldT _ _ _ hr' with h1 | h1
      · exact List.mem_append_left _ (h.rows r h1)
      · exact List.mem_append_right _ (List.mem_flatMap.2 ⟨_, h1, by simp [DbWrite.ev]⟩)
    · intro m hm hk
      rw [cutState_trace] at hm ⊢
      rcases List.mem_append.1 hm with hm | hm
      · exact List.mem_append_left _ (h.sends m hm hk)
      · obtain ⟨w, _, hev⟩ := List.mem_flatMap.1 hm
        cases w <;> simp [DbWrite.ev] at hev
  · rw [crash_stuck b k cfg ign hf]; exact h.restarted hS cfg ign

theorem init_kinds (cfg : Cfg) (now : Int) : Kinds (init cfg now).core := by
  refine ⟨?_, ?_, ?_⟩
  · intro r h; cases h
  · intro m h; cases h
  · intro q r h; cases h

end Verif.MQ
