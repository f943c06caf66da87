import Verif.EndToEnd.QueueLemmas

/-! # Invariants of the whole station -/

namespace Verif.Tx

/-- A step that only appends to what can be seen. -/
def Ext (f : State → State) : Prop := ∀ s, ∃ l, (f s).out = s.out ++ l

theorem Ext.same {f : State → State} (h : ∀ s, (f s).out = s.out) : Ext f := fun s => ⟨[], by simp [h]⟩

theorem ext_emit (o : Out) : Ext (fun s => emit s o) := fun _ => ⟨[o], rfl⟩

theorem ext_send (e : Nat) (ty : EventType) (tr : Trigger) (w : Bool) (tok : Option Verif.Auth.Token) :
    Ext (send e ty tr w tok) := by
  intro s
  unfold send
  split
  · exact ⟨[], by simp⟩
  · dsimp only
    split
    · exact ⟨[_], rfl⟩
    · exact ⟨[_], rfl⟩

theorem ext_bump (e : Nat) : Ext (bump e) := Ext.same (out_bump e)

theorem ext_mark (e : Nat) : Ext (markTokenSent e) := by
  refine .same fun s => ?_
  unfold markTokenSent
  split
  · rfl
  · dsimp only
    split
    · unfold updateRows; split <;> rfl
    · rfl

theorem ext_deleteRow (x : Verif.Auth.Str) : Ext (deleteRow x) := by
  refine .same fun s => ?_
  unfold deleteRow; split <;> rfl

theorem ext_deleteOwn (e : Nat) : Ext (deleteOwn e) := by
  intro s
  unfold deleteOwn
  split
  · exact ⟨[], by simp⟩
  · exact ext_deleteRow _ s

theorem ext_insertRow (e : Nat) (t : Tx) : Ext (insertRow e t) := by
  refine .same fun s => ?_
  unfold insertRow; split <;> rfl

theorem ext_afterFinish (e : Nat) : Ext (afterFinish e) := by
  intro s
  unfold afterFinish
  split
  · exact ⟨[], by simp⟩
  · split
    · split
      · exact ⟨[_], rfl⟩
      · exact ⟨[], by simp⟩
    · split
      · exact ⟨[_], rfl⟩
      · exact ⟨[_], rfl⟩

theorem bootAll_out (conns : List Nat) (s : State) : (bootAll conns s).out = s.out := by
  obtain ⟨l, hl⟩ := exec_extends s (.boot conns)
  have : ∀ (l : List Nat) (s0 : State), (l.foldl bootEvse s0).out = s0.out := by
    intro l
    induction l with
    | nil => intro s0; rfl
    | cons e l ih =>
      intro s0
      rw [List.foldl_cons, ih]
      unfold bootEvse
      split
      · rfl
      · split
        · rfl
        · unfold deleteRow; split <;> rfl
  unfold bootAll
  rw [this]; rfl

theorem ext_steps (s : State) (o : Op) : ∀ f ∈ steps s o, Ext f := by
  cases o with
  | start e k x tr tok rid ch =>
    intro f hf
    simp only [steps] at hf
    split at hf
    · simp only [List.mem_singleton] at hf; subst hf; exact ext_emit _
    · simp only [List.mem_append, List.mem_singleton] at hf
      rcases hf with (rfl | hf) | hf
      · exact .same fun _ => rfl
      · unfold openSteps at hf
        split at hf
        · cases hf
        · split at hf
          · simp only [List.mem_singleton] at hf; subst hf; exact ext_insertRow _ _
          · simp only [List.mem_cons, List.not_mem_nil, or_false] at hf
            rcases hf with rfl | rfl
            · exact ext_deleteOwn _
            · exact ext_insertRow _ _
      · split at hf
        · simp only [List.mem_singleton] at hf; subst hf; exact ext_emit _
        · simp only [List.mem_cons, List.not_mem_nil, or_false] at hf
          rcases hf with rfl | rfl
          · exact ext_bump _
          · exact ext_send _ _ _ _ _
  | authorized e tok =>
    intro f hf
    simp only [steps] at hf
    split at hf
    · simp only [List.mem_singleton] at hf; subst hf; exact ext_emit _
    · split at hf
      · cases hf
      · split at hf
        · cases hf
        · simp only [List.mem_cons, List.not_mem_nil, or_false] at hf
          rcases hf with rfl | rfl | rfl
          · exact ext_mark _
          · exact ext_bump _
          · exact ext_send _ _ _ _ _
  | charging e st tr =>
    intro f hf
    simp only [steps] at hf
    split at hf
    · simp only [List.mem_singleton] at hf; subst hf; exact ext_emit _
    · split at hf
      · cases hf
      · split at hf
        · cases hf
        · simp only [List.mem_cons, List.not_mem_nil, or_false] at hf
          rcases hf with rfl | rfl | rfl
          · exact .same fun _ => rfl
          · exact ext_bump _
          · exact ext_send _ _ _ _ _
  | meter e =>
    intro f hf
    simp only [steps] at hf
    split at hf
    · cases hf
    · simp only [List.mem_cons, List.not_mem_nil, or_false] at hf
      rcases hf with rfl | rfl
      · exact ext_bump _
      · exact ext_send _ _ _ _ _
  | triggerMessage oe =>
    intro f hf
    cases oe with
    | none =>
      simp only [steps, List.mem_flatMap, List.mem_cons, List.not_mem_nil, or_false] at hf
      obtain ⟨e, _, rfl | rfl⟩ := hf
      · exact ext_bump _
      · exact ext_send _ _ _ _ _
    | some e =>
      simp only [steps] at hf
      split at hf
      · simp only [List.mem_singleton] at hf; subst hf; exact ext_emit _
      · simp only [List.mem_cons, List.not_mem_nil, or_false] at hf
        rcases hf with rfl | rfl
        · exact ext_bump _
        · exact ext_send _ _ _ _ _
  | finish e tr tok ch =>
    intro f hf
    simp only [steps] at hf
    split at hf
    · simp only [List.mem_singleton] at hf; subst hf; exact ext_emit _
    · split at hf
      · cases hf
      · simp only [List.mem_cons, List.not_mem_nil, or_false] at hf
        rcases hf with rfl | rfl | rfl | rfl | rfl | rfl
        · exact .same fun _ => rfl
        · exact ext_bump _
        · exact ext_send _ _ _ _ _
        · exact ext_deleteRow _
        · exact .same fun _ => rfl
        · exact ext_afterFinish _
  | resetReq oe ty al ar =>
    intro f hf
    simp only [steps] at hf
    split at hf
    · simp only [List.mem_singleton] at hf; subst hf; exact ext_emit _
    · simp only [List.mem_append, List.mem_singleton] at hf
      rcases hf with ((hf | rfl) | hf) | hf
      · split at hf
        · simp only [List.mem_singleton] at hf; subst hf; exact .same fun _ => rfl
        · cases hf
      · exact ext_emit _
      · split at hf
        · cases hf
        · split at hf
          · obtain ⟨x, _, rfl⟩ := List.mem_map.1 hf; exact ext_emit _
          · obtain ⟨x, _, rfl⟩ := List.mem_map.1 hf; exact ext_emit _
      · split at hf
        · simp only [List.mem_singleton] at hf; subst hf; exact ext_emit _
        · cases hf
  | remoteStart e tok rid =>
    intro f hf; simp only [steps, List.mem_singleton] at hf; subst hf; exact .same fun _ => rfl
  | setResume b => intro f hf; simp only [steps, List.mem_singleton] at hf; subst hf; exact .same fun _ => rfl
  | disk ok => intro f hf; simp only [steps, List.mem_singleton] at hf; subst hf; exact .same fun _ => rfl
  | boot conns => intro f hf; simp only [steps, List.mem_singleton] at hf; subst hf; exact .same (bootAll_out conns)

theorem exec_ext (l : List (State → State)) (h : ∀ f ∈ l, Ext f) (s : State) : ∃ o, (exec s l).out = s.out ++ o := by
  induction l generalizing s with
  | nil => exact ⟨[], by simp [exec]⟩
  | cons f l ih =>
    obtain ⟨o1, h1⟩ := h f (by simp) s
    obtain ⟨o2, h2⟩ := ih (fun g hg => h g (by simp [hg])) (f s)
    exact ⟨o1 ++ o2, by rw [exec_cons, h2, h1, List.append_assoc]⟩

/-- What was seen remains seen. -/
theorem step_ext (s : State) (c : Cmd) : ∃ o, (step s c).out = s.out ++ o := by
  cases c with
  | op o => exact exec_ext _ (ext_steps s o) s
  | cut o k =>
    obtain ⟨l, hl⟩ := exec_ext ((steps s o).take k) (fun f hf => ext_steps s o f (List.mem_of_mem_take hf)) s
    exact ⟨l, by show (bootAll _ _).out = _; rw [bootAll_out, hl]⟩

theorem run_snoc (s : State) (h : List Cmd) (c : Cmd) : run s (h ++ [c]) = step (run s h) c := by
  simp [run]

end Verif.Tx

namespace Verif.EndToEnd

open Verif.MQ (Kind Cfg BaseOp)

theorem events_new (s : Tx.State) (c : Tx.Cmd) :
    (Tx.step s c).out.filterMap Tx.Out.event? =
      s.out.filterMap Tx.Out.event? ++ newEvents s (Tx.step s c) := by
  obtain ⟨o, ho⟩ := Tx.step_ext s c
  unfold newEvents
  rw [ho]
  simp

theorem kindOf_tx (e : Tx.Event) : (kindOf e).isTx = true := by
  unfold kindOf; split <;> rfl

/-- Kinds of TransactionEvents and of the messages of OCPP 1.6 that play their role. -/
def IsEv (k : Kind) : Prop := k = .txUpdate ∨ k = .txOther ∨ k = .txStart

theorem ownOp_kind {b : BaseOp} (h : ownOp b = true) {k : Kind} (hk : b.kind? = some k) : ¬IsEv k := by
  cases b <;> simp only [BaseOp.kind?, Option.some.injEq, reduceCtorEq] at hk
  all_goals
    subst hk
    intro hc
    rcases hc with rfl | rfl | rfl <;> simp [ownOp] at h

theorem ownOp_restart {b : BaseOp} (h : ownOp b = true) : b.isRestart = false := by
  cases b <;> simp_all [ownOp, BaseOp.isRestart]

/-- The queue and the contents of its messages. -/
structure QInv (mq : MQ.St) (bodies : List (Nat × Tx.Event)) : Prop where
  inv : MQ.SInv mq
  kinds : MQ.Kinds mq.core
  ids : (bodies.map (·.1) ++ [mq.nextId]).Pairwise (· < ·)
  pushes : ∀ i k, .push i k ∈ mq.trace → IsEv k → ∃ e, (i, e) ∈ bodies ∧ k = kindOf e

theorem sorted_next {l : List Nat} {n n' : Nat} (h : (l ++ [n]).Pairwise (· < ·)) (hn : n ≤ n') :
    (l ++ [n']).Pairwise (· < ·) := by
  rw [List.pairwise_append] at h ⊢
  refine ⟨h.1, by simp, ?_⟩
  intro a ha b hb
  simp only [List.mem_singleton] at hb
  have := h.2.2 a ha n (by simp)
  omega

theorem sorted_snoc {l : List Nat} {n n' : Nat} (h : (l ++ [n]).Pairwise (· < ·)) (hn : n < n') :
    ((l ++ [n]) ++ [n']).Pairwise (· < ·) := by
  rw [List.pairwise_append]
  refine ⟨h, by simp, ?_⟩
  intro a ha b hb
  simp only [List.mem_singleton] at hb
  rcases List.mem_append.1 ha with ha | ha
  · have := (List.pairwise_append.1 h).2.2 a ha n (by simp)
    omega
  · simp only [List.mem_singleton] at ha; omega

theorem QInv.own {mq : MQ.St} {bs : List (Nat × Tx.Event)} (h : QInv mq bs) (b : BaseOp) (hb : ownOp b = true) :
    QInv (MQ.step mq (.run b)) bs := by
  have hr := ownOp_restart hb
  by_cases hf : mq.fault = none
  · refine ⟨MQ.step_sinv _ _ h.inv, h.kinds.run h.inv b hr, ?_, ?_⟩
    · rw [MQ.run_eq b hf]
      exact sorted_next h.ids (MQ.micros_ins (MQ.micros_baseStep { mq with writes := [] } b h.inv.noWrites.tidy hf hr)).1
    · intro i k hp hk
      rw [MQ.run_eq b hf] at hp
      rcases MQ.only_base { mq with writes := [] } b hr i k hp with hp | ⟨_, hp⟩
      · exact h.pushes i k hp hk
      · exact absurd hk (ownOp_kind hb hp)
  · rw [MQ.run_stuck b hf hr]; exact h

theorem restart_pushes {p : MQ.St} {cfg : Cfg} {ign : Bool} (hdb : MQ.DbInv p.dbN p.dbT p.nextId p.trace) {i : Nat} {k : Kind}
    (h : .push i k ∈ (p.restart cfg ign).trace) : .push i k ∈ p.trace := by
  obtain ⟨ds, h1, h2⟩ := (MQ.restart_facts p cfg ign hdb).tr
  rw [h1] at h
  simp only [List.mem_append, List.mem_singleton, reduceCtorEq, or_false] at h
  rcases h with h | h
  · exact h
  · obtain ⟨r, _, _, e⟩ := h2 _ h; cases e

theorem QInv.restart {mq : MQ.St} {bs : List (Nat × Tx.Event)} (h : QInv mq bs) (cfg : Cfg) (ign : Bool) :
    QInv (MQ.step mq (.run (.restart cfg ign))) bs := by
  refine ⟨MQ.step_sinv _ _ h.inv, h.kinds.restarted h.inv cfg ign, ?_, ?_⟩
  · rw [MQ.restart_step, (MQ.restart_facts { mq with writes := [] } cfg ign h.inv.db).nextId]; exact h.ids
  · intro i k hp hk
    rw [MQ.restart_step] at hp
    exact h.pushes i k (restart_pushes (p := { mq with writes := [] }) h.inv.db hp) hk

theorem handOp_facts (mq : MQ.St) (e : Tx.Event) :
    (MQ.baseStep mq (handOp e)).nextId = mq.nextId + 1 ∧
    (mq.fault = none → (∀ i ∈ mq.promiseSet, i < mq.nextId) → (MQ.baseStep mq (handOp e)).fault = none) ∧
    (mq.running = true → .push mq.nextId (kindOf e) ∈ (MQ.baseStep mq (handOp e)).trace) :=
  ⟨(MQ.dispatch_next mq _ _ (kindOf_tx e)).1, (MQ.dispatch_next mq _ _ (kindOf_tx e)).2,
    MQ.dispatch_takes mq _ _ (kindOf_tx e)⟩

theorem QInv.hand {mq : MQ.St} {bs : List (Nat × Tx.Event)} (h : QInv mq bs) (hf : mq.fault = none) (e : Tx.Event) :
    QInv (MQ.step mq (.run (handOp e))) (bs ++ [(mq.nextId, e)]) ∧ (MQ.step mq (.run (handOp e))).fault = none := by
  have hr : (handOp e).isRestart = false := rfl
  have hfacts := handOp_facts { mq with writes := [] } e
  refine ⟨⟨MQ.step_sinv _ _ h.inv, h.kinds.run h.inv _ hr, ?_, ?_⟩, ?_⟩
  · rw [MQ.run_eq _ hf, hfacts.1]
    have := sorted_snoc (n' := mq.nextId + 1) h.ids (by omega)
    simpa using this
  · intro i k hp hk
    rw [MQ.run_eq _ hf] at hp
    rcases MQ.only_base { mq with writes := [] } (handOp e) hr i k hp with hp | ⟨h1, h2⟩
    · obtain ⟨e', h1, h2⟩ := h.pushes i k hp hk
      exact ⟨e', by simp [h1], h2⟩
    · simp only [handOp, BaseOp.kind?, Option.some.injEq] at h2
      exact ⟨e, by simp [h1], h2.symm⟩
  · rw [MQ.run_eq _ hf]; exact hfacts.2.1 hf h.inv.psLt

theorem QInv.crash {mq : MQ.St} {bs bs' : List (Nat × Tx.Event)} (h : QInv mq bs) (b : BaseOp) (hr : b.isRestart = false)
    (j : Nat) (cfg : Cfg) (ign : Bool) (hsub : ∀ x ∈ bs, x ∈ bs')
    (hids : ∀ n, (mq.fault = none → (MQ.baseStep { mq with writes := [] } b).nextId = n) → mq.nextId ≤ n →
      (bs'.map (·.1) ++ [n]).Pairwise (· < ·))
    (hfault : mq.fault ≠ none → (bs'.map (·.1) ++ [mq.nextId]).Pairwise (· < ·))
    (hp : ∀ i k, mq.fault = none → .push i k ∈ (MQ.baseStep { mq with writes := [] } b).trace → IsEv k →
      ∃ e, (i, e) ∈ bs' ∧ k = kindOf e) :
    QInv (MQ.step mq (.crash b j cfg ign)) bs' := by
  refine ⟨MQ.step_sinv _ _ h.inv, h.kinds.crash h.inv b j cfg ign, ?_, ?_⟩
  · by_cases hf : mq.fault = none
    · rw [MQ.crash_eq b j cfg ign hf, (MQ.restart_facts _ cfg ign (MQ.cutState_db h.inv hf b j)).nextId]
      exact hids _ (fun _ => rfl) (MQ.cut_next h.inv hf b hr j)
    · rw [MQ.crash_stuck b j cfg ign hf, MQ.restart_step,
        (MQ.restart_facts { mq with writes := [] } cfg ign h.inv.db).nextId]
      exact hfault hf
  · intro i k hpu hk
    by_cases hf : mq.fault = none
    · rw [MQ.crash_eq b j cfg ign hf] at hpu
      rcases MQ.cut_push h.inv h.kinds hf b hr j i k (restart_pushes (MQ.cutState_db h.inv hf b j) hpu) with h1 | h1
      · obtain ⟨e, h2, h3⟩ := h.pushes i k h1 hk
        exact ⟨e, hsub _ h2, h3⟩
      · exact hp i k hf h1 hk
    · rw [MQ.crash_stuck b j cfg ign hf, MQ.restart_step] at hpu
      obtain ⟨e, h2, h3⟩ := h.pushes i k (restart_pushes (p := { mq with writes := [] }) h.inv.db hpu) hk
      exact ⟨e, hsub _ h2, h3⟩

theorem QInv.ownCrash {mq : MQ.St} {bs : List (Nat × Tx.Event)} (h : QInv mq bs) (b : BaseOp) (hb : ownOp b = true)
    (j : Nat) (cfg : Cfg) (ign : Bool) : QInv (MQ.step mq (.crash b j cfg ign)) bs := by
  have hr := ownOp_restart hb
  refine h.crash b hr j cfg ign (fun _ h => h) (fun n _ hn => sorted_next h.ids hn) (fun _ => h.ids) ?_
  intro i k _ hpu hk
  rcases MQ.only_base { mq with writes := [] } b hr i k hpu with hpu | ⟨_, hpu⟩
  · exact h.pushes i k hpu hk
  · exact absurd hk (ownOp_kind hb hpu)

theorem QInv.handCrash {mq : MQ.St} {bs : List (Nat × Tx.Event)} (h : QInv mq bs) (hf : mq.fault = none) (e : Tx.Event)
    (j : Nat) (cfg : Cfg) (ign : Bool) : QInv (MQ.step mq (.crash (handOp e) j cfg ign)) (bs ++ [(mq.nextId, e)]) := by
  refine h.crash (handOp e) rfl j cfg ign (fun _ h => by simp [h]) ?_ (fun hc => absurd hf hc) ?_
  · intro n hn _
    have h1 := (handOp_facts { mq with writes := [] } e).1
    rw [hn hf] at h1
    have := sorted_snoc (n' := n) h.ids (by rw [h1]; exact Nat.lt_succ_self _)
    simpa using this
  · intro i k _ hpu hk
    rcases MQ.only_base { mq with writes := [] } (handOp e) rfl i k hpu with hpu | ⟨h1, h2⟩
    · obtain ⟨e', h1, h2⟩ := h.pushes i k hpu hk
      exact ⟨e', by simp [h1], h2⟩
    · simp only [handOp, BaseOp.kind?, Option.some.injEq] at h2
      exact ⟨e, by simp [h1], h2.symm⟩

theorem handAll_tx (es : List Tx.Event) (s : Station) : (handAll s es).tx = s.tx := by
  induction es generalizing s with
  | nil => rfl
  | cons e es ih => exact ih (hand s e)

theorem handAll_bodies (es : List Tx.Event) (s : Station) :
    (handAll s es).bodies.map (·.2) = s.bodies.map (·.2) ++ es := by
  induction es generalizing s with
  | nil => simp [handAll]
  | cons e es ih =>
    have := ih (hand s e)
    rw [show handAll s (e :: es) = handAll (hand s e) es from rfl, this]
    simp [hand]

theorem handAll_inv (es : List Tx.Event) (s : Station) (h : QInv s.mq s.bodies) (hf : s.mq.fault = none) :
    QInv (handAll s es).mq (handAll s es).bodies ∧ (handAll s es).mq.fault = none := by
  induction es generalizing s with
  | nil => exact ⟨h, hf⟩
  | cons e es ih =>
    have := h.hand hf e
    exact ih (hand s e) this.1 this.2

theorem handAllCut_inv (es : List Tx.Event) (s : Station) (j : Nat) (cfg : Cfg) (ign : Bool) (h : QInv s.mq s.bodies)
    (hf : s.mq.fault = none) :
    QInv (handAllCut s es j cfg ign).mq (handAllCut s es j cfg ign).bodies ∧
    (handAllCut s es j cfg ign).tx = s.tx ∧ (handAllCut s es j cfg ign).bodies.map (·.2) = s.bodies.map (·.2) ++ es := by
  unfold handAllCut
  split
  · rename_i hl
    rw [List.getLast?_eq_none_iff] at hl
    exact ⟨h.restart cfg ign, rfl, by simp [hl]⟩
  · rename_i e hl
    have h1 := handAll_inv es.dropLast s h hf
    refine ⟨h1.1.handCrash h1.2 e j cfg ign, handAll_tx _ _, ?_⟩
    have h2 := handAll_bodies es.dropLast s
    simp only [handCut, List.map_append, List.map_cons, List.map_nil, h2, List.append_assoc]
    obtain ⟨ys, rfl⟩ := List.getLast?_eq_some_iff.1 hl
    simp

/-- Every reachable station. -/
structure Inv (conns : List Nat) (resume : Bool) (acts : List Act) (s : Station) : Prop where
  txh : ∃ h, h.Sublist (acts.filterMap txCmd) ∧ s.tx = Tx.run (Tx.clean conns resume) h
  q : QInv s.mq s.bodies
  events : s.bodies.map (·.2) = s.tx.out.filterMap Tx.Out.event?

theorem sublist_snoc {h : List Tx.Cmd} {acts : List Act} (hs : h.Sublist (acts.filterMap txCmd)) (a : Act) {c : Tx.Cmd}
    (hc : txCmd a = some c) : (h ++ [c]).Sublist ((acts ++ [a]).filterMap txCmd) := by
  rw [List.filterMap_append]
  exact hs.append (by simp [hc])

theorem sublist_keep {h : List Tx.Cmd} {acts : List Act} (hs : h.Sublist (acts.filterMap txCmd)) (a : Act) :
    h.Sublist ((acts ++ [a]).filterMap txCmd) := by
  rw [List.filterMap_append]
  exact hs.trans (List.sublist_append_left _ _)

theorem Inv.keep {conns : List Nat} {resume : Bool} {acts : List Act} {s : Station} (h : Inv conns resume acts s) (a : Act) :
    Inv conns resume (acts ++ [a]) s := by
  obtain ⟨th, h1, h2⟩ := h.txh
  exact ⟨⟨th, sublist_keep h1 a, h2⟩, h.q, h.events⟩

theorem Inv.tx {conns : List Nat} {resume : Bool} {acts : List Act} {s : Station} (h : Inv conns resume acts s) {a : Act}
    {c : Tx.Cmd} (hc : txCmd a = some c) : ∃ th, th.Sublist ((acts ++ [a]).filterMap txCmd) ∧
      Tx.step s.tx c = Tx.run (Tx.clean conns resume) th := by
  obtain ⟨th, h1, h2⟩ := h.txh
  exact ⟨th ++ [c], sublist_snoc h1 a hc, by rw [Tx.run_snoc, ← h2]⟩

theorem boot_events (s : Tx.State) (c : Tx.Cmd) (h : (Tx.step s c).out = s.out) :
    (Tx.step s c).out.filterMap Tx.Out.event? = s.out.filterMap Tx.Out.event? := by rw [h]

theorem Inv.step {conns : List Nat} {resume : Bool} {acts : List Act} {s : Station} (h : Inv conns resume acts s) (a : Act) :
    Inv conns resume (acts ++ [a]) (step s a) := by
  cases a with
  | app o =>
    simp only [EndToEnd.step]
    split
    · exact h.keep _
    · rename_i hc
      simp only [Bool.or_eq_true, not_or, Bool.not_eq_true, Option.isSome_eq_false_iff, Option.isNone_iff_eq_none] at hc
      refine ⟨?_, (handAll_inv _ { s with tx := Tx.step s.tx (.op o) } h.q hc.2).1, ?_⟩
      · rw [handAll_tx]
        exact h.tx (a := .app o) (c := .op o) (by simp [txCmd, hc.1])
      · rw [handAll_bodies, handAll_tx, h.events, events_new]
  | queue b =>
    simp only [EndToEnd.step]
    split
    · rename_i hb
      obtain ⟨th, h1, h2⟩ := h.txh
      exact ⟨⟨th, sublist_keep h1 _, h2⟩, h.q.own b hb, h.events⟩
    · exact h.keep _
  | restart cs cfg ign =>
    refine ⟨h.tx (c := .op (.boot cs)) rfl, h.q.restart cfg ign, ?_⟩
    show s.bodies.map (·.2) = (Tx.step s.tx (.op (.boot cs))).out.filterMap _
    rw [boot_events s.tx (.op (.boot cs)) (Tx.bootAll_out cs s.tx)]; exact h.events
  | power o k j cfg ign =>
    simp only [EndToEnd.step]
    split
    · exact h.keep _
    · rename_i hc
      simp only [Bool.or_eq_true, not_or, Bool.not_eq_true, Option.isSome_eq_false_iff, Option.isNone_iff_eq_none] at hc
      have hcut := handAllCut_inv (newEvents s.tx (Tx.step s.tx (.cut o k))) { s with tx := Tx.step s.tx (.cut o k) } j cfg ign
        h.q hc.2
      refine ⟨?_, hcut.1, ?_⟩
      · rw [hcut.2.1]
        exact h.tx (a := .power o k j cfg ign) (c := .cut o k) (by simp [txCmd, hc.1])
      · rw [hcut.2.2, hcut.2.1]
        show s.bodies.map (·.2) ++ _ = _
        rw [h.events, events_new]
  | powerQueue b j cfg ign =>
    simp only [EndToEnd.step]
    split
    · rename_i hb
      refine ⟨h.tx (c := .cut (.setResume true) 0) rfl, h.q.ownCrash b hb j cfg ign, ?_⟩
      show s.bodies.map (·.2) = (Tx.step s.tx (.cut (.setResume true) 0)).out.filterMap _
      rw [boot_events s.tx (.cut (.setResume true) 0) (Tx.bootAll_out _ _)]; exact h.events
    · exact h.keep _

theorem run_snoc (s : Station) (acts : List Act) (a : Act) : run s (acts ++ [a]) = step (run s acts) a := by
  simp [run]

theorem run_inv (conns : List Nat) (resume : Bool) (cfg : Cfg) (now : Int) (acts : List Act) :
    Inv conns resume acts (run (fresh conns resume cfg now) acts) := by
  suffices ∀ (l done : List Act) (s : Station), Inv conns resume done s → Inv conns resume (done ++ l) (run s l) by
    have := this acts [] (fresh conns resume cfg now) ⟨⟨[], by simp, rfl⟩, ⟨MQ.init_sinv cfg now, MQ.init_kinds cfg now, by simp [fresh], by
      intro i k h; simp [fresh, MQ.init] at h⟩, by simp [fresh, Tx.clean]⟩
    simpa using this
  intro l
  induction l with
  | nil => intro done s h; simpa [run] using h
  | cons a l ih =>
    intro done s h
    have := ih (done ++ [a]) (EndToEnd.step s a) (h.step a)
    simpa [run] using this

end Verif.EndToEnd
