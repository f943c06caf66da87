import Verif.EndToEnd.Spec
import Verif.EndToEnd.Lemmas

/-! # What the CSMS sees of the transactions of a station -/

namespace Verif.MQ

theorem micro_tr {fl : Flags} {c c' : Core} (hm : Micro fl c c') : ∃ es, c'.tr = c.tr ++ es := by
  cases hm with
  | ev | failed | accept | fulfilFresh | retryTx | retryN | sendTx | sendN | pushTx | evictT => exact ⟨[_], rfl⟩
  | unreg | att | bump | failTx | failN | mapTx | faultNull | faultPromise => exact ⟨[], by simp⟩
  | pushN m nq' per => cases per <;> exact ⟨[_], rfl⟩
  | evictN m rest per => cases per <;> exact ⟨[_], rfl⟩
  | failPop => exact ⟨[_, _], List.append_assoc _ _ _⟩
  | answer m per =>
    cases per <;> exact ⟨[.fulfil m.iid false, .answer m.uid m.iid, .done m.iid .answered], by simp [Core.db]⟩
  | giveUp m off per =>
    cases per <;> exact ⟨[.failed m.uid m.iid, .fulfil m.iid off, .done m.iid .gaveUp], by simp [Core.db]⟩

theorem micros_tr {fl : Flags} {c c' : Core} (hm : Micros fl c c') : ∃ es, c'.tr = c.tr ++ es := by
  induction hm with
  | refl => exact ⟨[], by simp⟩
  | tail _ h2 ih =>
    obtain ⟨a, ha⟩ := ih
    obtain ⟨b, hb⟩ := micro_tr h2
    exact ⟨a ++ b, by rw [hb, ha, List.append_assoc]⟩

theorem run_keeps {s : St} (hS : SInv s) (b : BaseOp) (hr : b.isRestart = false) {e : Ev} (h : e ∈ s.trace) :
    e ∈ (step s (.run b)).trace := by
  by_cases hf : s.fault = none
  · rw [run_eq b hf]
    obtain ⟨es, he⟩ := micros_tr (micros_baseStep { s with writes := [] } b hS.noWrites.tidy hf hr)
    show e ∈ (baseStep { s with writes := [] } b).core.tr
    rw [he]
    exact List.mem_append_left _ h
  · rw [run_stuck b hf hr]; exact h

theorem restart_keeps {s : St} (hS : SInv s) (cfg : Cfg) (ign : Bool) {e : Ev} (h : e ∈ s.trace) :
    e ∈ (step s (.run (.restart cfg ign))).trace := by
  rw [restart_step]
  obtain ⟨ds, h1, _⟩ := (restart_facts { s with writes := [] } cfg ign hS.db).tr
  rw [h1, List.append_assoc]
  exact List.mem_append_left _ h

theorem loadRows_running (rows : List Row) (s : St) (q : Q) (b : Bool) : (s.loadRows q b rows).running = s.running := by
  induction rows generalizing s with
  | nil => rfl
  | cons r rest ih =>
    unfold St.loadRows
    split
    · rw [ih]; rfl
    · rw [ih]; cases q <;> rfl

theorem restart_running (s : St) (cfg : Cfg) (ign : Bool) : (s.restart cfg ign).running = true := by
  unfold St.restart St.load
  have h1 : ∀ z : St, (if (!z.cfg.queueAll) = true then z.db (.clear .normal) else z).running = z.running := by
    intro z; split <;> rfl
  have h2 : ∀ (P : Prop) [Decidable P] (z : St), (if P then { z with newMsg := true } else z).running = z.running := by
    intro P _ z; split <;> rfl
  dsimp only
  rw [h1, h2, loadRows_running, h2, loadRows_running]
  rfl

theorem pending_snoc (tr : List Ev) (e : Ev) : pendingTx (tr ++ [e]) = pendStep (pendingTx tr) e := by
  simp [pendingTx]

/-- A message handed over is pending, or there was a moment at which it was pending and was finished. -/
theorem pushed_cases (tr : List Ev) (i : Nat) (k : Kind) (hk : k.isTx = true) (h : .push i k ∈ tr) :
    i ∈ pendingTx tr ∨ ∃ a w b, tr = a ++ .done i w :: b ∧ i ∈ pendingTx a := by
  have key : ∀ (n : Nat) (tr : List Ev), tr.length = n → .push i k ∈ tr →
      i ∈ pendingTx tr ∨ ∃ a w b, tr = a ++ .done i w :: b ∧ i ∈ pendingTx a := by
    intro n
    induction n with
    | zero =>
      intro tr hl hm
      have : tr = [] := List.length_eq_zero_iff.1 hl
      subst this; cases hm
    | succ n ih =>
      intro tr hl hm
      have hne : tr ≠ [] := by intro hc; subst hc; cases hm
      obtain ⟨init, e, rfl⟩ : ∃ init e, tr = init ++ [e] := ⟨tr.dropLast, tr.getLast hne, (List.dropLast_concat_getLast hne).symm⟩
      have hl' : init.length = n := by simpa using hl
      rw [pending_snoc]
      by_cases hin : .push i k ∈ init
      · rcases ih init hl' hin with h1 | ⟨a, w, b, h1, h2⟩
        · cases e with
          | push j k' =>
            left; simp only [pendStep]; split
            · simp [h1]
            · exact h1
          | done j w =>
            by_cases hj : j = i
            · subst hj; exact Or.inr ⟨init, w, [], rfl, h1⟩
            · left
              simp only [pendStep, List.mem_filter]
              exact ⟨h1, by simp; exact fun hc => hj hc.symm⟩
          | _ => exact Or.inl h1
        · exact Or.inr ⟨a, w, b ++ [e], by rw [h1]; simp, h2⟩
      · rcases List.mem_append.1 hm with hm | hm
        · exact absurd hm hin
        · simp only [List.mem_singleton] at hm
          subst hm
          left; simp [pendStep, hk]
  exact key _ tr rfl h

/-- A number belongs to one hand-over. -/
theorem push_unique {tr : List Ev} (h : (pushIds tr).Pairwise (· < ·)) {i : Nat} {k k' : Kind} (h1 : .push i k ∈ tr)
    (h2 : .push i k' ∈ tr) : k = k' := by
  induction tr with
  | nil => cases h1
  | cons e tr ih =>
    by_cases he : ∃ j kj, e = .push j kj
    · obtain ⟨j, kj, rfl⟩ := he
      have hc : pushIds (.push j kj :: tr) = j :: pushIds tr := rfl
      rw [hc, List.pairwise_cons] at h
      have mem : ∀ {kk : Kind}, .push i kk ∈ tr → j < i := by
        intro kk hk
        exact h.1 i (List.mem_filterMap.2 ⟨_, hk, rfl⟩)
      rcases List.mem_cons.1 h1 with h1 | h1 <;> rcases List.mem_cons.1 h2 with h2 | h2
      · cases h1; cases h2; rfl
      · have h3 := mem h2; cases h1; omega
      · have h3 := mem h1; cases h2; omega
      · exact ih h.2 h1 h2
    · have hc : pushIds (e :: tr) = pushIds tr := by
        cases e <;> first | rfl | exact absurd ⟨_, _, rfl⟩ he
      rw [hc] at h
      rcases List.mem_cons.1 h1 with h1 | h1
      · exact absurd ⟨_, _, h1.symm⟩ he
      · rcases List.mem_cons.1 h2 with h2 | h2
        · exact absurd ⟨_, _, h2.symm⟩ he
        · exact ih h h1 h2

end Verif.MQ

namespace Verif.EndToEnd

open Verif.MQ (Kind Cfg BaseOp)

/-! ## The contents of messages -/

theorem lookup_some {bs : List (Nat × Tx.Event)} {i : Nat} {e : Tx.Event} (h : bs.lookup i = some e) : (i, e) ∈ bs := by
  induction bs with
  | nil => cases h
  | cons b bs ih =>
    obtain ⟨j, e'⟩ := b
    rw [List.lookup_cons] at h
    split at h
    · rename_i hj
      have : i = j := by simpa using hj
      cases h; subst this; simp
    · exact List.mem_cons_of_mem _ (ih h)

theorem lookup_mem {bs : List (Nat × Tx.Event)} (hn : (bs.map (·.1)).Pairwise (· < ·)) {i : Nat} {e : Tx.Event}
    (h : (i, e) ∈ bs) : bs.lookup i = some e := by
  induction bs with
  | nil => cases h
  | cons b bs ih =>
    obtain ⟨j, e'⟩ := b
    rw [List.map_cons, List.pairwise_cons] at hn
    rw [List.lookup_cons]
    rcases List.mem_cons.1 h with h | h
    · cases h; simp
    · have := hn.1 i (List.mem_map.2 ⟨_, h, rfl⟩)
      have hne : (i == j) = false := by simp at this ⊢; omega
      rw [hne]
      exact ih hn.2 h

theorem QInv.nodup {mq : MQ.St} {bs : List (Nat × Tx.Event)} (h : QInv mq bs) : (bs.map (·.1)).Pairwise (· < ·) :=
  (List.pairwise_append.1 h.ids).1

theorem isEvent_isEv {k : Kind} (h : isEvent k = true) : IsEv k := by
  simp only [isEvent, Bool.or_eq_true, decide_eq_true_eq] at h
  rcases h with h | h
  · exact Or.inl h
  · exact Or.inr (Or.inl h)

theorem isEvent_tx {k : Kind} (h : isEvent k = true) : k.isTx = true := by
  simp only [isEvent, Bool.or_eq_true, decide_eq_true_eq] at h
  rcases h with rfl | rfl <;> rfl

/-- **C245, contents.** Every TransactionEvent request on the wire is one that the station decided to send, of the
type by which the queue knows it. -/
theorem C245_contents (conns : List Nat) (resume : Bool) (cfg : Cfg) (now : Int) (acts : List Act) (m : MQ.Msg)
    (h : .send m ∈ (run (fresh conns resume cfg now) acts).mq.trace) (hm : isEvent m.kind = true) :
    ∃ e, content (run (fresh conns resume cfg now) acts) m.iid = some e ∧
      e ∈ decided (run (fresh conns resume cfg now) acts) ∧ (e.type = .updated ↔ m.kind = .txUpdate) := by
  have hi := run_inv conns resume cfg now acts
  generalize run (fresh conns resume cfg now) acts = s at h hi ⊢
  have hp := hi.q.kinds.sends m h (isEvent_tx hm)
  obtain ⟨e, h1, h2⟩ := hi.q.pushes _ _ hp (isEvent_isEv hm)
  refine ⟨e, lookup_mem hi.q.nodup h1, ?_, ?_⟩
  · show e ∈ s.tx.out.filterMap Tx.Out.event?
    rw [← hi.events]
    exact List.mem_map.2 ⟨_, h1, rfl⟩
  · rw [h2]
    unfold kindOf
    split <;> simp_all

/-! ## Order -/

theorem bodies_seq {s : Station} {h : List Tx.Cmd} {conns : List Nat} {resume : Bool} (hi : QInv s.mq s.bodies)
    (he : s.bodies.map (·.2) = s.tx.out.filterMap Tx.Out.event?) (ht : s.tx = Tx.run (Tx.clean conns resume) h)
    (hf : Tx.FreshIds h) (hd : Tx.DiskFine h) {i j : Nat} {e e' : Tx.Event} (h1 : (i, e) ∈ s.bodies) (h2 : (j, e') ∈ s.bodies)
    (hx : e.txId = e'.txId) (hij : i < j) : e.seqNo < e'.seqNo := by
  have hs := Tx.C29_strictly_increasing conns resume h hf hd e.txId
  rw [← ht] at hs
  unfold Tx.seqNos Tx.events at hs
  rw [← he, List.pairwise_map, List.filter_map, List.pairwise_map] at hs
  have hn := hi.nodup
  have hsub : [(i, e), (j, e')].Sublist s.bodies := by
    clear hs he
    generalize s.bodies = bs at h1 h2 hn
    induction bs with
    | nil => cases h1
    | cons b bs ih =>
      rw [List.map_cons, List.pairwise_cons] at hn
      rcases List.mem_cons.1 h1 with h1 | h1
      · subst h1
        rcases List.mem_cons.1 h2 with h2 | h2
        · cases h2; omega
        · exact List.Sublist.cons_cons _ (List.singleton_sublist.2 h2)
      · rcases List.mem_cons.1 h2 with h2 | h2
        · have := hn.1 i (List.mem_map.2 ⟨(i, e), h1, rfl⟩)
          subst h2
          simp at this; omega
        · exact (ih h1 h2 hn.2).cons _
  have hsub' := hsub.filter ((fun e' : Tx.Event => decide (e'.txId = e.txId)) ∘ fun x : Nat × Tx.Event => x.2)
  have := hs.sublist hsub'
  simp [hx] at this
  exact this

/-- The history of the transactions of a station inherits what is asked of the acts. -/
theorem inherits {conns : List Nat} {resume : Bool} {acts : List Act} {s : Station} (hi : Inv conns resume acts s)
    (hf : Tx.FreshIds (acts.filterMap txCmd)) (hd : Tx.DiskFine (acts.filterMap txCmd)) :
    ∃ h, s.tx = Tx.run (Tx.clean conns resume) h ∧ Tx.FreshIds h ∧ Tx.DiskFine h ∧ h.Sublist (acts.filterMap txCmd) := by
  obtain ⟨h, h1, h2⟩ := hi.txh
  refine ⟨h, h2, ?_, fun c hc => hd c (h1.subset hc), h1⟩
  unfold Tx.FreshIds at hf ⊢
  exact List.Nodup.sublist (h1.filterMap _) hf

theorem wire_eq (s : Station) (x : Verif.Auth.Str) : wireOf s x =
    (s.mq.trace.filterMap (fun | .send m => if isEvent m.kind then some m.iid else none | _ => none)).filterMap
      (fun i => (content s i).filter (fun e => decide (e.txId = x))) := by
  unfold wireOf wire
  rw [List.filter_filterMap, List.filterMap_filterMap]
  congr 1
  funext e
  cases e with
  | send m => dsimp only; split <;> simp
  | _ => rfl

theorem event_sends_sub (tr : List MQ.Ev) :
    (tr.filterMap (fun | .send m => if isEvent m.kind then some m.iid else none | _ => none : MQ.Ev → Option Nat)).Sublist
      (MQ.txSends tr) := by
  induction tr with
  | nil => exact .refl _
  | cons e tr ih =>
    cases e with
    | send m =>
      rw [MQ.txSends_send_cons]
      simp only [List.filterMap_cons]
      cases hk : isEvent m.kind
      · simp only [Bool.false_eq_true, if_false]
        exact ih.trans (by split <;> simp)
      · simp only [if_true, isEvent_tx hk]
        exact List.Sublist.cons_cons _ ih
    | _ => exact ih

/-- **C245.** What the CSMS receives of a transaction is in order: for every history of the station, with restarts and
power cuts at any point, failed transmissions, timeouts, errors and overflow of the queue, a TransactionEvent that is
transmitted after another one of the same transaction has a larger sequence number, or it is the same request once
more. -/
theorem C245 (conns : List Nat) (resume : Bool) (cfg : Cfg) (now : Int) (acts : List Act)
    (hf : Tx.FreshIds (acts.filterMap txCmd)) (hd : Tx.DiskFine (acts.filterMap txCmd)) (x : Verif.Auth.Str) :
    (wireOf (run (fresh conns resume cfg now) acts) x).Pairwise (fun a b => a.seqNo < b.seqNo ∨ a = b) := by
  have hi := run_inv conns resume cfg now acts
  generalize run (fresh conns resume cfg now) acts = s at hi ⊢
  obtain ⟨h, h1, h2, h3, _⟩ := inherits hi hf hd
  have hs : (MQ.txSends s.mq.trace).Pairwise (· ≤ ·) := hi.q.inv.inv.sendsSorted
  rw [wire_eq]
  refine List.Pairwise.filterMap _ ?_ (hs.sublist (event_sends_sub _))
  intro i j hij a ha b hb
  simp only [Option.filter_eq_some_iff, decide_eq_true_eq, content] at ha hb
  rcases Nat.lt_or_eq_of_le hij with hlt | rfl
  · left
    exact bodies_seq hi.q hi.events h1 h2 h3 (lookup_some ha.1) (lookup_some hb.1) (by rw [ha.2, hb.2]) hlt
  · right
    have := ha.1.symm.trans hb.1
    simpa using this

/-! ## Completeness -/

structure CalmInv (cfg : Cfg) (now : Int) (s : Station) : Prop where
  ops : ∃ ops : List MQ.Op, (∀ op ∈ ops, op.isCrash = false) ∧ s.mq = MQ.run (MQ.init cfg now) ops
  running : s.mq.running = true
  taken : ∀ b ∈ s.bodies, .push b.1 (kindOf b.2) ∈ s.mq.trace

theorem CalmInv.mq {cfg : Cfg} {now : Int} {mq : MQ.St}
    (h : ∃ ops : List MQ.Op, (∀ op ∈ ops, op.isCrash = false) ∧ mq = MQ.run (MQ.init cfg now) ops) (op : MQ.Op)
    (ho : op.isCrash = false) :
    ∃ ops : List MQ.Op, (∀ op ∈ ops, op.isCrash = false) ∧ MQ.step mq op = MQ.run (MQ.init cfg now) ops := by
  obtain ⟨ops, h1, h2⟩ := h
  refine ⟨ops ++ [op], ?_, by rw [MQ.run_snoc, h2]⟩
  intro o hm
  rcases List.mem_append.1 hm with hm | hm
  · exact h1 o hm
  · simp only [List.mem_singleton] at hm; subst hm; exact ho

theorem handAll_calm {cfg : Cfg} {now : Int} (es : List Tx.Event) (s : Station) (hq : QInv s.mq s.bodies)
    (hf : s.mq.fault = none) (h : CalmInv cfg now s) : CalmInv cfg now (handAll s es) := by
  induction es generalizing s with
  | nil => exact h
  | cons e es ih =>
    have h1 := hq.hand hf e
    refine ih (hand s e) h1.1 h1.2 ⟨CalmInv.mq h.ops (.run (handOp e)) rfl, ?_, ?_⟩
    · show (MQ.step s.mq (.run (handOp e))).running = true
      rw [MQ.run_eq _ hf, MQ.running_base _ _ rfl (by simp [handOp])]
      exact h.running
    · intro b hb
      rcases List.mem_append.1 hb with hb | hb
      · exact MQ.run_keeps hq.inv _ rfl (h.taken b hb)
      · simp only [List.mem_singleton] at hb
        subst hb
        show _ ∈ (MQ.step s.mq (.run (handOp e))).trace
        rw [MQ.run_eq _ hf]
        exact (handOp_facts { s.mq with writes := [] } e).2.2 h.running

theorem CalmInv.step {cfg : Cfg} {now : Int} {s : Station} (hq : QInv s.mq s.bodies) (h : CalmInv cfg now s) (a : Act)
    (ha : calm a = true) : CalmInv cfg now (step s a) := by
  cases a with
  | app o =>
    simp only [EndToEnd.step]
    split
    · exact h
    · rename_i hc
      simp only [Bool.or_eq_true, not_or, Bool.not_eq_true, Option.isSome_eq_false_iff, Option.isNone_iff_eq_none] at hc
      exact handAll_calm _ { s with tx := Tx.step s.tx (.op o) } hq hc.2 ⟨h.ops, h.running, h.taken⟩
  | queue b =>
    simp only [EndToEnd.step]
    split
    · rename_i hb
      have hr := ownOp_restart hb
      refine ⟨CalmInv.mq h.ops (.run b) rfl, ?_, fun x hx => MQ.run_keeps hq.inv b hr (h.taken x hx)⟩
      by_cases hf : s.mq.fault = none
      · show (MQ.step s.mq (.run b)).running = true
        rw [MQ.run_eq _ hf, MQ.running_base _ _ hr (by rintro rfl; cases ha)]
        exact h.running
      · show (MQ.step s.mq (.run b)).running = true
        rw [MQ.run_stuck b hf hr]; exact h.running
    · exact h
  | restart cs c ign =>
    refine ⟨CalmInv.mq h.ops (.run (.restart c ign)) rfl, ?_, fun x hx => MQ.restart_keeps hq.inv c ign (h.taken x hx)⟩
    show (MQ.step s.mq (.run (.restart c ign))).running = true
    rw [MQ.restart_step, MQ.restart_running]
  | power o k j c ign => cases ha
  | powerQueue b j c ign => cases ha

theorem run_calm (conns : List Nat) (resume : Bool) (cfg : Cfg) (now : Int) (acts : List Act)
    (ha : ∀ a ∈ acts, calm a = true) : CalmInv cfg now (run (fresh conns resume cfg now) acts) := by
  suffices ∀ (l : List Act) (s : Station), (∀ a ∈ l, calm a = true) → (∃ done, Inv conns resume done s) → CalmInv cfg now s →
      CalmInv cfg now (run s l) from
    this acts _ ha ⟨_, run_inv conns resume cfg now []⟩ ⟨⟨[], by simp, rfl⟩, rfl, by simp [fresh]⟩
  intro l
  induction l with
  | nil => intro s _ _ h; exact h
  | cons a l ih =>
    intro s hl ⟨done, hi⟩ h
    exact ih _ (fun b hb => hl b (by simp [hb])) ⟨_, hi.step a⟩ (h.step hi.q a (hl a (by simp)))

/-- What became of a message that carries an event. -/
theorem fate {conns : List Nat} {resume : Bool} {cfg : Cfg} {now : Int} {acts : List Act} {s : Station}
    (hi : Inv conns resume acts s) (hc : CalmInv cfg now s) {i : Nat} {e : Tx.Event} (hb : (i, e) ∈ s.bodies) :
    Answered s i ∨ Pending s i ∨ GivenUp s i ∨ (Dropped s i ∧ e.type = .updated) := by
  have hp := hc.taken _ hb
  rcases MQ.pushed_cases _ _ _ (kindOf_tx e) hp with h | ⟨a, w, b, h1, h2⟩
  · exact Or.inr (Or.inl h)
  · obtain ⟨ops, ho1, ho2⟩ := hc.ops
    have hr := MQ.C03_reasons cfg now ops ho1 a b i w (by rw [← ho2]; exact h1) h2
    have mem : ∀ {ev : MQ.Ev}, ev ∈ a → ev ∈ s.mq.trace := fun h => by rw [h1]; exact List.mem_append_left _ h
    have hdone : ∀ {w' : MQ.Reason}, w = w' → .done i w' ∈ s.mq.trace := by
      intro w' hw; subst hw; rw [h1]; simp
    rcases hr with ⟨_, u, hu⟩ | ⟨hw, u, hu⟩ | ⟨hw, hu⟩ | ⟨_, hu⟩
    · exact Or.inl ⟨u, mem hu⟩
    · exact Or.inr (Or.inr (Or.inl ⟨hdone hw, u, mem hu⟩))
    · right; right; right
      refine ⟨hdone hw, ?_⟩
      obtain ⟨e2, h3, h4⟩ := hi.q.pushes i .txUpdate (mem hu) (Or.inl rfl)
      have : e2 = e := by
        have := (lookup_mem hi.q.nodup h3).symm.trans (lookup_mem hi.q.nodup hb)
        simpa using this
      subst this
      unfold kindOf at h4
      split at h4
      · assumption
      · cases h4
    · exfalso
      have hp' : (MQ.pushIds s.mq.trace).Pairwise (· < ·) := (List.pairwise_append.1 hi.q.inv.inv.pushed).1
      have huniq := MQ.push_unique hp' hp (mem hu)
      unfold kindOf at huniq
      dsimp only at huniq
      split at huniq <;> cases huniq

/-- **C246, partial.** (Missing: power cuts inside an operation, for which the claim is false.) No TransactionEvent gets
lost without a reason: in every history without power cuts inside an operation, with restarts, every TransactionEvent
that the station decided to send was answered by the CSMS, or is still held by the queue, or was given up after a
timeout or a CALLERROR, or was dropped because the queue was full; and only events of type Updated are dropped. -/
theorem C246_partial (conns : List Nat) (resume : Bool) (cfg : Cfg) (now : Int) (acts : List Act)
    (ha : ∀ a ∈ acts, calm a = true) (e : Tx.Event) (he : e ∈ decided (run (fresh conns resume cfg now) acts)) :
    ∃ i, content (run (fresh conns resume cfg now) acts) i = some e ∧
      (Answered (run (fresh conns resume cfg now) acts) i ∨ Pending (run (fresh conns resume cfg now) acts) i ∨
       GivenUp (run (fresh conns resume cfg now) acts) i ∨
       (Dropped (run (fresh conns resume cfg now) acts) i ∧ e.type = .updated)) := by
  have hi := run_inv conns resume cfg now acts
  have hc := run_calm conns resume cfg now acts ha
  generalize run (fresh conns resume cfg now) acts = s at hi hc he ⊢
  unfold decided at he
  rw [← hi.events] at he
  obtain ⟨⟨i, e'⟩, hb, rfl⟩ := List.mem_map.1 he
  exact ⟨i, lookup_mem hi.q.nodup hb, fate hi hc hb⟩

theorem mem_answers {s : Station} {i : Nat} (h : Answered s i) : (answers s).contains i = true := by
  obtain ⟨u, hu⟩ := h
  rw [List.contains_iff_mem]
  exact List.mem_filterMap.2 ⟨_, hu, rfl⟩

/-- **C247, partial.** (Missing: power cuts inside an operation.) Nothing is missing at the CSMS in the end: in every
history without power cuts inside an operation in which transaction ids are unique and the database takes the writes,
once the queue holds no TransactionEvent and unless one was given up or dropped, the events of every transaction that
the CSMS answered are all that the station decided to send, are numbered 0, 1, 2, ... without gap, and are Started,
then Updated events, and Ended at the end if the transaction is over. -/
theorem C247_partial (conns : List Nat) (resume : Bool) (cfg : Cfg) (now : Int) (acts : List Act)
    (ha : ∀ a ∈ acts, calm a = true) (hf : Tx.FreshIds (acts.filterMap txCmd)) (hd : Tx.DiskFine (acts.filterMap txCmd))
    (hp : ∀ i, ¬ Pending (run (fresh conns resume cfg now) acts) i)
    (hg : ∀ i, ¬ GivenUp (run (fresh conns resume cfg now) acts) i)
    (he : ∀ i, ¬ Dropped (run (fresh conns resume cfg now) acts) i) (x : Verif.Auth.Str) :
    received (run (fresh conns resume cfg now) acts) x =
        (decided (run (fresh conns resume cfg now) acts)).filter (fun e => e.txId = x) ∧
      (received (run (fresh conns resume cfg now) acts) x).map (·.seqNo) =
        List.range (received (run (fresh conns resume cfg now) acts) x).length ∧
      (received (run (fresh conns resume cfg now) acts) x = [] ∨
       Tx.Running ((received (run (fresh conns resume cfg now) acts) x).map (·.type)) ∨
       Tx.Finished ((received (run (fresh conns resume cfg now) acts) x).map (·.type))) ∧
      (∀ (v : Nat) (t : Tx.Tx), (run (fresh conns resume cfg now) acts).tx.tx v = some t → t.id = x →
        Tx.Running ((received (run (fresh conns resume cfg now) acts) x).map (·.type))) := by
  have hi := run_inv conns resume cfg now acts
  have hall : ∀ b ∈ (run (fresh conns resume cfg now) acts).bodies,
      (answers (run (fresh conns resume cfg now) acts)).contains b.1 = true := by
    intro b hb
    rcases fate hi (run_calm conns resume cfg now acts ha) (i := b.1) (e := b.2) hb with h | h | h | h
    · exact mem_answers h
    · exact absurd h (hp _)
    · exact absurd h (hg _)
    · exact absurd h.1 (he _)
  generalize run (fresh conns resume cfg now) acts = s at *
  have hrec : received s x = Tx.events s.tx.out x := by
    unfold received Tx.events
    rw [List.filter_eq_self.2 hall, hi.events]
  obtain ⟨h, h1, h2, h3, h4⟩ := inherits hi hf hd
  have hnc : Tx.NoCut h := by
    intro c hc
    obtain ⟨a, ha1, ha2⟩ := List.mem_filterMap.1 (h4.subset hc)
    have := ha a ha1
    cases a with
    | app o =>
      simp only [txCmd] at ha2
      split at ha2
      · cases ha2
      · cases ha2; rfl
    | queue b => cases ha2
    | restart cs c ign => cases ha2; rfl
    | power o k j c ign => cases this
    | powerQueue b j c ign => cases this
  have g1 := Tx.C29_gap_free conns resume h h2 h3 hnc x
  have g2 := Tx.C61_lifecycle_partial conns resume h h2 h3 hnc x
  have g3 := Tx.C61_running_partial conns resume h h2 h3 hnc
  rw [← h1] at g1 g2 g3
  rw [hrec]
  refine ⟨rfl, g1, ?_, ?_⟩
  · rcases g2 with g2 | g2 | g2
    · left; unfold Tx.types at g2; simpa using g2
    · exact Or.inr (Or.inl g2)
    · exact Or.inr (Or.inr g2)
  · intro v t hv ht
    subst ht
    exact g3 v t hv

/-! ## Examples -/

/-- The station starts and the CSMS accepts it. -/
def exStart : List Act :=
  [.queue (.resume false), .queue (.dispatch .boot false), .queue (.worker true), .queue (.recvResult 0),
   .queue (.regStatus true)]

/-- A transaction with a timeout, a repeated transmission and a restart in between. -/
def exDay : List Act :=
  exStart ++ [.app (Tx.startOp 1 Tx.txX none), .app (.meter 1), .queue (.worker true), .queue .timeout, .queue (.tick 100),
    .queue .notifyFire, .queue (.worker true), .queue (.recvResult 3), .restart [1] {} false, .queue (.resume false),
    .queue (.dispatch .boot false), .queue (.worker true), .queue (.recvResult 4), .queue (.regStatus true),
    .queue (.worker true), .queue (.recvResult 2), .app (Tx.finishOp 1), .queue (.worker true), .queue (.recvResult 5)]

example : Tx.FreshIds (exDay.filterMap txCmd) ∧ Tx.DiskFine (exDay.filterMap txCmd) ∧ (∀ a ∈ exDay, calm a = true) ∧
    (wireOf (run (fresh [1] true {} 0) exDay) Tx.txX).map (·.seqNo) = [0, 0, 1, 2] ∧
    (received (run (fresh [1] true {} 0) exDay) Tx.txX).map (·.type) = [.started, .updated, .ended] ∧
    MQ.pendingTx (run (fresh [1] true {} 0) exDay).mq.trace = [] := by
  refine ⟨by unfold Tx.FreshIds exDay; decide, ?_, by decide, by decide +kernel, by decide +kernel, by decide +kernel⟩
  intro c hc
  simp only [exDay, exStart, txCmd, Tx.isBoot, Tx.startOp, Tx.finishOp, List.filterMap_append, List.filterMap_cons,
    List.filterMap_nil, List.cons_append, List.nil_append, Bool.false_eq_true, if_false, List.mem_cons, List.not_mem_nil,
    or_false] at hc
  rcases hc with rfl | rfl | rfl | rfl <;> simp [Tx.opOf]

/-- C246 fails with a power cut: it falls between the writing of the next sequence number and the writing of the event
into the database of the queue. The station comes up again with the transaction, and the CSMS receives 0 and 2: the
event with number 1 was never transmitted and is gone, although nothing was dropped or given up. -/
theorem C246_power_violated :
    let s := run (fresh [1] true {} 0) (exStart ++ [.app (Tx.startOp 1 Tx.txX none), .queue (.worker true),
      .queue (.recvResult 1), .power (.meter 1) 2 0 {} false, .queue (.resume false), .queue (.dispatch .boot false),
      .queue (.worker true), .queue (.recvResult 3), .queue (.regStatus true), .app (.meter 1), .queue (.worker true),
      .queue (.recvResult 4)])
    (decided s).map (·.seqNo) = [0, 1, 2] ∧ (wireOf s Tx.txX).map (·.seqNo) = [0, 2] ∧
      (received s Tx.txX).map (·.seqNo) = [0, 2] ∧ MQ.pendingTx s.mq.trace = [] := by
  decide +kernel

end Verif.EndToEnd
