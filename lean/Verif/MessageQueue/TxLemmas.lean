import Verif.MessageQueue.Lemmas

/-! # Invariants over whole histories, assembled -/

namespace Verif.MQ

set_option linter.unusedSimpArgs false

theorem Flags.le_top (f : Flags) : f.Le ⟨True, True, True, True⟩ := ⟨fun _ => trivial, fun _ => trivial, fun _ => trivial, fun _ => trivial⟩

/-! ## C01 -/

theorem txSends_send_cons (m : Msg) (l : List Ev) :
    txSends (.send m :: l) = (if m.kind.isTx then [m.iid] else []) ++ txSends l := by
  by_cases h : m.kind.isTx <;> simp [txSends, h]

theorem pushIds_append (a b : List Ev) : pushIds (a ++ b) = pushIds a ++ pushIds b := by
  simp [pushIds, List.filterMap_append]

theorem pendingTx_pushed (tr : List Ev) (i : Nat) (h : i ∈ pendingTx tr) : i ∈ pushIds tr := by
  have key : ∀ (l a : List Ev), (∀ i ∈ pendingTx a, i ∈ pushIds a) → ∀ i ∈ pendingTx (a ++ l), i ∈ pushIds (a ++ l) := by
    intro l
    induction l with
    | nil => intro a h; simpa using h
    | cons e l ih =>
      intro a h
      have : a ++ e :: l = (a ++ [e]) ++ l := by simp
      rw [this]
      apply ih
      intro i hi
      rw [pendingTx_snoc] at hi
      rw [pushIds_snoc]
      cases e <;> simp only [pendStep] at hi <;> try (simp; exact h i hi)
      · split at hi
        · simp at hi ⊢; exact hi.imp (h i) id
        · simp; exact Or.inl (h i hi)
      · simp at hi ⊢; exact h i hi.1
  exact key tr [] (by simp [pendingTx]) i h

theorem sublist_of_sorted {l : List Nat} (hs : l.Pairwise (· < ·)) {x y : Nat} (hx : x ∈ l) (hy : y ∈ l) (h : x < y) :
    [x, y].Sublist l := by
  obtain ⟨a, b, rfl⟩ := List.append_of_mem hx
  have : y ∈ b := by
    rw [List.pairwise_append] at hs
    simp only [List.mem_append, List.mem_cons] at hy
    rcases hy with hy | rfl | hy
    · have := hs.2.2 y hy x (by simp); omega
    · omega
    · exact hy
  exact (List.Sublist.cons_cons x (List.singleton_sublist.2 this)).trans (List.sublist_append_right _ _)

def J01 (c : Core) : Prop := BeforeSend (fun a m => m.kind.isTx = true → m.iid ∈ pendingTx a) c.tr

theorem J01.micro {fl : Flags} {c c' : Core} (hC : CInv c) (h : J01 c) (hm : Micro fl c c') : J01 c' := by
  have snoc : ∀ {tr : List Ev} {e : Ev}, BeforeSend (fun a m => m.kind.isTx = true → m.iid ∈ pendingTx a) tr →
      (∀ m, e ≠ .send m) → BeforeSend (fun a m => m.kind.isTx = true → m.iid ∈ pendingTx a) (tr ++ [e]) :=
    fun h hn => beforeSend_snoc h (fun m hm => absurd hm (hn m))
  unfold J01 at h ⊢
  cases hm with
  | ev e he => exact snoc h (by rintro m rfl; simp [Ev.obs] at he)
  | failed | accept | fulfilFresh => exact snoc h (by simp)
  | unreg | att | bump | failTx | failN | mapTx | faultNull | faultPromise => exact h
  | pushTx => exact snoc h (by simp)
  | pushN m nq' per => cases per <;> exact snoc h (by simp)
  | evictN m rest per => cases per <;> exact snoc h (by simp)
  | evictT => exact snoc h (by simp)
  | sendTx m m1 rest hi hq hs ha hal =>
    refine beforeSend_snoc h ?_
    intro x hx _
    simp only [Ev.send.injEq] at hx; subst hx
    rw [hC.inv.spec, hs.1]
    exact (hC.txq_lt (m := m) (by rw [hq]; simp)).2
  | sendN m m1 pre post hi hq hs ha hal =>
    refine beforeSend_snoc h ?_
    intro x hx hk
    simp only [Ev.send.injEq] at hx; subst hx
    rw [hs.2.1, hC.inv.nqKind m (by rw [hq]; simp)] at hk; cases hk
  | failPop => exact snoc (snoc h (by simp)) (by simp)
  | answer m per => cases per <;> exact snoc (snoc (snoc h (by simp)) (by simp)) (by simp)
  | giveUp m off per => cases per <;> exact snoc (snoc (snoc h (by simp)) (by simp)) (by simp)
  | retryTx | retryN => exact snoc h (by simp)

theorem run_J01 (cfg : Cfg) (now : Int) (ops : List Op) : J01 (run (init cfg now) ops).core := by
  refine run_core (J := J01) (fl := ⟨True, True, True, True⟩) (ok := fun _ _ => True) (fun s op _ => Flags.le_top _)
    (fun c ws h => h) (fun c c' hC h hm => h.micro hC hm) ?_ _ (init_sinv cfg now) ?_ ops (along_true _ _)
  · intro s p s' cfg ign op _ _ hJ ht hf _
    exact beforeSend_restart hJ ht hf
  · intro a m b h; simp [init, St.core] at h

theorem run_J02 (cfg : Cfg) (now : Int) (ops : List Op) : J02 (run (init cfg now) ops).core := by
  refine run_core (J := J02) (fl := ⟨True, True, True, True⟩) (ok := fun _ _ => True) (fun s op _ => Flags.le_top _)
    (fun c ws h => ⟨h.ok, h.idle, h.busy⟩) (fun c c' hC h hm => h.micro hm) ?_ _ (init_sinv cfg now) ?_ ops
    (along_true _ _)
  · intro s p s' cfg ign op _ _ hJ ht hf _
    exact hJ.restart ht hf
  · constructor <;> simp [init, St.core, openCall, BeforeSend]

/-! ## C03 -/

theorem mem_of_foldT (ws : List DbWrite) (t : List Row) (i : Nat)
    (h : i ∈ (ws.foldl (fun t w => w.onTable .tx t) t).map Row.iid) :
    i ∈ t.map Row.iid ∨ ∃ r, .ins .tx r ∈ ws ∧ r.iid = i := by
  induction ws generalizing t with
  | nil => exact Or.inl h
  | cons w ws ih =>
    rcases ih _ h with h1 | ⟨r, h1, h2⟩
    · cases w with
      | ins q r =>
        simp only [DbWrite.onTable] at h1
        split at h1
        · rename_i hq
          simp only [List.map_append, List.map_cons, List.map_nil, List.mem_append, List.mem_singleton] at h1
          rcases h1 with h1 | h1
          · exact Or.inl h1
          · exact Or.inr ⟨r, by simp [hq], h1.symm⟩
        · exact Or.inl h1
      | del q j w =>
        simp only [DbWrite.onTable] at h1
        split at h1
        · obtain ⟨r, hr, he⟩ := List.mem_map.1 h1
          exact Or.inl (List.mem_map.2 ⟨r, (List.mem_filter.1 hr).1, he⟩)
        · exact Or.inl h1
      | clear q =>
        simp only [DbWrite.onTable] at h1
        split at h1
        · simp at h1
        · exact Or.inl h1
    · exact Or.inr ⟨r, by simp [h1], h2⟩

theorem pushIds_ins {ws : List DbWrite} {r : Row} {q : Q} (h : .ins q r ∈ ws) : r.iid ∈ pushIds (ws.flatMap DbWrite.ev) := by
  simp only [pushIds, List.mem_filterMap, List.mem_flatMap]
  exact ⟨.push r.iid r.kind, ⟨_, h, by simp [DbWrite.ev]⟩, rfl⟩

theorem micro_ins {fl : Flags} {c c' : Core} (hm : Micro fl c c') {q : Q} {r : Row} (h : .ins q r ∈ c'.ws) :
    .ins q r ∈ c.ws ∨ r.iid = c.nextId := by
  cases hm with
  | ev | failed | accept | unreg | att | bump | fulfilFresh | sendTx | sendN | failTx | failN | failPop | retryTx
  | retryN | mapTx | faultNull | faultPromise => exact Or.inl h
  | pushTx m hk hi ha hq =>
    simp only [Core.db, List.mem_append, List.mem_singleton] at h
    rcases h with h | h
    · exact Or.inl h
    · cases h; exact Or.inr hi
  | pushN m nq' per hk hi ha hq hn =>
    cases per
    · exact Or.inl h
    · simp only [Core.db, List.mem_append, List.mem_singleton, if_true] at h
      rcases h with h | h
      · exact Or.inl h
      · cases h; exact Or.inr hi
  | evictN m rest per =>
    cases per
    · exact Or.inl h
    · simp [Core.db] at h; exact Or.inl h
  | evictT => simp [Core.db] at h; exact Or.inl h
  | answer m per =>
    cases per
    · exact Or.inl h
    · simp [Core.db] at h; exact Or.inl h
  | giveUp m off per =>
    cases per
    · exact Or.inl h
    · simp [Core.db] at h; exact Or.inl h

theorem micros_ins {fl : Flags} {c c' : Core} (hm : Micros fl c c') :
    c.nextId ≤ c'.nextId ∧ ∀ q r, .ins q r ∈ c'.ws → .ins q r ∈ c.ws ∨ c.nextId ≤ r.iid := by
  induction hm with
  | refl => exact ⟨Nat.le_refl _, fun q r h => Or.inl h⟩
  | tail _ h2 ih =>
    refine ⟨Nat.le_trans ih.1 (WOk_mono_n h2), ?_⟩
    intro q r h
    rcases micro_ins h2 h with h | h
    · exact ih.2 q r h
    · right; rw [h]; exact ih.1

theorem loadRows_ins (rows : List Row) (s : St) (q0 : Q) (b : Bool) {q : Q} {r : Row}
    (h : DbWrite.ins q r ∈ (s.loadRows q0 b rows).writes) : .ins q r ∈ s.writes := by
  induction rows generalizing s with
  | nil => exact h
  | cons x rest ih =>
    unfold St.loadRows at h
    split at h
    · have := ih _ h; simpa [St.emit, St.db] using this
    · have := ih _ h
      cases q0 <;> exact this

theorem restart_ins (s : St) (cfg : Cfg) (ign : Bool) {q : Q} {r : Row}
    (h : .ins q r ∈ (s.restart cfg ign).writes) : .ins q r ∈ s.writes := by
  unfold St.restart St.load at h
  have h0 : ∀ s0 : St, .ins q r ∈ (if (!s0.cfg.queueAll) = true then s0.db (.clear .normal) else s0).writes →
      .ins q r ∈ s0.writes := by
    intro s0 h; split at h
    · simpa [St.db] using h
    · exact h
  have h1 := h0 _ h
  have hif : ∀ (P : Prop) [Decidable P] (a b : St), .ins q r ∈ (if P then a else b).writes → a.writes = b.writes →
      .ins q r ∈ b.writes := by
    intro P _ a b h e; split at h
    · rw [← e]; exact h
    · exact h
  have h2 := loadRows_ins _ _ _ _ (hif _ _ _ h1 rfl)
  have h3 := hif _ _ _ h2 rfl
  exact loadRows_ins (s := s.reset cfg) _ _ _ h3

theorem ins_fresh {s : St} (hS : SInv s) (hf : s.fault = none) {b : BaseOp} {ws : List DbWrite}
    (e : (baseStep s b).writes = ws) (hw : s.writes = []) {k : Nat} {q : Q} {r : Row} (h : .ins q r ∈ ws.take k)
    (hlt : r.iid < s.nextId) : False := by
  have h' : .ins q r ∈ (baseStep s b).writes := by rw [e]; exact List.mem_of_mem_take h
  cases hr : b.isRestart
  · rcases (micros_ins (micros_baseStep s b hS.tidy hf hr)).2 q r h' with h1 | h1
    · rw [show s.core.ws = s.writes from rfl, hw] at h1; cases h1
    · have : s.nextId ≤ r.iid := h1
      omega
  · cases b <;> simp [BaseOp.isRestart] at hr
    have := restart_ins _ _ _ h'
    rw [hw] at this; cases this

theorem crash_anywhere (s : St) (hS : SInv s) (b : BaseOp) (k : Nat) (cfg' : Cfg) :
    let full := step s (.run b)
    let cut := step s (.crash b k cfg' false)
    (∀ i, i ∈ pendingTx s.trace → i ∈ pendingTx full.trace → i ∈ cut.txq.map Msg.iid) ∧
    (∀ i, i ∈ cut.txq.map Msg.iid → i ∈ pendingTx s.trace ∨ (s.nextId ≤ i ∧ i < full.nextId)) ∧
    (cut.txq.map Msg.iid).Pairwise (· < ·) := by
  intro full cut
  have hcut : SInv cut := step_sinv s _ hS
  have hfull : SInv full := step_sinv s _ hS
  have hcs : (cut.txq.map Msg.iid).Pairwise (· < ·) := by
    have h1 := hcut.inv.sorted
    rw [show List.map Row.iid cut.core.dbT = _ from hcut.inv.ids, List.pairwise_append] at h1
    exact h1.2.1
  have txids : ∀ p : St, DbInv p.dbN p.dbT p.nextId p.trace → (p.restart cfg' false).txq.map Msg.iid = p.dbT.map Row.iid := by
    intro p hp
    have h1 := congrArg (List.map Prod.fst) (restart_facts p cfg' false hp).txKeys
    rw [List.map_map, List.map_map, List.filter_eq_self.2 (by simp)] at h1
    exact h1
  have hspec : pendingTx s.trace = s.dbT.map Row.iid := hS.inv.spec
  by_cases hf : s.fault.isSome = true
  · have e1 : cut = ({ s with writes := [] } : St).restart cfg' false := by simp [cut, step, hf]
    have e2 : cut.txq.map Msg.iid = pendingTx s.trace := by
      rw [e1, txids { s with writes := [] } hS.db, hspec]
    refine ⟨fun i h1 _ => by rw [e2]; exact h1, fun i h1 => Or.inl (by rw [← e2]; exact h1), hcs⟩
  · have hf' : s.fault = none := by simpa using hf
    have hS' : SInv { s with writes := [] } := ⟨hS.inv, hS.psLt⟩
    obtain ⟨ws, e1, hc⟩ := baseStep_cut { s with writes := [] } b hS' hf'
    simp only [List.nil_append] at e1
    have ef : full = baseStep { s with writes := [] } b := by simp [full, step, hf]
    have ec : cut = ((({ s with writes := [], nextId := full.nextId } : St).partialWrites (ws.take k))).restart cfg' false := by
      simp only [cut, step, hf, Bool.false_eq_true, if_false, e1, ef]
    rw [← ef] at hc
    have ids : cut.txq.map Msg.iid = ((ws.take k).foldl (fun t w => w.onTable .tx t) s.dbT).map Row.iid := by
      rw [ec, txids _ (hc.good k)]; rfl
    have hall := hc.good ws.length
    rw [List.take_length] at hall
    have hpush := (hc.good k).pushed
    have hpushAll := hall.pushed
    refine ⟨?_, ?_, hcs⟩
    · intro i h1 h2
      rw [ids]
      have h2' : i ∈ ((ws.drop k).foldl (fun t w => w.onTable .tx t)
          ((ws.take k).foldl (fun t w => w.onTable .tx t) s.dbT)).map Row.iid := by
        rw [← List.foldl_append, List.take_append_drop, hc.endT]
        rw [show pendingTx full.trace = _ from hfull.inv.spec] at h2
        exact h2
      rcases mem_of_foldT _ _ _ h2' with h3 | ⟨r, h3, h4⟩
      · exact h3
      · exfalso
        have a1 := pushIds_ins h3
        rw [h4] at a1
        have a2 := pendingTx_pushed _ _ h1
        have a3 : pushIds (s.trace ++ ws.flatMap DbWrite.ev) =
            pushIds s.trace ++ (pushIds ((ws.take k).flatMap DbWrite.ev) ++ pushIds ((ws.drop k).flatMap DbWrite.ev)) := by
          rw [← pushIds_append, ← List.flatMap_append, List.take_append_drop, pushIds_append]
        have a4 := (List.pairwise_append.1 hpushAll).1
        rw [a3, List.pairwise_append] at a4
        have := a4.2.2 i a2 i (List.mem_append_right _ a1)
        omega
    · intro i h1
      rw [ids] at h1
      rcases mem_of_foldT _ _ _ h1 with h3 | ⟨r, h3, h4⟩
      · left; rw [hspec]; exact h3
      · right
        have a1 := pushIds_ins h3
        rw [h4] at a1
        rw [pushIds_append, List.append_assoc, List.pairwise_append] at hpush
        have a5 := hpush.2.1
        rw [List.pairwise_append] at a5
        refine ⟨?_, a5.2.2 i a1 full.nextId (by simp)⟩
        rcases Nat.lt_or_ge i s.nextId with hlt | hge
        · exfalso
          exact ins_fresh hS' hf' e1 rfl h3 (by simp only; omega)
        · exact hge

/-- Reasons for which a pending transaction message may be finished. -/
def DoneOk (a : List Ev) (e : Ev) : Prop :=
  ∀ i w, e = .done i w → i ∈ pendingTx a →
    (w = .answered ∧ ∃ u, .answer u i ∈ a) ∨ (w = .gaveUp ∧ ∃ u, .failed u i ∈ a) ∨
    (w = .evicted ∧ .push i .txUpdate ∈ a) ∨ (w = .ignored ∧ .push i .secEvent ∈ a)

structure J03 (c : Core) : Prop where
  pushed : ∀ r ∈ c.dbT, .push r.iid r.kind ∈ c.tr
  ok : BeforeEv DoneOk c.tr

theorem DoneOk.other {a : List Ev} {e : Ev} (h : ∀ i w, e ≠ .done i w) : DoneOk a e :=
  fun i w he => absurd he (h i w)

theorem J03.frame {c c' : Core} (h : J03 c) {es : List Ev} (hd : ∀ r ∈ c'.dbT, r ∈ c.dbT) (ht : c'.tr = c.tr ++ es)
    (he : BeforeEv DoneOk (c.tr ++ es)) : J03 c' := by
  refine ⟨fun r hr => by rw [ht]; exact List.mem_append_left _ (h.pushed r (hd r hr)), by rw [ht]; exact he⟩

theorem CInv.txRow {c : Core} (h : CInv c) {m : Msg} (hm : m ∈ c.txq) : ∃ r ∈ c.dbT, r.iid = m.iid ∧ r.kind = m.kind := by
  have : m.key ∈ c.dbT.map Row.key := by rw [h.inv.eq]; simp; right; exact ⟨m, hm, rfl⟩
  obtain ⟨r, hr, he⟩ := List.mem_map.1 this
  simp only [Row.key, Msg.key, Prod.mk.injEq] at he
  exact ⟨r, hr, he⟩

theorem J03.micro {fl : Flags} {c c' : Core} (hC : CInv c) (h : J03 c) (hm : Micro fl c c') : J03 c' := by
  have sub : ∀ (w : DbWrite), (∀ q r, w ≠ .ins q r) → ∀ r ∈ w.onTable .tx c.dbT, r ∈ c.dbT := by
    intro w hw r hr
    cases w with
    | ins q r => exact absurd rfl (hw q r)
    | del q i y => simp only [DbWrite.onTable] at hr; split at hr; exact (List.mem_filter.1 hr).1; exact hr
    | clear q => simp only [DbWrite.onTable] at hr; split at hr; cases hr; exact hr
  cases hm with
  | ev e he => exact h.frame (fun r hr => hr) rfl (beforeEv_snoc h.ok (.other (by rintro i w rfl; simp [Ev.obs] at he)))
  | failed | accept | fulfilFresh | sendTx | sendN | retryTx | retryN =>
    exact h.frame (fun r hr => hr) rfl (beforeEv_snoc h.ok (.other (by simp)))
  | unreg | att | bump | failTx | failN | mapTx | faultNull | faultPromise => exact ⟨h.pushed, h.ok⟩
  | pushTx m hk hi ha hq =>
    refine ⟨?_, beforeEv_snoc h.ok (.other (by simp))⟩
    intro r hr
    simp only [Core.db, DbWrite.onTable, if_true, List.mem_append, List.mem_singleton] at hr ⊢
    rcases hr with hr | rfl
    · exact Or.inl (h.pushed r hr)
    · exact Or.inr rfl
  | pushN m nq' per hk hi ha hq hn =>
    cases per
    · exact h.frame (fun r hr => hr) rfl (beforeEv_snoc h.ok (.other (by simp)))
    · refine h.frame (es := [Ev.push m.iid m.kind]) ?_ rfl (beforeEv_snoc h.ok (.other (by simp)))
      intro r hr; simpa [Core.db, DbWrite.onTable] using hr
  | evictN m rest per hn =>
    have hb : BeforeEv DoneOk (c.tr ++ [Ev.done m.iid .evicted]) := by
      refine beforeEv_snoc h.ok ?_
      intro i w he hp
      simp only [Ev.done.injEq] at he
      rw [hC.inv.spec] at hp
      exact absurd (he.1 ▸ hp) (hC.nq_lt (m := m) (by rw [hn]; simp)).2
    cases per
    · exact h.frame (fun r hr => hr) rfl hb
    · exact h.frame (es := [Ev.done m.iid .evicted]) (sub (.del .normal m.iid .evicted) (by simp)) rfl hb
  | evictT m hm hu =>
    refine h.frame (es := [Ev.done m.iid .evicted]) (sub (.del .tx m.iid .evicted) (by simp)) rfl (beforeEv_snoc h.ok ?_)
    intro i w he hp
    simp only [Ev.done.injEq] at he
    obtain ⟨r, hr, e1, e2⟩ := hC.txRow hm
    have hk : m.kind = .txUpdate := by
      cases hk : m.kind <;> simp_all [Kind.isUpdate]
    have := h.pushed r hr
    rw [e1, e2, hk] at this
    exact Or.inr (Or.inr (Or.inl ⟨he.2.symm, by rw [← he.1]; exact this⟩))
  | failPop _ m m1 f pre post rest hi hq hs ha hnp hr hmid =>
    have h1 : BeforeEv DoneOk (c.tr ++ [Ev.fulfil m.iid true] ++ [Ev.done f.iid .popped]) := by
      refine beforeEv_snoc (beforeEv_snoc h.ok (.other (by simp))) ?_
      intro i w he hp
      simp only [Ev.done.injEq] at he
      rw [pendingTx_dull rfl, hC.inv.spec] at hp
      have : ∃ x ∈ c.nq, x.iid = f.iid := by
        cases pre with
        | nil => simp only [List.nil_append, List.cons.injEq] at hr hq; exact ⟨m, by rw [hq]; simp, by rw [← hr.1, hs.1]⟩
        | cons a pre => simp only [List.cons_append, List.cons.injEq] at hr; exact ⟨a, by rw [hq]; simp, by rw [hr.1]⟩
      obtain ⟨x, hx, e⟩ := this
      exact absurd (he.1 ▸ hp) (e ▸ (hC.nq_lt hx).2)
    refine ⟨?_, h1⟩
    intro r hr'
    simp only [List.append_assoc]
    exact List.mem_append_left _ (h.pushed r hr')
  | answer m per hi hnp ht =>
    have hb : BeforeEv DoneOk (c.tr ++ [Ev.fulfil m.iid false] ++ [Ev.answer m.uid m.iid] ++ [Ev.done m.iid .answered]) := by
      refine beforeEv_snoc (beforeEv_snoc (beforeEv_snoc h.ok (.other (by simp))) (.other (by simp))) ?_
      intro i w he _
      simp only [Ev.done.injEq] at he
      exact Or.inl ⟨he.2.symm, m.uid, by simp [he.1]⟩
    cases per
    · refine ⟨?_, hb⟩; intro r hr; simp only [List.append_assoc]; exact List.mem_append_left _ (h.pushed r hr)
    · refine ⟨?_, hb⟩; intro r hr
      have := h.pushed r (sub (.del (qOf m) m.iid .answered) (by simp) r hr)
      simp only [Core.db, List.append_assoc, if_true]; exact List.mem_append_left _ this
  | giveUp m off per hi hnp ht hA =>
    have hb : BeforeEv DoneOk (c.tr ++ [Ev.failed m.uid m.iid] ++ [Ev.fulfil m.iid off] ++ [Ev.done m.iid .gaveUp]) := by
      refine beforeEv_snoc (beforeEv_snoc (beforeEv_snoc h.ok (.other (by simp))) (.other (by simp))) ?_
      intro i w he _
      simp only [Ev.done.injEq] at he
      exact Or.inr (Or.inl ⟨he.2.symm, m.uid, by simp [he.1]⟩)
    cases per
    · refine ⟨?_, hb⟩; intro r hr; simp only [List.append_assoc]; exact List.mem_append_left _ (h.pushed r hr)
    · refine ⟨?_, hb⟩; intro r hr
      have := h.pushed r (sub (.del (qOf m) m.iid .gaveUp) (by simp) r hr)
      simp only [Core.db, List.append_assoc, if_true]; exact List.mem_append_left _ this

theorem beforeEv_append' {P : List Ev → Ev → Prop} {tr es : List Ev} (h : BeforeEv P tr)
    (he : ∀ a, (∃ l, a = tr ++ l) → ∀ e ∈ es, P a e) : BeforeEv P (tr ++ es) := by
  induction es generalizing tr with
  | nil => simpa using h
  | cons e es ih =>
    have : tr ++ e :: es = (tr ++ [e]) ++ es := by simp
    rw [this]
    refine ih (beforeEv_snoc h (he _ ⟨[], by simp⟩ e (by simp))) ?_
    rintro a ⟨l, rfl⟩ x hx
    exact he _ ⟨[e] ++ l, by simp⟩ x (by simp [hx])

theorem run_J03 (cfg : Cfg) (now : Int) (ops : List Op) (hops : ∀ op ∈ ops, op.isCrash = false) :
    J03 (run (init cfg now) ops).core := by
  refine run_core (J := J03) (fl := ⟨True, True, True, True⟩) (ok := fun _ op => op.isCrash = false)
    (fun s op _ => Flags.le_top _)
    (fun c ws h => ⟨h.pushed, h.ok⟩) (fun c c' hC h hm => h.micro hC hm) ?_ _ (init_sinv cfg now) ?_ ops
    (along_of_forall hops)
  · intro s p s' cfg ign op hop hS hJ ht hf hst
    obtain ⟨es, h1, _, h2⟩ := ht
    obtain ⟨rfl, h3⟩ := h2 hop
    obtain ⟨ds, h4, h5⟩ := hf.tr
    simp only [List.append_nil] at h1
    rw [h1] at h4
    have hp : ∀ r ∈ s.dbT, Ev.push r.iid r.kind ∈ s.trace := hJ.pushed
    constructor
    · intro r hr
      have e1 : r.key ∈ s'.dbT.map Row.key := List.mem_map.2 ⟨r, hr, rfl⟩
      rw [show List.map Row.key s'.dbT = _ from hf.inv.eq] at e1
      simp only [infTx, List.nil_append] at e1
      rw [hf.txKeys, h3] at e1
      obtain ⟨r0, hr0, e2⟩ := List.mem_map.1 e1
      simp only [Row.key, Prod.mk.injEq] at e2
      rw [← e2.1, ← e2.2]
      show _ ∈ s'.trace
      rw [h4, List.append_assoc]
      exact List.mem_append_left _ (hp r0 (List.mem_filter.1 hr0).1)
    · show BeforeEv _ s'.trace
      rw [h4]
      refine beforeEv_append' (beforeEv_snoc hJ.ok (.other (by simp))) ?_
      rintro a ⟨l, rfl⟩ e he i w hw _
      obtain ⟨r, hr, hk, rfl⟩ := h5 e he
      simp only [Ev.done.injEq] at hw
      right; right; right
      refine ⟨hw.2.symm, ?_⟩
      rw [h3] at hr
      have := hp r hr
      rw [hk, hw.1] at this
      simp [this, St.core]
  · constructor <;> simp [init, St.core, BeforeEv]

theorem run_J04 (cfg : Cfg) (now : Int) (ops : List Op) (hops : ∀ op ∈ ops, ∀ n, op ≠ .run (.setAttempts n)) :
    J04 (run (init cfg now) ops).core := by
  refine run_core (J := J04) (fl := ⟨True, False, True, True⟩) (ok := fun _ op => ∀ n, op ≠ .run (.setAttempts n)) ?_
    (fun c ws h => ⟨h.fresh, h.queued, h.flight, h.all, h.once⟩)
    (fun c c' hC h hm => h.micro id hC hm) ?_ _ (init_sinv cfg now) (J04.init cfg now) ops
    (along_of_forall hops)
  · intro s op ho
    refine ⟨fun _ => trivial, ?_, fun _ => trivial, fun _ => trivial⟩
    intro h
    cases op with
    | run b => obtain ⟨n, rfl⟩ := h; exact ho n rfl
    | crash => exact h
  · intro s p s' cfg ign op _ _ _ ht hf _
    exact J04.restart ht hf

theorem run_J05 (cfg : Cfg) (now : Int) (ops : List Op)
    (hops : ∀ op ∈ ops, op.isCrash = false ∧ op ≠ .run (.worker false) ∧ (∀ n, op ≠ .run (.setAttempts n)) ∧
      ∀ c ign, op = .run (.restart c ign) → c.attempts = cfg.attempts) :
    J05 cfg.attempts (run (init cfg now) ops).core := by
  refine run_core (J := J05 cfg.attempts) (fl := ⟨True, False, False, True⟩)
    (ok := fun _ op => op.isCrash = false ∧ op ≠ .run (.worker false) ∧ (∀ n, op ≠ .run (.setAttempts n)) ∧
      ∀ c ign, op = .run (.restart c ign) → c.attempts = cfg.attempts) ?_
    (fun c ws h => ⟨h.att, h.queued, h.flight, h.ok⟩)
    (fun c c' hC h hm => h.micro id id hC hm) ?_ _ (init_sinv cfg now) ?_ ops
    (along_of_forall hops)
  · intro s op ho
    refine ⟨fun _ => trivial, ?_, ?_, fun _ => trivial⟩
    · intro h
      cases op with
      | run b => obtain ⟨n, rfl⟩ := h; exact ho.2.2.1 n rfl
      | crash => exact h
    · intro h
      cases op with
      | run b => exact ho.2.1 (by rw [show b = _ from h])
      | crash => exact h
  · intro s p s' cfg' ign op ho _ hJ ht hf hop
    refine J05.restart hJ ho.1 ?_ ht hf
    rw [hf.cfg]
    cases op with
    | crash => simp [Op.isCrash] at ho
    | run b => exact ho.2.2.2 cfg' ign (by rw [hop b rfl])
  · constructor <;> simp [init, St.core, BeforeEv]

theorem run_J07 (cfg : Cfg) (now : Int) (ops : List Op)
    (hops : Along (fun s op => ∀ b, op = .run b → midFail s b = false) (init cfg now) ops) :
    J07 (run (init cfg now) ops).core := by
  refine run_core (J := J07) (fl := ⟨True, True, True, False⟩) (ok := fun s op => ∀ b, op = .run b → midFail s b = false) ?_
    (fun c ws h => ⟨h.tx, h.n, h.inf, h.ok⟩)
    (fun c c' hC h hm => h.micro id hC hm) ?_ _ (init_sinv cfg now) ?_ ops hops
  · intro s op ho
    refine ⟨fun _ => trivial, fun _ => trivial, fun _ => trivial, ?_⟩
    intro h
    cases op with
    | run b => have h1 := ho b rfl; rw [show midFail s b = true from h] at h1; cases h1
    | crash => exact h
  · intro s p s' cfg ign op _ _ _ ht hf _
    exact J07.restart hf
  · constructor <;> simp [init, St.core]

theorem run_J08 (cfg : Cfg) (now : Int) (ops : List Op) (hops : ∀ op ∈ ops, ∀ b, op = .run b → b.raw = false) :
    J08 (run (init cfg now) ops).core := by
  refine run_core (J := J08) (fl := ⟨False, True, True, True⟩) (ok := fun _ op => ∀ b, op = .run b → b.raw = false) ?_
    (fun c ws h => ⟨h.acc, h.reg, h.tx, h.n, h.inf, h.ok⟩)
    (fun c c' hC h hm => h.micro id hm) ?_ _ (init_sinv cfg now) ?_ ops (along_of_forall hops)
  · intro s op ho
    refine ⟨?_, fun _ => trivial, fun _ => trivial, fun _ => trivial⟩
    intro h
    cases op with
    | run b => have h1 := ho b rfl; rw [show b.raw = true from h] at h1; cases h1
    | crash => exact h
  · intro s p s' cfg ign op _ _ hJ ht hf _
    exact hJ.restart ht hf
  · constructor <;> simp [init, St.core, BeforeSend, acceptedNow]

/-! ## Promises (C07) -/

structure JP (c : Core) : Prop where
  zero : ∀ i, i ∉ c.ps → fulfilCount i (sinceRestart c.tr) = 0
  once : ∀ i, fulfilCount i (sinceRestart c.tr) ≤ 1

theorem JP.mem {c : Core} (h : JP c) (i : Nat) (off : Bool) (hm : .fulfil i off ∈ sinceRestart c.tr) : i ∈ c.ps := by
  refine Classical.byContradiction fun hc => ?_
  have := h.zero i hc
  rw [fulfilCount, List.countP_eq_zero] at this
  have := this _ hm
  simp at this

def Ev.noPromise : Ev → Bool
  | .fulfil _ _ | .restart => false
  | _ => true

theorem fc_other {e : Ev} (h : e.noPromise = true) (tr : List Ev) (i : Nat) :
    fulfilCount i (sinceRestart (tr ++ [e])) = fulfilCount i (sinceRestart tr) := by
  have : sinceRestart (tr ++ [e]) = sinceRestart tr ++ [e] := by
    rw [sinceRestart, List.foldl_append]; cases e <;> simp_all [Ev.noPromise, sinceStep, sinceRestart]
  rw [this]; simp only [fulfilCount, List.countP_append]
  cases e <;> simp_all [Ev.noPromise]

theorem fc_fulfil (tr : List Ev) (j : Nat) (off : Bool) (i : Nat) :
    fulfilCount i (sinceRestart (tr ++ [.fulfil j off])) = fulfilCount i (sinceRestart tr) + (if j = i then 1 else 0) := by
  have : sinceRestart (tr ++ [.fulfil j off]) = sinceRestart tr ++ [.fulfil j off] := by
    rw [sinceRestart, List.foldl_append]; simp [sinceStep, sinceRestart]
  rw [this]; simp only [fulfilCount, List.countP_append]
  by_cases h : j = i <;> simp [h]

theorem JP.frame {c c' : Core} (h : JP c) (e : Ev) (he : e.noPromise = true) (ht : c'.tr = c.tr ++ [e]) (hp : c'.ps = c.ps) :
    JP c' := by
  constructor
  · rw [ht, hp]; intro i hi; rw [fc_other he]; exact h.zero i hi
  · rw [ht]; intro i; rw [fc_other he]; exact h.once i

theorem JP.same {c c' : Core} (h : JP c) (ht : c'.tr = c.tr) (hp : c'.ps = c.ps) : JP c' := by
  constructor
  · rw [ht, hp]; exact h.zero
  · rw [ht]; exact h.once

theorem JP.fulfil {c c' : Core} (h : JP c) (j : Nat) (off : Bool) (hj : j ∉ c.ps)
    (ht : c'.tr = c.tr ++ [.fulfil j off]) (hp : c'.ps = j :: c.ps) : JP c' := by
  constructor
  · rw [ht, hp]; intro i hi
    simp only [List.mem_cons, not_or] at hi
    rw [fc_fulfil, h.zero i hi.2, if_neg (fun e => hi.1 e.symm)]
  · rw [ht]; intro i; rw [fc_fulfil]
    split
    · rename_i e; subst e; rw [h.zero j hj]; exact Nat.le_refl _
    · exact h.once i

theorem JP.micro {fl : Flags} {c c' : Core} (hC : CInv c) (h : JP c) (hm : Micro fl c c') : JP c' := by
  cases hm with
  | ev e he => exact h.frame e (by cases e <;> simp_all [Ev.obs, Ev.noPromise]) rfl rfl
  | failed | accept | sendTx | sendN | retryTx | retryN => exact h.frame _ rfl rfl rfl
  | unreg | att | bump | failTx | failN | mapTx | faultNull | faultPromise => exact h.same rfl rfl
  | fulfilFresh off => exact h.fulfil _ off (fun hc => by have := hC.psLt _ hc; omega) rfl rfl
  | pushTx => exact h.frame _ rfl rfl rfl
  | pushN m nq' per => cases per <;> exact h.frame _ rfl rfl rfl
  | evictN m rest per => cases per <;> exact h.frame _ rfl rfl rfl
  | evictT => exact h.frame _ rfl rfl rfl
  | failPop _ m m1 f pre post rest hi hq hs ha hnp hr hmid =>
    have h1 : JP { c with ps := m.iid :: c.ps, tr := c.tr ++ [Ev.fulfil m.iid true] } := h.fulfil _ true hnp rfl rfl
    exact h1.frame (.done f.iid .popped) rfl rfl rfl
  | answer m per hi hnp ht =>
    have h1 : JP { c with ps := m.iid :: c.ps, tr := c.tr ++ [Ev.fulfil m.iid false] } := h.fulfil _ false hnp rfl rfl
    have h2 : JP { c with ps := m.iid :: c.ps, tr := c.tr ++ [Ev.fulfil m.iid false] ++ [Ev.answer m.uid m.iid] } :=
      h1.frame (.answer m.uid m.iid) rfl rfl rfl
    cases per <;> exact h2.frame (.done m.iid .answered) rfl rfl rfl
  | giveUp m off per hi hnp ht hA =>
    have h1 : JP { c with tr := c.tr ++ [Ev.failed m.uid m.iid] } := h.frame (.failed m.uid m.iid) rfl rfl rfl
    have h2 : JP { c with ps := m.iid :: c.ps, tr := c.tr ++ [Ev.failed m.uid m.iid] ++ [Ev.fulfil m.iid off] } :=
      h1.fulfil m.iid off hnp rfl rfl
    cases per <;> exact h2.frame (.done m.iid .gaveUp) rfl rfl rfl

theorem run_JP (cfg : Cfg) (now : Int) (ops : List Op) : JP (run (init cfg now) ops).core := by
  refine run_core (J := JP) (fl := ⟨True, True, True, True⟩) (ok := fun _ _ => True) (fun s op _ => Flags.le_top _)
    (fun c ws h => ⟨h.zero, h.once⟩) (fun c c' hC h hm => h.micro hC hm) ?_ _ (init_sinv cfg now) ?_ ops
    (along_true _ _)
  · intro s p s' cfg ign op _ _ _ ht hf _
    have : ∀ i, fulfilCount i (sinceRestart s'.trace) = 0 := by
      intro i
      obtain ⟨es, ds, e1, e2, e3⟩ := restart_events ht hf
      have h2 : ∀ (ds t : List Ev), (∀ e ∈ ds, ∃ i, e = .done i .ignored) →
          fulfilCount i (sinceRestart t) = 0 → fulfilCount i (sinceRestart (t ++ ds)) = 0 := by
        intro ds
        induction ds with
        | nil => intro t _ h; simpa using h
        | cons d ds ih =>
          intro t hd h
          have : t ++ d :: ds = (t ++ [d]) ++ ds := by simp
          rw [this]
          obtain ⟨j, rfl⟩ := hd d (by simp)
          exact ih _ (fun e he => hd e (by simp [he])) (by rw [fc_other rfl]; exact h)
      rw [e1]
      refine h2 ds _ e3 ?_
      rw [since_snoc]; rfl
    constructor
    · intro i _; exact this i
    · intro i; show fulfilCount i (sinceRestart s'.trace) ≤ 1; rw [this i]; exact Nat.zero_le _
  · constructor <;> simp [init, St.core, fulfilCount, sinceRestart]

/-- `Along` for a decidable condition. -/
def alongB (ok : St → Op → Bool) : St → List Op → Bool
  | _, [] => true
  | s, op :: ops => ok s op && alongB ok (step s op) ops

def midOk (s : St) : Op → Bool
  | .run b => !midFail s b
  | .crash _ _ _ _ => true

theorem along_of_check (s : St) (ops : List Op) (h : alongB midOk s ops = true) :
    Along (fun s op => ∀ b, op = .run b → midFail s b = false) s ops := by
  induction ops generalizing s with
  | nil => trivial
  | cons op ops ih =>
    simp only [alongB, Bool.and_eq_true] at h
    refine ⟨?_, ih _ h.2⟩
    rintro b rfl
    simpa [midOk] using h.1

end Verif.MQ
