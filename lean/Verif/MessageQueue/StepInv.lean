import Verif.MessageQueue.Decomp

/-! # The core invariant holds in every reachable state -/

namespace Verif.MQ

set_option linter.unusedSimpArgs false

structure CInv (c : Core) : Prop where
  inv : InvC c.txq c.nq c.inf c.dbN c.dbT c.nextId c.tr
  psLt : ∀ i ∈ c.ps, i < c.nextId

theorem update_isTx {k : Kind} (h : k.isUpdate = true) : k.isTx = true := by
  cases k <;> simp_all [Kind.isUpdate, Kind.isTx]

theorem InvC.txqNodup {txq nq inf dbN dbT n tr} (h : InvC txq nq inf dbN dbT n tr) : (txq.map Msg.iid).Nodup := by
  have hs := h.sorted
  rw [h.ids, List.pairwise_append] at hs
  exact hs.2.1.imp (fun h => Nat.ne_of_lt h)

theorem InvC.inf_not_txq {txq nq inf dbN dbT n tr} (h : InvC txq nq inf dbN dbT n tr) {m : Msg} (hm : m ∈ txq) :
    m.iid ∉ (infTx inf).map Prod.fst := by
  have hs := h.sorted
  rw [h.ids, List.pairwise_append] at hs
  intro hc
  have := hs.2.2 _ hc m.iid (List.mem_map.2 ⟨m, hm, rfl⟩)
  omega

theorem onTable_del_tx (dbN dbT : List Row) (i : Nat) (w : Reason) :
    (DbWrite.del .tx i w).onTable .normal dbN = dbN ∧
    (DbWrite.del .tx i w).onTable .tx dbT = dbT.filter (fun r => r.iid != i) := by
  simp [DbWrite.onTable]

theorem onTable_del_normal (dbN dbT : List Row) (i : Nat) (w : Reason) :
    (DbWrite.del .normal i w).onTable .tx dbT = dbT ∧
    (DbWrite.del .normal i w).onTable .normal dbN = dbN.filter (fun r => r.iid != i) := by
  simp [DbWrite.onTable]

theorem InvC.nqMid {txq dbN dbT n tr inf} {pre post : List Msg} {m : Msg}
    (h : InvC txq (pre ++ m :: post) inf dbN dbT n tr) : m.kind.isTx = false ∧ m.iid ∉ dbT.map Row.iid :=
  ⟨h.nqKind m (by simp), h.nDisj _ (by simp)⟩

/-- Removal of one element of the normal queue. -/
theorem InvC.nqDrop {txq nq dbN dbT n tr inf} {rest : List Msg} {m : Msg}
    (h : InvC txq nq inf dbN dbT n tr) (hn : nq = m :: rest) (w : Reason) :
    InvC txq rest inf dbN dbT n (tr ++ [.done m.iid w]) := by
  subst hn
  refine (h.doneN m.iid w (h.nDisj _ (by simp))).nSub rest inf rfl (fun x hx => h.nqKind x (by simp [hx]))
    ⟨infN inf ++ rest.map Msg.iid, .refl _, ?_⟩
  exact List.Sublist.append (List.Sublist.refl _) (by simp)

theorem CInv.micro {fl : Flags} {c c' : Core} (h : CInv c) (hm : Micro fl c c') : CInv c' := by
  obtain ⟨h, hp⟩ := h
  cases hm with
  | ev e he => exact ⟨h.dull (by cases e <;> simp_all [Ev.obs, Ev.dull]), hp⟩
  | failed m hi => exact ⟨h.dull rfl, hp⟩
  | accept => exact ⟨h.dull rfl, hp⟩
  | unreg => exact ⟨h, hp⟩
  | att n _ => exact ⟨h, hp⟩
  | bump => exact ⟨h.next (Nat.le_succ _), fun i hi => Nat.lt_succ_of_lt (hp i hi)⟩
  | fulfilFresh off =>
    refine ⟨(h.next (Nat.le_succ _)).dull rfl, ?_⟩
    intro i hi; simp at hi; rcases hi with rfl | hi
    · exact Nat.lt_succ_self _
    · exact Nat.lt_succ_of_lt (hp i hi)
  | pushTx m hk hi ha hq =>
    refine ⟨?_, fun i hi => Nat.lt_succ_of_lt (hp i hi)⟩
    have := h.pushTx hk hi ha
    simpa [Core.db, DbWrite.onTable] using this
  | pushN m nq' per hk hi ha hq hn =>
    cases per
    · exact ⟨h.pushN hk hi nq' hn _ (Or.inl rfl), fun i hi => Nat.lt_succ_of_lt (hp i hi)⟩
    · refine ⟨?_, fun i hi => Nat.lt_succ_of_lt (hp i hi)⟩
      have := h.pushN hk hi nq' hn _ (Or.inr rfl)
      simpa [Core.db, DbWrite.onTable] using this
  | evictN m rest per hn =>
    have := h.nqDrop hn .evicted
    cases per
    · exact ⟨this, hp⟩
    · refine ⟨?_, hp⟩
      have := this.dbNSub (c.dbN.filter (fun r => r.iid != m.iid)) List.filter_sublist
      simpa [Core.db, DbWrite.onTable] using this
  | evictT m hm hu =>
    refine ⟨?_, hp⟩
    have := h.evict m.iid (h.inf_not_txq hm) .evicted
    simpa [Core.db, DbWrite.onTable] using this
  | sendTx m m1 rest hi hq hs ha hal =>
    have e1 := h; rw [hq, hi] at e1
    exact ⟨e1.sendTx (sameMsg_key hs), hp⟩
  | sendN m m1 pre post hi hq hs ha hal =>
    have e1 := h; rw [hq, hi] at e1
    refine ⟨e1.sendN (by rw [hs.2.1]; exact e1.nqMid.1) ?_ ?_, hp⟩
    · rw [hs.1]; simp only [List.map_append, List.map_cons]; exact List.perm_middle.symm
    · intro x hx; simp at hx ⊢; grind
  | failTx _ m m1 rest hi hq hs ha =>
    exact ⟨h.sameKeys _ _ (by rw [hq]; simp [sameMsg_key hs]) rfl, hp⟩
  | failN _ m m1 pre post hi hq hs ha =>
    exact ⟨h.sameKeys _ _ rfl (by rw [hq]; simp [sameMsg_key hs]), hp⟩
  | failPop _ m m1 f pre post rest hi hq hs ha hnp hr _ =>
    have h1 := h.sameKeys c.txq (pre ++ m1 :: post) rfl (by rw [hq]; simp [sameMsg_key hs])
    have h2 := (h1.dull (e := .fulfil m.iid true) rfl).nqDrop hr .popped
    refine ⟨h2, ?_⟩
    intro i hi; simp at hi; rcases hi with rfl | hi
    · exact h.nLt _ (by rw [hq]; simp)
    · exact hp i hi
  | answer m per hi hnp ht =>
    rw [hi] at h
    have h1 := (h.dull (e := .fulfil m.iid false) rfl).dull (e := .answer m.uid m.iid) rfl
    have hlt : m.iid < c.nextId := by
      cases hk : m.kind.isTx
      · exact h.nLt _ (by simp [infN, hk])
      · have : m.iid ∈ c.dbT.map Row.iid := by rw [h.ids]; simp [infTx, hk, Msg.key]
        obtain ⟨r, hr, he⟩ := List.mem_map.1 this
        rw [← he]; exact h.lt r hr
    have hps : ∀ i ∈ m.iid :: c.ps, i < c.nextId := by
      intro i hi; simp at hi; rcases hi with rfl | hi
      · exact hlt
      · exact hp i hi
    cases hk : m.kind.isTx
    · have h2 := h1.finishN hk .answered
      cases per
      · exact ⟨h2, hps⟩
      · refine ⟨?_, hps⟩
        have := h2.dbNSub (c.dbN.filter (fun r => r.iid != m.iid)) List.filter_sublist
        simpa [Core.db, DbWrite.onTable, qOf, hk] using this
    · have h2 := h1.finishTx hk .answered
      have := ht hk; subst this
      refine ⟨?_, hps⟩
      simpa [Core.db, DbWrite.onTable, qOf, hk] using h2
  | giveUp m off per hi hnp ht hA =>
    rw [hi] at h
    have h1 := (h.dull (e := .failed m.uid m.iid) rfl).dull (e := .fulfil m.iid off) rfl
    have hlt : m.iid < c.nextId := by
      cases hk : m.kind.isTx
      · exact h.nLt _ (by simp [infN, hk])
      · have : m.iid ∈ c.dbT.map Row.iid := by rw [h.ids]; simp [infTx, hk, Msg.key]
        obtain ⟨r, hr, he⟩ := List.mem_map.1 this
        rw [← he]; exact h.lt r hr
    have hps : ∀ i ∈ m.iid :: c.ps, i < c.nextId := by
      intro i hi; simp at hi; rcases hi with rfl | hi
      · exact hlt
      · exact hp i hi
    cases hk : m.kind.isTx
    · have h2 := h1.finishN hk .gaveUp
      cases per
      · exact ⟨h2, hps⟩
      · refine ⟨?_, hps⟩
        have := h2.dbNSub (c.dbN.filter (fun r => r.iid != m.iid)) List.filter_sublist
        simpa [Core.db, DbWrite.onTable, qOf, hk] using this
    · have h2 := h1.finishTx hk .gaveUp
      have := ht hk; subst this
      refine ⟨?_, hps⟩
      simpa [Core.db, DbWrite.onTable, qOf, hk] using h2
  | retryTx m m' hi hk hs ha hA =>
    rw [hi] at h
    exact ⟨((h.requeueTx hk (sameMsg_key hs)).next (Nat.le_succ _)).dull rfl, fun i hi => Nat.lt_succ_of_lt (hp i hi)⟩
  | retryN m m' hi hk hs ha hA =>
    rw [hi] at h
    exact ⟨((h.requeueN hk (sameMsg_key hs)).next (Nat.le_succ _)).dull rfl, fun i hi => Nat.lt_succ_of_lt (hp i hi)⟩
  | mapTx f hf =>
    refine ⟨h.sameKeys _ _ ?_ rfl, hp⟩
    simp only [List.map_map]
    exact List.map_congr_left (fun x _ => sameMsg_key (hf x).1)
  | faultNull _ => exact ⟨h, hp⟩
  | faultPromise m _ _ => exact ⟨h, hp⟩

theorem CInv.micros {fl : Flags} {c c' : Core} (h : CInv c) (hm : Micros fl c c') : CInv c' := by
  induction hm with
  | refl => exact h
  | tail _ h2 ih => exact ih.micro h2

/-! ## Database contents at an interruption point -/

def DbInv (dbN dbT : List Row) (n : Nat) (tr : List Ev) : Prop := InvC (dbT.map Row.load) [] none dbN dbT n tr

/-- `w` is a legitimate write on these tables. -/
def WOk (dbN dbT : List Row) (n n' : Nat) (w : DbWrite) : Prop :=
  ∀ tr, DbInv dbN dbT n tr → DbInv (w.onTable .normal dbN) (w.onTable .tx dbT) n' (tr ++ w.ev)

theorem WOk.delTx (dbN dbT : List Row) (n : Nat) (i : Nat) (w : Reason) : WOk dbN dbT n n (.del .tx i w) := by
  intro tr h
  have := (h.evict i (by simp [infTx]) w).crash
  simpa [DbInv, DbWrite.onTable, DbWrite.ev] using this

theorem WOk.delN {dbN dbT : List Row} (n : Nat) {i : Nat} (w : Reason) (hi : i ∉ dbT.map Row.iid) :
    WOk dbN dbT n n (.del .normal i w) := by
  intro tr h
  have := ((h.doneN i w hi).dbNSub (dbN.filter (fun r => r.iid != i)) List.filter_sublist).crash
  simpa [DbInv, DbWrite.onTable, DbWrite.ev] using this

theorem WOk.clear (dbN dbT : List Row) (n : Nat) : WOk dbN dbT n n (.clear .normal) := by
  intro tr h
  have := (h.dbNSub [] (by simp)).crash
  simpa [DbInv, DbWrite.onTable, DbWrite.ev] using this

theorem WOk.insTx (dbN dbT : List Row) (n : Nat) (m : Msg) (hk : m.kind.isTx = true) (hi : m.iid = n)
    (ha : m.attempts = 0) : WOk dbN dbT n (n + 1) (.ins .tx m.row) := by
  intro tr h
  have := (h.pushTx hk hi ha).crash
  simpa [DbInv, DbWrite.onTable, DbWrite.ev, Msg.row] using this

theorem WOk.insN (dbN dbT : List Row) (n : Nat) (m : Msg) (hk : m.kind.isTx = false) (hi : m.iid = n) :
    WOk dbN dbT n (n + 1) (.ins .normal m.row) := by
  intro tr h
  have := (h.pushN hk hi [m] (Or.inr rfl) (dbN ++ [m.row]) (Or.inr rfl)).crash
  simpa [DbInv, DbWrite.onTable, DbWrite.ev, Msg.row] using this

/-- A micro step writes at most once, and legitimately. -/
theorem micro_write {fl : Flags} {c c' : Core} (h : CInv c) (hm : Micro fl c c') :
    (c'.ws = c.ws ∧ c'.dbN = c.dbN ∧ c'.dbT = c.dbT ∧ c.nextId ≤ c'.nextId) ∨
    ∃ w, c'.ws = c.ws ++ [w] ∧ c'.dbN = w.onTable .normal c.dbN ∧ c'.dbT = w.onTable .tx c.dbT ∧
      WOk c.dbN c.dbT c.nextId c'.nextId w := by
  have hI := h.inv
  cases hm with
  | pushTx m hk hi ha hq => exact Or.inr ⟨_, rfl, rfl, rfl, WOk.insTx _ _ _ m hk hi ha⟩
  | pushN m nq' per hk hi ha hq hn =>
    cases per
    · exact Or.inl ⟨rfl, rfl, rfl, Nat.le_succ _⟩
    · exact Or.inr ⟨_, rfl, rfl, rfl, WOk.insN _ _ _ m hk hi⟩
  | evictN m rest per hn =>
    cases per
    · exact Or.inl ⟨rfl, rfl, rfl, Nat.le_refl _⟩
    · refine Or.inr ⟨_, rfl, rfl, rfl, WOk.delN _ _ ?_⟩
      exact hI.nDisj _ (by rw [hn]; simp)
  | evictT m hm hu => exact Or.inr ⟨_, rfl, rfl, rfl, WOk.delTx _ _ _ _ _⟩
  | answer m per hi hnp ht =>
    cases per
    · exact Or.inl ⟨rfl, rfl, rfl, Nat.le_refl _⟩
    · refine Or.inr ⟨_, rfl, rfl, rfl, ?_⟩
      cases hk : m.kind.isTx
      · simp only [qOf, hk]
        exact WOk.delN _ _ (hI.nDisj _ (by rw [hi]; simp [infN, hk]))
      · simp only [qOf, hk]
        exact WOk.delTx _ _ _ _ _
  | giveUp m off per hi hnp ht hA =>
    cases per
    · exact Or.inl ⟨rfl, rfl, rfl, Nat.le_refl _⟩
    · refine Or.inr ⟨_, rfl, rfl, rfl, ?_⟩
      cases hk : m.kind.isTx
      · simp only [qOf, hk]
        exact WOk.delN _ _ (hI.nDisj _ (by rw [hi]; simp [infN, hk]))
      · simp only [qOf, hk]
        exact WOk.delTx _ _ _ _ _
  | ev | failed | accept | unreg | att | sendTx | sendN | failTx | failN | failPop | mapTx | faultNull | faultPromise =>
    exact Or.inl ⟨rfl, rfl, rfl, Nat.le_refl _⟩
  | bump | fulfilFresh | retryTx | retryN => exact Or.inl ⟨rfl, rfl, rfl, Nat.le_succ _⟩

/-- The writes `ws` took the tables from `(dbN, dbT)` to `(dbN', dbT')`, and every prefix of them leaves a good database. -/
structure Cut (dbN dbT : List Row) (tr : List Ev) (ws : List DbWrite) (dbN' dbT' : List Row) (n' : Nat) : Prop where
  endN : ws.foldl (fun t w => w.onTable .normal t) dbN = dbN'
  endT : ws.foldl (fun t w => w.onTable .tx t) dbT = dbT'
  good : ∀ k, DbInv ((ws.take k).foldl (fun t w => w.onTable .normal t) dbN)
    ((ws.take k).foldl (fun t w => w.onTable .tx t) dbT) n' (tr ++ (ws.take k).flatMap DbWrite.ev)

theorem DbInv.next {dbN dbT n tr} (h : DbInv dbN dbT n tr) {n' : Nat} (hn : n ≤ n') : DbInv dbN dbT n' tr :=
  InvC.next h hn

theorem Cut.refl {dbN dbT n tr} (h : DbInv dbN dbT n tr) : Cut dbN dbT tr [] dbN dbT n :=
  ⟨rfl, rfl, fun k => by simpa using h⟩

theorem Cut.next {dbN dbT tr ws dbN' dbT' n n'} (h : Cut dbN dbT tr ws dbN' dbT' n) (hn : n ≤ n') :
    Cut dbN dbT tr ws dbN' dbT' n' := ⟨h.endN, h.endT, fun k => (h.good k).next hn⟩

theorem Cut.snoc {dbN dbT tr ws dbN' dbT' n n' w} (h : Cut dbN dbT tr ws dbN' dbT' n) (hn : n ≤ n')
    (hw : WOk dbN' dbT' n n' w) : Cut dbN dbT tr (ws ++ [w]) (w.onTable .normal dbN') (w.onTable .tx dbT') n' := by
  refine ⟨by simp [h.endN], by simp [h.endT], ?_⟩
  intro k
  by_cases hk : k ≤ ws.length
  · rw [List.take_append_of_le_length hk]
    exact (h.good k).next hn
  · rw [List.take_of_length_le (by simp; omega)]
    have h1 := h.good ws.length
    rw [List.take_length, h.endN, h.endT] at h1
    have := hw _ h1
    simpa [List.foldl_append, h.endN, h.endT] using this

theorem WOk_mono_n {fl : Flags} {c c' : Core} (hm : Micro fl c c') : c.nextId ≤ c'.nextId := by
  cases hm with
  | pushN m nq' per => cases per <;> exact Nat.le_succ _
  | evictN m rest per => cases per <;> exact Nat.le_refl _
  | answer m per => cases per <;> exact Nat.le_refl _
  | giveUp m off per => cases per <;> exact Nat.le_refl _
  | pushTx | bump | fulfilFresh | retryTx | retryN => exact Nat.le_succ _
  | _ => exact Nat.le_refl _

theorem cut_micros {fl : Flags} {c c' : Core} (h : CInv c) (hm : Micros fl c c') :
    ∃ ws, c'.ws = c.ws ++ ws ∧ Cut c.dbN c.dbT c.tr ws c'.dbN c'.dbT c'.nextId := by
  induction hm with
  | refl => exact ⟨[], by simp, Cut.refl h.inv.crash⟩
  | tail h1 h2 ih =>
    obtain ⟨ws, e, hc⟩ := ih
    have hmid := h.micros h1
    rcases micro_write hmid h2 with ⟨a, b, d, l⟩ | ⟨w, a, b, d, hw⟩
    · exact ⟨ws, by rw [a, e], by rw [b, d]; exact hc.next l⟩
    · refine ⟨ws ++ [w], by rw [a, e, List.append_assoc], ?_⟩
      rw [b, d]
      exact hc.snoc (WOk_mono_n h2) hw

/-! ## Restart -/

theorem loadRows_normal (rows : List Row) (s : St) (b : Bool) (hk : ∀ r ∈ rows, r.kind.isTx = false) :
    s.loadRows .normal b rows = { s with nq := s.nq ++ rows.map Row.load } := by
  induction rows generalizing s with
  | nil => simp [St.loadRows]
  | cons r rest ih =>
    have : r.kind ≠ Kind.secEvent := by
      intro h; have := hk r (by simp); rw [h] at this; simp [Kind.isTx] at this
    unfold St.loadRows
    simp only [this, decide_false, Bool.and_false, Bool.false_eq_true, if_false]
    rw [ih _ (fun x hx => hk x (by simp [hx]))]
    simp

theorem InvC.loadN {txq dbN dbT n tr} (h : InvC txq [] none dbN dbT n tr) :
    InvC txq (dbN.map Row.load) none dbN dbT n tr := by
  have e : (dbN.map Row.load).map Msg.iid = dbN.map Row.iid := by
    simp [Function.comp_def, Row.load]
  obtain ⟨h1, h2, h3, h4, h5, h6, h7, h8, h9, h10, h11, h12, h13, h14, h15, h16, h17, h18⟩ := h
  refine ⟨h1, h2, h3, h4, ?_, ?_, ?_, ?_, h9, h10, h11, h12, h13, h14, h15, h16, h17, h18⟩
  · intro m hm; obtain ⟨r, hr, rfl⟩ := List.mem_map.1 hm; exact h9 r hr
  · simp only [infN, List.nil_append, e]
    intro i hi; obtain ⟨r, hr, rfl⟩ := List.mem_map.1 hi; exact h10 r hr
  · simp only [infN, List.nil_append, e]
    intro i hi; obtain ⟨r, hr, rfl⟩ := List.mem_map.1 hi; exact h11 r hr
  · simpa only [infN, List.nil_append, e] using h12

/-- What loading the transaction table leaves alone. -/
structure LoadSame (s s' : St) : Prop where
  nq : s'.nq = s.nq
  inFlight : s'.inFlight = s.inFlight
  dbN : s'.dbN = s.dbN
  nextId : s'.nextId = s.nextId
  rest : s' = { s with txq := s'.txq, dbT := s'.dbT, trace := s'.trace, writes := s'.writes }

theorem loadRows_tx (rows : List Row) (s : St) (b : Bool)
    (h : InvC (s.txq ++ rows.map Row.load) s.nq none s.dbN s.dbT s.nextId s.trace)
    (h0 : ∀ r ∈ rows, r.attempts = 0) :
    InvC (s.loadRows .tx b rows).txq s.nq none s.dbN (s.loadRows .tx b rows).dbT s.nextId (s.loadRows .tx b rows).trace ∧
    LoadSame s (s.loadRows .tx b rows) ∧
    (∃ ds, (s.loadRows .tx b rows).trace = s.trace ++ ds ∧
      ∀ e ∈ ds, ∃ r ∈ rows, r.kind = Kind.secEvent ∧ e = .done r.iid .ignored) ∧
    (∃ l, (s.loadRows .tx b rows).txq = s.txq ++ l ∧ ∀ m ∈ l, m.stall = true ∧ m.attempts = 0 ∧ m.trig = false) ∧
    (s.loadRows .tx b rows).txq.map Msg.key =
      s.txq.map Msg.key ++ (rows.filter (fun r => !(b && decide (r.kind = Kind.secEvent)))).map Row.key := by
  induction rows generalizing s with
  | nil =>
    simp only [St.loadRows]
    exact ⟨by simpa using h, ⟨rfl, rfl, rfl, rfl, rfl⟩, ⟨[], by simp, by simp⟩, ⟨[], by simp, by simp⟩, by simp⟩
  | cons r rest ih =>
    unfold St.loadRows
    split
    · rename_i hc
      let s1 : St := (s.db (.del .tx r.iid .ignored)).emit (.done r.iid .ignored)
      have hnd := h.txqNodup
      have hev := h.evict r.iid (by simp [infTx]) .ignored
      have hfil : (s.txq ++ (r :: rest).map Row.load).filter (fun m => m.iid != r.iid) = s.txq ++ rest.map Row.load := by
        simp only [List.map_append, List.map_cons, List.map_map] at hnd
        rw [List.filter_append, List.map_cons, List.filter_cons_of_neg (by simp [Row.load])]
        rw [List.nodup_append] at hnd
        obtain ⟨_, n2, n3⟩ := hnd
        rw [List.nodup_cons] at n2
        congr 1
        · rw [List.filter_eq_self]
          intro a ha
          have := n3 a.iid (List.mem_map.2 ⟨a, ha, rfl⟩) r.iid (by simp [Row.load])
          simpa using this
        · rw [List.filter_eq_self]
          intro a ha
          obtain ⟨x, hx, rfl⟩ := List.mem_map.1 ha
          simp only [bne_iff_ne, ne_eq, Row.load]
          intro he
          exact n2.1 (List.mem_map.2 ⟨x, hx, by simp [Row.load, he]⟩)
      rw [hfil] at hev
      obtain ⟨i1, i2, ⟨ds, i3, i4⟩, ⟨l, i5, i6⟩, i7⟩ := ih s1 (by simpa [s1, St.emit, St.db, DbWrite.onTable] using hev)
        (fun x hx => h0 x (by simp [hx]))
      refine ⟨by simpa [s1, St.emit, St.db, DbWrite.onTable] using i1, ?_, ?_, ⟨l, i5, i6⟩, ?_⟩
      · have eN : s1.dbN = s.dbN := by simp [s1, St.emit, St.db, DbWrite.onTable]
        refine ⟨i2.nq, i2.inFlight, by rw [i2.dbN]; exact eN, i2.nextId, ?_⟩
        have := i2.rest
        generalize s1.loadRows .tx b rest = z at this ⊢
        rw [this]
        simp [s1, St.emit, St.db, DbWrite.onTable]
      · refine ⟨.done r.iid .ignored :: ds, ?_, ?_⟩
        · rw [i3]; simp [s1, St.emit, St.db]
        · intro e he; simp at he; rcases he with rfl | he
          · exact ⟨r, by simp, by simp at hc; exact hc.2, rfl⟩
          · obtain ⟨x, hx, hx'⟩ := i4 e he
            exact ⟨x, by simp [hx], hx'⟩
      · rw [i7, List.filter_cons_of_neg (by simpa using hc)]; rfl
    · rename_i hc
      simp only
      obtain ⟨i1, i2, ⟨ds, i3, i4⟩, ⟨l, i5, i6⟩, i7⟩ := ih { s with txq := s.txq ++ [r.load] } (by simpa using h)
        (fun x hx => h0 x (by simp [hx]))
      refine ⟨i1, ?_, ⟨ds, i3, fun e he => let ⟨x, hx, hx'⟩ := i4 e he; ⟨x, by simp [hx], hx'⟩⟩, ⟨r.load :: l, by rw [i5]; simp, ?_⟩, ?_⟩
      · refine ⟨i2.nq, i2.inFlight, i2.dbN, i2.nextId, ?_⟩
        have := i2.rest
        generalize ({ s with txq := s.txq ++ [r.load] } : St).loadRows .tx b rest = z at this ⊢
        rw [this]
      · intro m hm; simp at hm; rcases hm with rfl | hm
        · exact ⟨rfl, h0 r (by simp), rfl⟩
        · exact i6 m hm
      · rw [i7, List.filter_cons_of_pos (by revert hc; cases b <;> simp)]
        simp [Row.load, Msg.key, Row.key]

/-- Everything the invariants need to know about a restart. -/
structure RestartFacts (s s' : St) (cfg : Cfg) (ign : Bool) : Prop where
  inv : InvC s'.txq s'.nq none s'.dbN s'.dbT s'.nextId s'.trace
  inFlight : s'.inFlight = none
  ps : s'.promiseSet = []
  acc : s'.accepted = false
  reg : s'.reg = false
  fault : s'.fault = none
  cfg : s'.cfg = cfg
  paused : s'.paused = true
  hold : s'.hold = none
  pend : s'.pendT = 0 ∧ s'.pendE = 0 ∧ s'.timerArmed = false
  cbs : s'.resumeCbs = [] ∧ s'.ctr = 0
  now : s'.now = s.now
  nextId : s'.nextId = s.nextId
  tr : ∃ ds, s'.trace = s.trace ++ [.restart] ++ ds ∧
    ∀ e ∈ ds, ∃ r ∈ s.dbT, r.kind = Kind.secEvent ∧ e = .done r.iid .ignored
  stallT : ∀ m ∈ s'.txq, m.stall = true ∧ m.attempts = 0 ∧ m.trig = false
  stallN : ∀ m ∈ s'.nq, m.stall = true ∧ m.trig = false
  txKeys : s'.txq.map Msg.key = (s.dbT.filter (fun r => !(ign && decide (r.kind = Kind.secEvent)))).map Row.key
  newMsg : (s'.txq ≠ [] ∨ s'.nq ≠ []) → s'.newMsg = true

theorem restart_facts (s : St) (cfg : Cfg) (ign : Bool) (h : DbInv s.dbN s.dbT s.nextId s.trace) :
    RestartFacts s (s.restart cfg ign) cfg ign := by
  unfold St.restart St.load
  have h0 : InvC (s.dbT.map Row.load) [] none s.dbN s.dbT s.nextId (s.trace ++ [.restart]) := InvC.dull rfl h
  have hk : ∀ r ∈ (s.reset cfg).dbN, r.kind.isTx = false := h.dbNKind
  rw [loadRows_normal _ _ _ hk]
  have h1 := h0.loadN
  simp only
  generalize hs1 : (if (s.reset cfg).dbN ≠ [] then
      { ({ (s.reset cfg) with nq := (s.reset cfg).nq ++ List.map Row.load (s.reset cfg).dbN } : St) with newMsg := true }
    else { (s.reset cfg) with nq := (s.reset cfg).nq ++ List.map Row.load (s.reset cfg).dbN }) = s1
  have f1 : s1 = { (s.reset cfg) with nq := s.dbN.map Row.load, newMsg := decide (s.dbN ≠ []) } := by
    rw [← hs1]
    simp only [St.reset, List.nil_append]
    by_cases hN : s.dbN = [] <;> simp [hN]
  have h2 : InvC (s1.txq ++ s1.dbT.map Row.load) s1.nq none s1.dbN s1.dbT s1.nextId s1.trace := by
    rw [f1]; simpa [St.reset] using h1
  obtain ⟨i1, i2, ⟨ds, i3, i4⟩, ⟨l, i5, i6⟩, i7⟩ := loadRows_tx s1.dbT s1 ign h2 (by rw [show s1.dbT = s.dbT by rw [f1]; rfl]; exact h.att0)
  have eT : s1.dbT = s.dbT := by rw [f1]; rfl
  have eX : s1.txq = [] := by rw [f1]; rfl
  have eTr : s1.trace = s.trace ++ [.restart] := by rw [f1]; rfl
  have i2' := i2.rest
  have i2N := i2.dbN
  generalize hs2 : s1.loadRows .tx ign s1.dbT = s2 at *
  generalize hs3 : (if s1.dbT ≠ [] then ({ s2 with newMsg := true } : St) else s2) = s3
  have f3 : s3 = { s2 with newMsg := if s.dbT ≠ [] then true else s2.newMsg } := by
    rw [← hs3, eT]
    by_cases hT : s.dbT = []
    · simp [hT]
    · simp [hT]
  have hcfg : s3.cfg = cfg := by rw [f3, i2', f1]; rfl
  -- final clearing of the normal table
  generalize hs4 : (if (!s3.cfg.queueAll) = true then s3.db (.clear .normal) else s3) = s4
  have f4 : ∃ d w, s4 = { s3 with dbN := d, writes := w } ∧ d.Sublist s3.dbN := by
    rw [← hs4]
    split
    · exact ⟨[], _, rfl, by simp⟩
    · exact ⟨s3.dbN, s3.writes, rfl, List.Sublist.refl _⟩
  obtain ⟨d, w, f4, hd⟩ := f4
  have hd' : d.Sublist s1.dbN := by rw [← i2N]; rw [f3] at hd; exact hd
  have hl : s2.txq = l := by rw [i5, eX]; rfl
  constructor
  case inv =>
    rw [f4, f3]
    show InvC s2.txq s2.nq none d s2.dbT s2.nextId s2.trace
    rw [show s2.nq = s1.nq from i2.nq, show s2.nextId = s1.nextId from i2.nextId]
    exact i1.dbNSub _ hd'
  case inFlight => rw [f4, f3, i2', f1]; rfl
  case ps => rw [f4, f3, i2', f1]; rfl
  case acc => rw [f4, f3, i2', f1]; rfl
  case reg => rw [f4, f3, i2', f1]; rfl
  case fault => rw [f4, f3, i2', f1]; rfl
  case cfg => rw [f4, f3, i2', f1]; rfl
  case paused => rw [f4, f3, i2', f1]; rfl
  case hold => rw [f4, f3, i2', f1]; rfl
  case pend => rw [f4, f3, i2', f1]; exact ⟨rfl, rfl, rfl⟩
  case cbs => rw [f4, f3, i2', f1]; exact ⟨rfl, rfl⟩
  case now => rw [f4, f3, i2', f1]; rfl
  case nextId => rw [f4, f3, i2', f1]; rfl
  case tr =>
    refine ⟨ds, ?_, by rw [← eT]; exact i4⟩
    rw [f4, f3]
    show s2.trace = _
    rw [i3, eTr]
  case stallT =>
    rw [f4, f3]
    show ∀ m ∈ s2.txq, _
    rw [hl]
    intro m hm; exact i6 m hm
  case stallN =>
    rw [f4, f3]
    show ∀ m ∈ s2.nq, _
    rw [show s2.nq = s1.nq from i2.nq, f1]
    intro m hm
    obtain ⟨r, hr, rfl⟩ := List.mem_map.1 hm
    exact ⟨rfl, rfl⟩
  case txKeys =>
    rw [f4, f3]
    show s2.txq.map Msg.key = _
    rw [i7, eX, eT]; rfl
  case newMsg =>
    rw [f4, f3]
    show s2.txq ≠ [] ∨ s2.nq ≠ [] → (if s.dbT ≠ [] then true else s2.newMsg) = true
    intro hq
    by_cases hT : s.dbT = []
    · have e1 : s2.txq = [] := by
        have := i7; rw [eX, eT, hT] at this; simpa using this
      have e2 : s2.nq = s.dbN.map Row.load := by rw [show s2.nq = s1.nq from i2.nq, f1]
      have hN : s.dbN ≠ [] := by
        rcases hq with hq | hq
        · exact absurd e1 hq
        · intro hN; apply hq; rw [e2, hN]; rfl
      simp only [hT, ne_eq, not_true_eq_false, if_false]
      rw [i2', f1]; simpa using hN
    · simp [hT]

end Verif.MQ
