import Verif.MessageQueue.Micro

/-! # Every queue operation is a sequence of micro steps -/

namespace Verif.MQ

set_option linter.unusedSimpArgs false

section

variable {fl : Flags}

theorem Micros.of_eq {a b : Core} (h : a = b) : Micros fl a b := h ▸ .refl a

theorem Micros.one' {a b b' : Core} (h : Micro fl a b') (e : b = b') : Micros fl a b := e ▸ .one h

/-! ## Overflow -/

theorem micros_dropFront (s : St) : Micros fl s.core s.dropFront.core := by
  unfold St.dropFront
  split
  · exact .refl _
  · rename_i m rest hn
    refine .one' (Micro.evictN s.core m rest s.cfg.queueAll hn) ?_
    cases s.cfg.queueAll <;> rfl

theorem dropFront_txq (s : St) : s.dropFront.txq = s.txq := by
  unfold St.dropFront
  split
  · rfl
  · cases h : s.cfg.queueAll <;> simp [St.emit, St.db]

theorem dropFront_cfg (s : St) : s.dropFront.cfg = s.cfg := by
  unfold St.dropFront
  split
  · rfl
  · cases h : s.cfg.queueAll <;> simp [St.emit, St.db]

theorem micros_foldDrop (l : List Nat) (s : St) :
    Micros fl s.core (l.foldl (fun s _ => s.dropFront) s).core ∧
    (l.foldl (fun s _ => s.dropFront) s).txq = s.txq ∧ (l.foldl (fun s _ => s.dropFront) s).cfg = s.cfg := by
  induction l generalizing s with
  | nil => exact ⟨.refl _, rfl, rfl⟩
  | cons a l ih =>
    obtain ⟨h1, h2, h3⟩ := ih s.dropFront
    exact ⟨(micros_dropFront s).trans h1, by simp [h2, dropFront_txq], by simp [h3, dropFront_cfg]⟩

theorem micros_dropNormalLoop (n : Nat) (s : St) :
    Micros fl s.core (St.dropNormalLoop n s).core ∧ (St.dropNormalLoop n s).txq = s.txq ∧
    (St.dropNormalLoop n s).cfg = s.cfg := by
  induction n generalizing s with
  | zero => exact ⟨.refl _, rfl, rfl⟩
  | succ n ih =>
    unfold St.dropNormalLoop
    split
    · obtain ⟨a, b, c⟩ := ih s.dropNormal
      obtain ⟨h1, h2, h3⟩ := micros_foldDrop (fl := fl)
        (List.range (min s.nq.length (max (s.cfg.threshold / 10) 1))) s
      exact ⟨h1.trans a, by rw [b]; exact h2, by rw [c]; exact h3⟩
    · exact ⟨.refl _, rfl, rfl⟩

/-- Drop everything numbered like an element of `ds`. -/
def without (ds : List Msg) (l : List Msg) : List Msg := l.filter (fun x => ds.all (fun d => x.iid != d.iid))

theorem without_cons (d : Msg) (ds l : List Msg) :
    without (d :: ds) l = without ds (l.filter (fun x => x.iid != d.iid)) := by
  simp [without, List.filter_filter, Bool.and_comm]

theorem dropPass_sub (rm : Bool) (l : List Msg) :
    (dropPass rm l).2.Sublist l ∧ (dropPass rm l).1.Sublist l ∧
    (dropPass rm l).1.length + (dropPass rm l).2.length = l.length := by
  induction l generalizing rm with
  | nil => simp [dropPass]
  | cons e rest ih =>
    unfold dropPass
    split
    · obtain ⟨a, b, c⟩ := ih false
      exact ⟨a.cons_cons e, b.cons e, by simp; omega⟩
    · obtain ⟨a, b, c⟩ := ih true
      exact ⟨a.cons e, b.cons_cons e, by simp; omega⟩

theorem dropPass_update (rm : Bool) (l : List Msg) : ∀ d ∈ (dropPass rm l).2, d.kind.isUpdate = true := by
  induction l generalizing rm with
  | nil => simp [dropPass]
  | cons e rest ih =>
    unfold dropPass
    split
    · rename_i h
      intro d hd; simp at hd h
      rcases hd with rfl | hd
      · exact h.1.2
      · exact ih _ d hd
    · exact ih true

theorem dropPass_without (rm : Bool) (l : List Msg) (hn : (l.map Msg.iid).Nodup) :
    (dropPass rm l).1 = without (dropPass rm l).2 l := by
  induction l generalizing rm with
  | nil => simp [dropPass, without]
  | cons e rest ih =>
    simp only [List.map_cons, List.nodup_cons] at hn
    obtain ⟨h1, h2⟩ := hn
    unfold dropPass
    split
    · simp only [without_cons]
      rw [List.filter_cons_of_neg (by simp), List.filter_eq_self.2]
      · exact ih false h2
      · intro a ha; simp; intro h; exact h1 (List.mem_map.2 ⟨a, ha, h⟩)
    · simp only
      unfold without
      rw [List.filter_cons_of_pos]
      · rw [ih true h2]; rfl
      · simp
        intro x hx h
        exact h1 (List.mem_map.2 ⟨x, (dropPass_sub true rest).1.subset hx, h.symm⟩)

theorem micros_evictTx (ds : List Msg) (s : St) (hm : ∀ d ∈ ds, d ∈ s.txq) (hu : ∀ d ∈ ds, d.kind.isUpdate = true)
    (hnd : (ds.map Msg.iid).Nodup) :
    Micros fl s.core (({ s with txq := without ds s.txq } : St).evictTx ds).core := by
  induction ds generalizing s with
  | nil =>
    refine .of_eq ?_
    have : without [] s.txq = s.txq := by simp [without]
    rw [this]; rfl
  | cons d ds ih =>
    simp only [List.map_cons, List.nodup_cons] at hnd
    let s1 : St := ({ s with txq := s.txq.filter (fun x => x.iid != d.iid) }.db (.del .tx d.iid .evicted)).emit
      (.done d.iid .evicted)
    have h1 : Micros fl s.core s1.core :=
      .one' (Micro.evictT s.core d (hm d (by simp)) (hu d (by simp))) rfl
    have h2 := ih s1 (by
      intro x hx
      show x ∈ s.txq.filter _
      rw [List.mem_filter]
      refine ⟨hm x (by simp [hx]), ?_⟩
      simp; intro h; exact hnd.1 (List.mem_map.2 ⟨x, hx, h⟩)) (fun x hx => hu x (by simp [hx])) hnd.2
    refine h1.trans ?_
    have e : ({ s with txq := without (d :: ds) s.txq } : St).evictTx (d :: ds) =
        ({ s1 with txq := without ds s1.txq } : St).evictTx ds := by
      rw [without_cons]; rfl
    rw [e]; exact h2

theorem evictTx_fields (ds : List Msg) (s : St) :
    (s.evictTx ds).txq = s.txq ∧ (s.evictTx ds).nq = s.nq ∧ (s.evictTx ds).cfg = s.cfg := by
  induction ds generalizing s with
  | nil => exact ⟨rfl, rfl, rfl⟩
  | cons d ds ih => unfold St.evictTx; obtain ⟨a, b, c⟩ := ih ((s.db (.del .tx d.iid .evicted)).emit (.done d.iid .evicted)); exact ⟨a, b, c⟩

theorem micros_dropUpdateLoop (n : Nat) (s : St) (hn : (s.txq.map Msg.iid).Nodup) :
    Micros fl s.core (St.dropUpdateLoop n s).core := by
  induction n generalizing s with
  | zero => exact .refl _
  | succ n ih =>
    unfold St.dropUpdateLoop
    split
    · simp only
      split
      · exact .refl _
      · have hs := dropPass_sub true s.txq
        have h1 := micros_evictTx (fl := fl) (dropPass true s.txq).2 s (fun d hd => hs.1.subset hd)
          (dropPass_update true s.txq) (hn.sublist (hs.1.map _))
        rw [← dropPass_without true s.txq hn] at h1
        refine h1.trans (ih _ ?_)
        rw [(evictTx_fields _ _).1]
        exact hn.sublist (hs.2.1.map _)
    · exact .refl _

theorem micros_checkSizes (s : St) (hn : (s.txq.map Msg.iid).Nodup) : Micros fl s.core s.checkSizes.core := by
  unfold St.checkSizes
  split
  · exact .refl _
  · obtain ⟨a, b, _⟩ := micros_dropNormalLoop (fl := fl) s.nq.length s
    exact a.trans (micros_dropUpdateLoop _ _ (by rw [b]; exact hn))

/-! ## Pushing -/

theorem micros_addNormal (s0 s : St) (m : Msg) (hs : s = { s0 with nextId := s0.nextId + 1 })
    (hn : (s.txq.map Msg.iid).Nodup) (hk : m.kind.isTx = false) (hi : m.iid = s0.nextId) (ha : m.attempts = 0)
    (hq : m.quietOk s0.core fl.raw) : Micros fl s0.core (s.addNormal m).core := by
  subst hs
  unfold St.addNormal
  refine Micros.trans (b := St.core _) ?_ (micros_checkSizes _ ?_)
  · refine .one' (Micro.pushN s0.core m (if m.kind = Kind.boot then m :: s0.nq else s0.nq ++ [m])
      (s0.cfg.checkQueue m.kind) hk hi ha hq (by split <;> simp [St.core])) ?_
    cases h : s0.cfg.checkQueue m.kind <;> simp [h, St.emit, St.core, St.db, Core.db]
  · cases h : s0.cfg.checkQueue m.kind <;> simpa [h, St.emit, St.core, St.db] using hn

theorem micros_addTx (s0 s : St) (m : Msg) (hs : s = { s0 with nextId := s0.nextId + 1 })
    (hn : (s.txq.map Msg.iid).Nodup) (hlt : ∀ x ∈ s.txq, x.iid < s0.nextId) (hk : m.kind.isTx = true)
    (hi : m.iid = s0.nextId) (ha : m.attempts = 0)
    (hq : m.quietOk s0.core fl.raw) : Micros fl s0.core (s.addTx m).core := by
  subst hs
  unfold St.addTx
  refine Micros.trans (b := St.core _) ?_ (micros_checkSizes _ ?_)
  · exact .one' (Micro.pushTx s0.core m hk hi ha hq) rfl
  · simp only [St.emit, St.db, List.map_append, List.map_cons, List.map_nil]
    rw [List.nodup_append]
    refine ⟨hn, by simp, ?_⟩
    intro a ha b hb
    obtain ⟨x, hx, rfl⟩ := List.mem_map.1 ha
    have := hlt x hx
    simp at hb; omega

/-- What the decomposition needs to know about a state. -/
structure Tidy (s : St) : Prop where
  nodup : (s.txq.map Msg.iid).Nodup
  lt : ∀ x ∈ s.txq, x.iid < s.nextId
  psLt : ∀ i ∈ s.promiseSet, i < s.nextId

theorem micros_pushCall (s : St) (k : Kind) (stall trig : Bool) (ht : Tidy s)
    (hq : stall = true ∨ k = .boot ∨ trig = true ∨ s.reg = true ∨ fl.raw) :
    Micros fl s.core (s.pushCall k stall trig).core := by
  unfold St.pushCall St.fresh
  simp only
  split
  · exact .one' (Micro.bump s.core) rfl
  · split
    · exact micros_addTx s _ _ rfl ht.nodup ht.lt (by assumption) rfl rfl hq
    · split
      · exact micros_addNormal s _ _ rfl ht.nodup (Bool.eq_false_iff.2 ‹¬ k.isTx = true›) rfl rfl hq
      · exact .one' (Micro.bump s.core) rfl

theorem micros_fulfilFresh (s : St) (off : Bool) (ht : Tidy s) :
    Micros fl s.core (({ s with nextId := s.nextId + 1 } : St).fulfil s.nextId off).core := by
  refine .one' (Micro.fulfilFresh s.core off) ?_
  have : s.nextId ∉ s.promiseSet := fun h => by have := ht.psLt _ h; omega
  simp [St.fulfil, this, St.core, St.emit]

theorem micros_pushCallAsync (s : St) (k : Kind) (trig : Bool) (ht : Tidy s)
    (hq : k = .boot ∨ trig = true ∨ s.reg = true ∨ fl.raw) :
    Micros fl s.core (s.pushCallAsync k trig).core := by
  unfold St.pushCallAsync St.fresh
  simp only
  split
  · exact micros_fulfilFresh s true ht
  · split
    · exact micros_addTx s _ _ rfl ht.nodup ht.lt (by assumption) rfl rfl (Or.inr hq)
    · split
      · exact micros_addNormal s _ _ rfl ht.nodup (Bool.eq_false_iff.2 ‹¬ k.isTx = true›) rfl rfl (Or.inr hq)
      · exact micros_fulfilFresh s true ht

theorem micros_dispatch (s : St) (k : Kind) (t : Bool) (ht : Tidy s) : Micros fl s.core (s.dispatch k t).core := by
  unfold St.dispatch
  split
  · rename_i h
    refine micros_pushCall s k false t ht ?_
    simp only [prio] at h
    split at h
    · rename_i h'; simp at h'; grind
    · split at h <;> simp at h
  · exact micros_pushCall s k true t ht (Or.inl rfl)
  · exact .refl _

theorem micros_dispatchAsync (s : St) (k : Kind) (t : Bool) (ht : Tidy s) :
    Micros fl s.core (s.dispatchAsync k t).core := by
  unfold St.dispatchAsync
  simp only
  split
  · rename_i h
    refine micros_pushCallAsync s k _ ht ?_
    simp only [prio] at h
    split at h
    · rename_i h'; simp at h'; grind
    · split at h <;> simp at h
  · exact .refl _

/-! ## Worker -/

theorem find_split {α} {p : α → Bool} {l : List α} {a : α} (h : l.find? p = some a) :
    ∃ pre post, l = pre ++ a :: post ∧ l.eraseP p = pre ++ post ∧
      (∀ f : α → α, updFirst p f l = pre ++ f a :: post) ∧ (l.head? = some a → pre = []) := by
  induction l with
  | nil => simp at h
  | cons x l ih =>
    rw [List.find?_cons] at h
    split at h
    · rename_i hp
      cases h
      exact ⟨[], l, rfl, by simp [hp], fun f => by simp [updFirst, hp], fun _ => rfl⟩
    · rename_i hp
      obtain ⟨pre, post, e1, e2, e3, _⟩ := ih h
      refine ⟨x :: pre, post, by simp [e1], by simp [hp, e2], fun f => by simp [updFirst, hp, e3], ?_⟩
      intro he
      simp at he
      subst he
      have := List.find?_some h
      simp [hp] at this

theorem core_clearNewMsg (s : St) : s.clearNewMsg.core = s.core := by
  unfold St.clearNewMsg; split <;> rfl

theorem core_resetInFlight (s : St) : s.resetInFlight.core = { s.core with inf := none } := rfl

theorem sameMsg_prepare (s : St) (m : Msg) : sameMsg (s.prepare m) m := ⟨rfl, rfl, rfl, rfl⟩

theorem allowed_stall {m : Msg} {now : Int} {acc : Bool} (h : m.allowed now acc = true) (hs : m.stall = true) :
    acc = true := by
  simp [Msg.allowed, hs] at h; exact h.1

theorem micros_attemptTx (s : St) (m : Msg) (rest : List Msg) (ok : Bool) (hi : s.inFlight = none)
    (hq : s.txq = m :: rest) (hal : m.allowed s.now s.accepted = true)
    (hfl : ok = false → fl.fail) :
    Micros fl s.core (s.attempt .tx m ok).core := by
  unfold St.attempt
  cases ok
  · simp only [Bool.false_eq_true, if_false]
    rw [core_clearNewMsg, core_resetInFlight]
    split
    · split
      · refine .one' (Micro.failTx s.core (hfl rfl) m { s.prepare m with offline := true } rest hi hq ⟨rfl, rfl, rfl, rfl⟩ rfl) ?_
        simp [St.core, hq, hi]
      · refine .one' (Micro.failTx s.core (hfl rfl) m (s.prepare m) rest hi hq (sameMsg_prepare s m) rfl) ?_
        simp [St.core, hq, hi]
    · split <;>
      · refine .one' (Micro.failTx s.core (hfl rfl) m (s.prepare m) rest hi hq (sameMsg_prepare s m) rfl) ?_
        simp [St.core, hq, hi]
  · simp only [if_true]
    rw [core_clearNewMsg]
    refine .one' (Micro.sendTx s.core m (s.prepare m) rest hi hq (sameMsg_prepare s m) rfl (allowed_stall hal)) ?_
    simp [St.core, hq, St.emit]

theorem micros_attemptN (s : St) (m : Msg) (ok : Bool) (hi : s.inFlight = none) (hf : s.fault = none)
    (hsel : s.selNormal = some m) (hfl : ok = false → fl.fail)
    (hmid : ok = false → s.nq.head? = some m ∨ fl.mid) : Micros fl s.core (s.attempt .normal m ok).core := by
  have hal : m.allowed s.now s.accepted = true := by
    have := List.find?_some hsel; simpa using this
  obtain ⟨pre, post, e1, e2, e3, e4⟩ := find_split hsel
  have hmid' : ok = false → pre = [] ∨ fl.mid := fun h => (hmid h).imp e4 id
  unfold St.attempt
  cases ok
  · simp only [Bool.false_eq_true, if_false]
    rw [core_clearNewMsg, core_resetInFlight]
    split
    · split
      · refine .one' (Micro.failN s.core (hfl rfl) m { s.prepare m with offline := true } pre post hi e1 ⟨rfl, rfl, rfl, rfl⟩ rfl) ?_
        simp [St.core, hi, e3]
      · refine .one' (Micro.failN s.core (hfl rfl) m (s.prepare m) pre post hi e1 (sameMsg_prepare s m) rfl) ?_
        simp [St.core, hi, e3]
    · split
      · refine .one' (Micro.failN s.core (hfl rfl) m (s.prepare m) pre post hi e1 (sameMsg_prepare s m) rfl) ?_
        simp [St.core, hi, e3]
      · simp only [e3]
        by_cases hp : m.iid ∈ s.promiseSet
        · have hp' : (s.prepare m).iid ∈ s.promiseSet := hp
          simp only [St.fulfil, hp', if_true, Option.isSome_some]
          refine Micros.trans (Micros.one (Micro.failN s.core (hfl rfl) m (s.prepare m) pre post hi e1 (sameMsg_prepare s m) rfl)) ?_
          refine .one' (Micro.faultPromise _ (s.prepare m) hp' (Or.inr (by simp))) ?_
          simp [St.core, hi]
        · have hp' : ¬ (s.prepare m).iid ∈ s.promiseSet := hp
          simp only [St.fulfil, hp', if_false, St.emit]
          have hmn : ∃ f rest, pre ++ s.prepare m :: post = f :: rest := by
            cases pre with
            | nil => exact ⟨_, _, rfl⟩
            | cons a l => exact ⟨a, _, rfl⟩
          obtain ⟨f, rest, hfr⟩ := hmn
          simp only [hfr]
          simp only [hf, Option.isSome_none, Bool.false_eq_true, if_false]
          refine .one' (Micro.failPop s.core (hfl rfl) m (s.prepare m) f pre post rest hi e1 (sameMsg_prepare s m) rfl hp hfr (hmid' rfl)) ?_
          simp [St.core, hi, hf, St.prepare]
  · simp only [if_true]
    rw [core_clearNewMsg]
    refine .one' (Micro.sendN s.core m (s.prepare m) pre post hi e1 (sameMsg_prepare s m) rfl (allowed_stall hal)) ?_
    simp [St.core, St.emit, e2]

theorem micros_worker (s : St) (ok : Bool) (hf : s.fault = none) (hfl : ok = false → fl.fail)
    (hmid : ok = false → ∀ m, s.selNormal = some m → s.nq.head? = some m ∨ fl.mid) : Micros fl s.core (s.worker ok).core := by
  unfold St.worker
  split
  · exact .refl _
  split
  · exact .refl _
  split
  · exact .refl _
  split
  · exact .refl _
  rename_i hinf
  have hi : s.inFlight = none := by simpa using hinf
  simp only
  have hkey : ∀ q m, (match s.selTx with
      | some m => some (Q.tx, m)
      | none => match s.selNormal with
        | some m => some (Q.normal, m)
        | none => none) = some (q, m) → Micros fl s.core (s.attempt q m ok).core := by
    intro q m h
    split at h
    · rename_i m' hsel
      cases h
      unfold St.selTx at hsel
      split at hsel
      · cases hsel
      · rename_i m0 rest hq
        by_cases hc : (m0.allowed s.now s.accepted && m0.before s.selNormal) = true
        · rw [if_pos hc] at hsel
          cases hsel
          rw [Bool.and_eq_true] at hc
          exact micros_attemptTx s _ rest ok hi hq hc.1 hfl
        · rw [if_neg hc] at hsel
          cases hsel
    · split at h
      · rename_i hsel
        cases h
        exact micros_attemptN s _ ok hi hf hsel hfl (fun h => hmid h _ hsel)
      · cases h
  split
  · exact .of_eq rfl
  · rename_i q m hsel
    split
    · split
      · exact .refl _
      · exact hkey q m hsel
    · exact hkey q m hsel

/-! ## Answers -/

theorem micros_emit (s : St) (e : Ev) (h : e.obs = true) : Micros fl s.core (s.emit e).core :=
  .one' (Micro.ev s.core e h) rfl

theorem micros_recvResult (s : St) (u : Nat) (hf : s.fault = none) : Micros fl s.core (s.recvResult u).core := by
  unfold St.recvResult
  have h0 : Micros fl s.core ({ s with hold := none }.emit (.recv u)).core := .one' (Micro.ev s.core (.recv u) rfl) rfl
  simp only
  split
  · exact h0
  · rename_i m hi
    have hi' : s.inFlight = some m := hi
    split
    · exact h0
    · refine h0.trans ?_
      by_cases hp : m.iid ∈ s.promiseSet
      · simp only [St.fulfil, St.emit, hp, if_true, Option.isSome_some]
        exact .one' (Micro.faultPromise _ m hp (Or.inl hi)) rfl
      · simp only [St.fulfil, St.emit, hp, if_false, hf, Option.isSome_none, Bool.false_eq_true]
        refine .one' (Micro.answer _ m (m.kind.isTx || s.cfg.checkQueue m.kind) hi hp (by intro h; simp [h])) ?_
        cases h : (m.kind.isTx || s.cfg.checkQueue m.kind) <;>
          simp [St.core, St.resetInFlight, St.db, Core.db, qOf, hf]

theorem micros_recvError (s : St) (u : Nat) : Micros fl s.core (s.recvError u).core := by
  unfold St.recvError
  have h0 : Micros fl s.core ({ s with hold := none }.emit (.recv u)).core := .one' (Micro.ev s.core (.recv u) rfl) rfl
  simp only
  split
  · exact h0
  · split
    · exact h0
    · exact h0.trans (.one' (Micro.ev _ (.errRecv u) rfl) rfl)

theorem micros_handleFail (s : St) (off : Bool) (hf : s.fault = none) : Micros fl s.core (s.handleFail off).core := by
  unfold St.handleFail
  split
  · rename_i hi
    exact .one' (Micro.faultNull s.core hi) rfl
  · rename_i m hi
    have h0 : Micros fl s.core (s.emit (.failed m.uid m.iid)).core := .one' (Micro.failed s.core m hi) rfl
    have hi1 : (s.emit (.failed m.uid m.iid)).core.inf = some m := hi
    simp only
    split
    · rename_i hk
      split
      · rename_i hA
        cases htx : m.kind.isTx
        · refine .one' (Micro.retryN s.core m { m with uid := s.nextId, ts := if s.cfg.retryInterval > 0 then m.ts + s.cfg.retryInterval * m.attempts else s.now } hi1 htx ⟨rfl, rfl, rfl, rfl⟩ rfl (Or.inl ⟨hA, by have := hk; simp only [htx, Bool.false_or] at this; exact this⟩)) ?_
          simp [St.core, St.resetInFlight, St.emit]
        · refine .one' (Micro.retryTx s.core m { m with uid := s.nextId, ts := if s.cfg.retryInterval > 0 then m.ts + s.cfg.retryInterval * m.attempts else s.now } hi1 htx ⟨rfl, rfl, rfl, rfl⟩ rfl hA) ?_
          simp [St.core, St.resetInFlight, St.emit]
      · rename_i hA
        by_cases hp : m.iid ∈ s.promiseSet
        · simp only [St.fulfil, St.emit, hp, if_true, Option.isSome_some]
          exact h0.trans (.one' (Micro.faultPromise _ m hp (Or.inl hi1)) rfl)
        · simp only [St.fulfil, St.emit, hp, if_false, hf, Option.isSome_none, Bool.false_eq_true]
          refine .one' (Micro.giveUp s.core m off true hi1 hp (fun _ => rfl) (fun _ => Int.not_lt.1 hA)) ?_
          simp [St.core, St.resetInFlight, St.db, Core.db, qOf, hf, St.emit]
    · rename_i hk
      have htx : m.kind.isTx = false := by
        cases h : m.kind.isTx <;> simp_all
      split
      · rename_i hb
        refine .one' (Micro.retryN s.core m { m with uid := s.nextId, ts := m.ts + s.cfg.bootInterval } hi1 htx ⟨rfl, rfl, rfl, rfl⟩ rfl (Or.inr hb)) ?_
        simp [St.core, St.resetInFlight, St.emit]
      · by_cases hp : m.iid ∈ s.promiseSet
        · simp only [St.fulfil, St.emit, hp, if_true, Option.isSome_some]
          exact h0.trans (.one' (Micro.faultPromise _ m hp (Or.inl hi1)) rfl)
        · simp only [St.fulfil, St.emit, hp, if_false, hf, Option.isSome_none, Bool.false_eq_true]
          refine .one' (Micro.giveUp s.core m off false hi1 hp (by simp [htx]) (by simp [htx])) ?_
          simp [St.core, St.resetInFlight, hf, St.emit]

theorem micros_timerFire (s : St) : Micros fl s.core s.timerFire.core := by
  unfold St.timerFire
  split
  · split
    · exact .one' (Micro.ev s.core (.timerFired _) rfl) rfl
    · exact .refl _
  · exact .refl _

theorem micros_runTimeout (s : St) (hf : s.fault = none) : Micros fl s.core s.runTimeout.core := by
  unfold St.runTimeout
  split
  · exact .refl _
  · exact micros_handleFail { s with pendT := s.pendT - 1 } true hf

theorem micros_runError (s : St) (hf : s.fault = none) : Micros fl s.core s.runError.core := by
  unfold St.runError
  split
  · exact .refl _
  · exact micros_handleFail { s with pendE := s.pendE - 1 } false hf

theorem fault_timerFire (s : St) : s.timerFire.fault = s.fault := by
  unfold St.timerFire; split <;> (try split) <;> rfl

theorem fault_recvError (s : St) (u : Nat) : (s.recvError u).fault = s.fault := by
  unfold St.recvError; simp only; split <;> (try split) <;> rfl

end

/-- Operations through the raw interface (`push_call`, `push_call_async`), which carry no registration logic. -/
def BaseOp.raw : BaseOp → Bool
  | .push k _ | .pushAsync k => decide (k ≠ .boot)
  | _ => false

def BaseOp.isRestart : BaseOp → Bool
  | .restart _ _ => true
  | _ => false

/-- A send fails for a normal message that is not at the front of the normal queue. -/
def midFail (s : St) : BaseOp → Bool
  | .worker false => match s.selNormal with
    | some m => decide (s.nq.head? ≠ some m)
    | none => false
  | _ => false

/-- The features used by an operation in a state. -/
def flagsOf (s : St) (op : BaseOp) : Flags where
  raw := op.raw = true
  att := ∃ n, op = .setAttempts n
  fail := op = .worker false
  mid := midFail s op = true

theorem micros_baseStep (s : St) (op : BaseOp) (ht : Tidy s) (hf : s.fault = none) (hr : op.isRestart = false) :
    Micros (flagsOf s op) s.core (baseStep s op).core := by
  cases op with
  | push k stall =>
    refine micros_pushCall s k stall false ht ?_
    simp only [flagsOf, BaseOp.raw]; grind
  | pushAsync k =>
    refine micros_pushCallAsync s k false ht ?_
    simp only [flagsOf, BaseOp.raw]; grind
  | dispatch k t => exact micros_dispatch s k t ht
  | dispatchAsync k t => exact micros_dispatchAsync s k t ht
  | worker ok => 
    refine micros_worker s ok hf (by rintro rfl; rfl) ?_
    rintro rfl m hm
    by_cases h : s.nq.head? = some m
    · exact Or.inl h
    · right; simp [flagsOf, midFail, hm, h]
  | recvResult u => exact micros_recvResult s u hf
  | recvError u => exact micros_recvError s u
  | runError => exact micros_runError s hf
  | timerFire => exact micros_timerFire s
  | runTimeout => exact micros_runTimeout s hf
  | timeout =>
    simp only [baseStep]
    split
    · exact (micros_timerFire s).trans (micros_runTimeout _ (by rw [fault_timerFire]; exact hf))
    · exact .refl _
  | callError u => exact (micros_recvError s u).trans (micros_runError _ (by rw [fault_recvError]; exact hf))
  | csmsCall u => exact .one' (Micro.ev s.core (.csmsCall u) rfl) rfl
  | reply u =>
    simp only [baseStep, St.reply]
    split
    · exact .refl _
    · refine .one' (Micro.ev s.core (.reply u) rfl) ?_
      by_cases h : (s.emit (.reply u)).hold = some u
      · rw [if_pos h]; rfl
      · rw [if_neg h]; rfl
  | resetHold => exact .of_eq rfl
  | pause => exact .of_eq rfl
  | resume d =>
    simp only [baseStep, St.resume, St.resumeNow]
    split
    · exact .refl _
    · split
      · exact .of_eq rfl
      · split <;> exact .of_eq rfl
  | resumeFire c =>
    simp only [baseStep, St.resumeFire, St.resumeNow]
    split
    · split <;> exact .of_eq rfl
    · exact .refl _
  | regStatus a =>
    simp only [baseStep, St.regStatus]
    cases a
    · exact .one' (Micro.unreg s.core) rfl
    · exact .one' (Micro.accept s.core) rfl
  | notifyFire =>
    simp only [baseStep, St.notifyFire]
    split
    · split <;> exact .of_eq rfl
    · exact .refl _
  | tick d => exact .of_eq rfl
  | stop => exact .of_eq rfl
  | addStopped u t => exact .of_eq rfl
  | addMeterValueId a b =>
    simp only [baseStep, St.addMeterValueId]
    split <;> exact .of_eq rfl
  | notifyStart a t =>
    simp only [baseStep, St.notifyStart]
    split
    · rename_i l _
      refine .one' (Micro.mapTx s.core (fun m => if l.contains m.uid then { m with txId := some t } else m) ?_) rfl
      intro m; split <;> exact ⟨⟨rfl, rfl, rfl, rfl⟩, rfl⟩
    · exact .refl _
  | setAttempts n => exact .one' (Micro.att s.core n ⟨n, rfl⟩) rfl
  | setRetryInterval n => exact .of_eq rfl
  | restart c i => simp [BaseOp.isRestart] at hr

end Verif.MQ
