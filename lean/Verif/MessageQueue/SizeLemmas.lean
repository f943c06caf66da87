import Verif.MessageQueue.OpCases

/-! # Overflow handling (C06) and transaction ids (C14) -/

namespace Verif.MQ

set_option linter.unusedSimpArgs false

/-! ## C06 -/

theorem dropFront_nq (s : St) : s.dropFront.nq = s.nq.tail ∧ s.dropFront.txq = s.txq ∧ s.dropFront.cfg = s.cfg := by
  unfold St.dropFront
  cases hn : s.nq with
  | nil => simp [hn]
  | cons m rest => cases hq : s.cfg.queueAll <;> simp [St.emit, St.db, hq]

theorem foldDrop_nq (l : List Nat) (s : St) :
    (l.foldl (fun s _ => s.dropFront) s).nq = s.nq.drop l.length ∧
    (l.foldl (fun s _ => s.dropFront) s).txq = s.txq ∧ (l.foldl (fun s _ => s.dropFront) s).cfg = s.cfg := by
  induction l generalizing s with
  | nil => simp
  | cons a l ih =>
    obtain ⟨h1, h2, h3⟩ := ih s.dropFront
    obtain ⟨e1, e2, e3⟩ := dropFront_nq s
    simp only [List.foldl_cons, List.length_cons]
    refine ⟨by rw [h1, e1, List.drop_tail], by rw [h2, e2], by rw [h3, e3]⟩

theorem dropNormal_nq (s : St) :
    s.dropNormal.nq = s.nq.drop (min s.nq.length (max (s.cfg.threshold / 10) 1)) ∧
    s.dropNormal.txq = s.txq ∧ s.dropNormal.cfg = s.cfg := by
  unfold St.dropNormal
  simpa using foldDrop_nq (List.range (min s.nq.length (max (s.cfg.threshold / 10) 1))) s

theorem dropNormalLoop_post (n : Nat) (s : St) (h : s.nq.length ≤ n) :
    let s' := St.dropNormalLoop n s
    (s'.txq.length + s'.nq.length ≤ s.cfg.threshold ∨ s'.nq = []) ∧ s'.txq = s.txq ∧ s'.cfg = s.cfg := by
  induction n generalizing s with
  | zero =>
    have : s.nq = [] := List.length_eq_zero_iff.1 (by omega)
    exact ⟨Or.inr this, rfl, rfl⟩
  | succ n ih =>
    unfold St.dropNormalLoop
    by_cases hc : s.txq.length + s.nq.length > s.cfg.threshold ∧ s.nq ≠ []
    · rw [if_pos hc]
      obtain ⟨e1, e2, e3⟩ := dropNormal_nq s
      have hlen : s.dropNormal.nq.length ≤ n := by
        rw [e1, List.length_drop]
        have := List.length_pos_iff.2 hc.2
        omega
      obtain ⟨h1, h2, h3⟩ := ih s.dropNormal hlen
      rw [e3] at h1 h3; rw [e2] at h2
      exact ⟨h1, h2, h3⟩
    · rw [if_neg hc]
      refine ⟨?_, rfl, rfl⟩
      by_cases hn : s.nq = []
      · exact Or.inr hn
      · exact Or.inl (by have : ¬ s.txq.length + s.nq.length > s.cfg.threshold := fun h => hc ⟨h, hn⟩
                         omega)

theorem evictTx_same (ds : List Msg) (s : St) : (s.evictTx ds).txq = s.txq ∧ (s.evictTx ds).nq = s.nq ∧ (s.evictTx ds).cfg = s.cfg := by
  induction ds generalizing s with
  | nil => simp [St.evictTx]
  | cons d ds ih => unfold St.evictTx; obtain ⟨h1, h2, h3⟩ := ih ((s.db (.del .tx d.iid .evicted)).emit (.done d.iid .evicted)); exact ⟨h1, h2, h3⟩

theorem dropUpdateLoop_post (n : Nat) (s : St) (h : s.txq.length ≤ n) :
    let s' := St.dropUpdateLoop n s
    (s'.txq.length + s'.nq.length ≤ s.cfg.threshold ∨ (dropPass true s'.txq).2 = []) ∧ s'.nq = s.nq ∧ s'.cfg = s.cfg := by
  induction n generalizing s with
  | zero =>
    have : s.txq = [] := List.length_eq_zero_iff.1 (by omega)
    exact ⟨Or.inr (by simp [St.dropUpdateLoop, this, dropPass]), rfl, rfl⟩
  | succ n ih =>
    unfold St.dropUpdateLoop
    by_cases hc : s.txq.length + s.nq.length > s.cfg.threshold
    · rw [if_pos hc]
      by_cases hd : (dropPass true s.txq).2 = []
      · simp only; rw [if_pos hd]; exact ⟨Or.inr hd, rfl, rfl⟩
      · simp only; rw [if_neg hd]
        obtain ⟨e1, e2, e3⟩ := evictTx_same (dropPass true s.txq).2 { s with txq := (dropPass true s.txq).1 }
        have hs := (dropPass_sub true s.txq).2.2
        have := List.length_pos_iff.2 hd
        obtain ⟨h1, h2, h3⟩ := ih (({ s with txq := (dropPass true s.txq).1 } : St).evictTx (dropPass true s.txq).2)
          (by rw [e1]; simp only; omega)
        rw [e3] at h1 h3; rw [e2] at h2
        exact ⟨h1, h2, h3⟩
    · rw [if_neg hc]; exact ⟨Or.inl (by omega), rfl, rfl⟩

theorem dropPass_none {l : List Msg} (h : (dropPass true l).2 = []) : ∀ m ∈ l.take (l.length - 2), m.kind.isUpdate = false := by
  induction l with
  | nil => simp
  | cons e rest ih =>
    unfold dropPass at h
    split at h
    · simp at h
    · rename_i hc
      simp only at h
      intro m hm
      by_cases hr : rest.length > 1
      · have e1 : (e :: rest).length - 2 = (rest.length - 2) + 1 := by simp; omega
        rw [e1, List.take_succ_cons] at hm
        rcases List.mem_cons.1 hm with rfl | hm
        · simpa [hr] using hc
        · exact ih h m hm
      · have e1 : (e :: rest).length - 2 = 0 := by simp; omega
        rw [e1] at hm; simp at hm

theorem checkSizes_post (s : St) :
    let s' := s.checkSizes
    s'.txq.length + s'.nq.length ≤ s.cfg.threshold ∨
      (s'.nq = [] ∧ ∀ m ∈ s'.txq.take (s'.txq.length - 2), m.kind.isUpdate = false) := by
  unfold St.checkSizes
  split
  · exact Or.inl (by assumption)
  · obtain ⟨h1, h2, h3⟩ := dropNormalLoop_post s.nq.length s (Nat.le_refl _)
    obtain ⟨h4, h5, h6⟩ := dropUpdateLoop_post _ (St.dropNormalLoop s.nq.length s) (Nat.le_refl _)
    simp only
    rw [h3] at h4
    rcases h4 with h4 | h4
    · exact Or.inl h4
    · rcases h1 with h1 | h1
      · left
        have := (frame_dropUpdateLoop (St.dropNormalLoop s.nq.length s).txq.length (St.dropNormalLoop s.nq.length s)).txq.length_le
        rw [h5]; omega
      · right; exact ⟨by rw [h5, h1], dropPass_none h4⟩

/-- A push that changed a queue leaves the sizes as `checkSizes` leaves them. -/
theorem push_sizes (s : St) (b : BaseOp) (hb : b.isPush = true) (i : Nat) (k : Kind)
    (h : .push i k ∈ (baseStep s b).trace) (hn : .push i k ∉ s.trace) :
    let s' := baseStep s b
    s'.txq.length + s'.nq.length ≤ s.cfg.threshold ∨
      (s'.nq = [] ∧ ∀ m ∈ s'.txq.take (s'.txq.length - 2), m.kind.isUpdate = false) := by
  have addTx : ∀ (s0 : St) (m : Msg), s0.cfg = s.cfg → let s' := s0.addTx m
      s'.txq.length + s'.nq.length ≤ s.cfg.threshold ∨
      (s'.nq = [] ∧ ∀ m ∈ s'.txq.take (s'.txq.length - 2), m.kind.isUpdate = false) := by
    intro s0 m e
    rw [← e]; exact checkSizes_post _
  have addN : ∀ (s0 : St) (m : Msg), s0.cfg = s.cfg → let s' := s0.addNormal m
      s'.txq.length + s'.nq.length ≤ s.cfg.threshold ∨
      (s'.nq = [] ∧ ∀ m ∈ s'.txq.take (s'.txq.length - 2), m.kind.isUpdate = false) := by
    intro s0 m e
    rw [← e]
    unfold St.addNormal
    have := checkSizes_post { (if (({ s0 with nq := if m.kind = Kind.boot then m :: s0.nq else s0.nq ++ [m] }).emit (.push m.iid m.kind)).cfg.checkQueue m.kind = true
      then (({ s0 with nq := if m.kind = Kind.boot then m :: s0.nq else s0.nq ++ [m] }).emit (.push m.iid m.kind)).db (.ins .normal m.row)
      else (({ s0 with nq := if m.kind = Kind.boot then m :: s0.nq else s0.nq ++ [m] }).emit (.push m.iid m.kind)) : St) with newMsg := true }
    have hc : ({ (if (({ s0 with nq := if m.kind = Kind.boot then m :: s0.nq else s0.nq ++ [m] }).emit (.push m.iid m.kind)).cfg.checkQueue m.kind = true
      then (({ s0 with nq := if m.kind = Kind.boot then m :: s0.nq else s0.nq ++ [m] }).emit (.push m.iid m.kind)).db (.ins .normal m.row)
      else (({ s0 with nq := if m.kind = Kind.boot then m :: s0.nq else s0.nq ++ [m] }).emit (.push m.iid m.kind)) : St) with newMsg := true } : St).cfg = s0.cfg := by
      simp only; by_cases hq : s0.cfg.checkQueue m.kind = true <;> simp [St.emit, St.db, hq]
    rw [hc] at this
    exact this
  have c1 : ∀ k' stall trig, Ev.push i k ∈ (s.pushCall k' stall trig).trace → let s' := s.pushCall k' stall trig
      s'.txq.length + s'.nq.length ≤ s.cfg.threshold ∨
      (s'.nq = [] ∧ ∀ m ∈ s'.txq.take (s'.txq.length - 2), m.kind.isUpdate = false) := by
    intro k' stall trig
    unfold St.pushCall St.fresh
    simp only
    split
    · intro h; exact absurd h hn
    · split
      · intro _; exact addTx _ _ rfl
      · split
        · intro _; exact addN _ _ rfl
        · intro h; exact absurd h hn
  have c2 : ∀ k' trig, Ev.push i k ∈ (s.pushCallAsync k' trig).trace → let s' := s.pushCallAsync k' trig
      s'.txq.length + s'.nq.length ≤ s.cfg.threshold ∨
      (s'.nq = [] ∧ ∀ m ∈ s'.txq.take (s'.txq.length - 2), m.kind.isUpdate = false) := by
    have hf : ∀ off, Ev.push i k ∉ (({ s with nextId := s.nextId + 1 } : St).fulfil s.nextId off).trace := by
      intro off; unfold St.fulfil; split
      · exact hn
      · simp [St.emit, hn]
    intro k' trig
    unfold St.pushCallAsync St.fresh
    simp only
    split
    · intro h; exact absurd h (hf true)
    · split
      · intro _; exact addTx _ _ rfl
      · split
        · intro _; exact addN _ _ rfl
        · intro h; exact absurd h (hf true)
  cases b <;> simp only [BaseOp.isPush, Bool.false_eq_true] at hb
  · exact c1 _ _ _ h
  · exact c2 _ _ h
  · revert h; simp only [baseStep, St.dispatch]
    split
    · intro h; exact c1 _ _ _ h
    · intro h; exact c1 _ _ _ h
    · intro h; exact absurd h hn
  · revert h; simp only [baseStep, St.dispatchAsync]
    split
    · intro h; exact c2 _ _ h
    · intro h; exact absurd h hn

/-- Which elements one pass keeps. -/
def passMask : Bool → List Msg → List Bool
  | _, [] => []
  | rm, e :: rest =>
    if rm && e.kind.isUpdate && decide (rest.length > 1) then false :: passMask false rest
    else true :: passMask true rest

/-- The elements of `l` whose entry in the mask is `b`. -/
def pick (b : Bool) (l : List α) (mask : List Bool) : List α :=
  ((l.zip mask).filter (fun x => x.2 == b)).map Prod.fst

/-- No two neighbouring entries are `false`. -/
def noAdjacentFalse : List Bool → Bool
  | a :: b :: rest => (a || b) && noAdjacentFalse (b :: rest)
  | _ => true

theorem passMask_spec (rm : Bool) (l : List Msg) :
    (passMask rm l).length = l.length ∧ (dropPass rm l).1 = pick true l (passMask rm l) ∧
    (dropPass rm l).2 = pick false l (passMask rm l) ∧ noAdjacentFalse (passMask rm l) = true ∧
    (rm = false → (passMask rm l).head? ≠ some false) := by
  induction l generalizing rm with
  | nil => simp [passMask, dropPass, pick, noAdjacentFalse]
  | cons e rest ih =>
    unfold passMask dropPass
    split
    · rename_i hc
      obtain ⟨h1, h2, h3, h4, h5⟩ := ih false
      refine ⟨by simp [h1], by simp [pick, h2], by simp [pick, h3], ?_, ?_⟩
      · cases hm : passMask false rest with
        | nil => rfl
        | cons a m =>
          have := h5 rfl
          rw [hm] at this h4
          simp at this
          simp only [noAdjacentFalse, Bool.and_eq_true, Bool.or_eq_true]
          exact ⟨Or.inr this, h4⟩
      · intro e; rw [e] at hc; simp at hc
    · obtain ⟨h1, h2, h3, h4, h5⟩ := ih true
      refine ⟨by simp [h1], by simp [pick, h2], by simp [pick, h3], ?_, by simp⟩
      cases hm : passMask true rest with
      | nil => rfl
      | cons a m => rw [hm] at h4; simp [noAdjacentFalse, h4]

/-! ## C14 -/

/-- All queued and outstanding messages. -/
def St.held (s : St) : List Msg := s.inFlight.toList ++ s.nq ++ s.txq

theorem lookup_filter_ne {β : Type} (l : List (Nat × β)) (a u : Nat) (h : a ≠ u) :
    (l.filter (fun e => e.1 != a)).lookup u = l.lookup u := by
  induction l with
  | nil => rfl
  | cons e l ih =>
    obtain ⟨k, v⟩ := e
    by_cases hk : k = a
    · subst hk
      have : (u == k) = false := by simp; exact fun e => h e.symm
      simp [List.lookup_cons, this, ih]
    · simp only [List.filter_cons, bne_iff_ne, ne_eq, hk, not_false_eq_true, if_true, List.lookup_cons]
      split
      · rfl
      · exact ih

theorem lookup_filter_none {β : Type} (l : List (Nat × β)) (a u : Nat) (h : l.lookup u = none) :
    (l.filter (fun e => e.1 != a)).lookup u = none := by
  by_cases hk : a = u
  · subst hk
    rw [List.lookup_eq_none_iff]
    intro e he
    simp only [List.mem_filter, bne_iff_ne, ne_eq] at he
    simp; exact fun e => he.2 e.symm
  · rw [lookup_filter_ne l a u hk]; exact h

theorem lookup_filter_self {β : Type} (l : List (Nat × β)) (a : Nat) :
    (l.filter (fun e => e.1 != a)).lookup a = none := by
  rw [List.lookup_eq_none_iff]
  intro e he
  simp only [List.mem_filter, bne_iff_ne, ne_eq] at he
  simp; exact fun e => he.2 e.symm

theorem lookup_none_of_lt {β : Type} {l : List (Nat × β)} {n : Nat} (h : ∀ e ∈ l, e.1 < n) : l.lookup n = none := by
  rw [List.lookup_eq_none_iff]
  intro e he; have := h e he; simp; omega

theorem eq_of_nodup_map {α β : Type} {f : α → β} {l : List α} (h : (l.map f).Nodup) {a b : α} (ha : a ∈ l) (hb : b ∈ l)
    (e : f a = f b) : a = b := by
  induction l with
  | nil => simp at ha
  | cons c l ih =>
    simp only [List.map_cons, List.nodup_cons, List.mem_map, not_exists, not_and] at h
    rcases List.mem_cons.1 ha with ha' | ha' <;> rcases List.mem_cons.1 hb with hb' | hb'
    · rw [ha', hb']
    · rw [ha'] at e; exact absurd e.symm (h.1 b hb')
    · rw [hb'] at e; exact absurd e (h.1 a ha')
    · exact ih h.2 ha' hb'

theorem SInv.heldUnique {s : St} (h : SInv s) {m x : Msg} (hm : m ∈ s.held) (hx : x ∈ s.held) (hi : m.iid = x.iid) : m = x := by
  have hI : InvC s.txq s.nq s.inFlight s.dbN s.dbT s.nextId s.trace := h.inv
  have eT : ((s.inFlight.toList.filter (·.kind.isTx)) ++ s.txq).map Msg.iid = s.dbT.map Row.iid := by
    have := congrArg (List.map Prod.fst) hI.eq
    simp only [List.map_append, List.map_map] at this
    have e1 : List.map (Prod.fst ∘ Row.key) s.dbT = s.dbT.map Row.iid := by apply List.map_congr_left; intros; rfl
    have e2 : List.map (Prod.fst ∘ Msg.key) s.txq = s.txq.map Msg.iid := by apply List.map_congr_left; intros; rfl
    rw [e1, e2] at this
    rw [this, List.map_append]
    congr 1
    cases hi : s.inFlight with
    | none => simp [infTx]
    | some m => cases hk : m.kind.isTx <;> simp [infTx, hk, Msg.key]
  have eN : ((s.inFlight.toList.filter (fun m => !m.kind.isTx)) ++ s.nq).map Msg.iid = infN s.inFlight ++ s.nq.map Msg.iid := by
    rw [List.map_append]
    congr 1
    cases hi : s.inFlight with
    | none => simp [infN]
    | some m => cases hk : m.kind.isTx <;> simp [infN, hk]
  have nT : (((s.inFlight.toList.filter (·.kind.isTx)) ++ s.txq).map Msg.iid).Nodup := by
    rw [eT]; exact hI.sorted.imp (fun h => by omega)
  have nN : (((s.inFlight.toList.filter (fun m => !m.kind.isTx)) ++ s.nq).map Msg.iid).Nodup := by rw [eN]; exact hI.nNodup
  have split : ∀ y ∈ s.held, y ∈ (s.inFlight.toList.filter (·.kind.isTx)) ++ s.txq ∨
      y ∈ (s.inFlight.toList.filter (fun m => !m.kind.isTx)) ++ s.nq := by
    intro y hy
    simp only [St.held, List.mem_append, List.mem_filter] at hy ⊢
    rcases hy with (hy | hy) | hy
    · cases hk : y.kind.isTx
      · exact Or.inr (Or.inl ⟨hy, by simp [hk]⟩)
      · exact Or.inl (Or.inl ⟨hy, by simp [hk]⟩)
    · exact Or.inr (Or.inr hy)
    · exact Or.inl (Or.inr hy)
  have disj : ∀ a b, a ∈ (s.inFlight.toList.filter (·.kind.isTx)) ++ s.txq →
      b ∈ (s.inFlight.toList.filter (fun m => !m.kind.isTx)) ++ s.nq → a.iid = b.iid → False := by
    intro a b ha hb e
    have h1 : a.iid ∈ s.dbT.map Row.iid := by rw [← eT]; exact List.mem_map_of_mem ha
    have h2 : b.iid ∈ infN s.inFlight ++ s.nq.map Msg.iid := by rw [← eN]; exact List.mem_map_of_mem hb
    exact hI.nDisj _ h2 (e ▸ h1)
  rcases split m hm with a | a <;> rcases split x hx with c | c
  · exact eq_of_nodup_map nT a c hi
  · exact (disj _ _ a c hi).elim
  · exact (disj _ _ c a hi.symm).elim
  · exact eq_of_nodup_map nN a c hi

theorem SInv.heldLt {s : St} (h : SInv s) {m : Msg} (hm : m ∈ s.held) : m.iid < s.nextId := by
  have hI : InvC s.txq s.nq s.inFlight s.dbN s.dbT s.nextId s.trace := h.inv
  have hT : ∀ k ∈ infTx s.inFlight ++ s.txq.map Msg.key, k.1 < s.nextId := by
    rw [← hI.eq]; intro k hk
    obtain ⟨r, hr, rfl⟩ := List.mem_map.1 hk
    exact hI.lt r hr
  simp only [St.held, List.mem_append] at hm
  rcases hm with (hm | hm) | hm
  · have e : s.inFlight = some m := by simpa using hm
    cases hk : m.kind.isTx
    · exact hI.nLt _ (by simp [e, infN, hk])
    · exact hT m.key (by simp [e, infTx, hk])
  · exact hI.nLt _ (by simp; right; exact ⟨m, hm, rfl⟩)
  · exact hT m.key (by simp; right; exact ⟨m, hm, rfl⟩)

/-- Message `i` will be transmitted with transaction id `t`. -/
structure J14 (u i : Nat) (t : Int) (tr0 : List Ev) (s : St) : Prop where
  keys : ∀ e ∈ s.midTx, e.1 < s.nextId
  lt : u < s.nextId ∧ i < s.nextId
  st : (s.midTx.lookup u = some t ∧ (∀ m ∈ s.nq ++ s.txq, m.iid = i ↔ m.uid = u) ∧ ∀ m, s.inFlight = some m → m.iid ≠ i) ∨
    (∀ m ∈ s.held, m.iid = i → m.txId = some t ∧ s.midTx.lookup m.uid = none)
  tr : ∃ es, s.trace = tr0 ++ es ∧ ∀ m, .send m ∈ es → m.iid = i → m.txId = some t

/-- What the surrounding code must not do: register ids of messages that do not exist, register another id for the
message, or register it as a MeterValues message. -/
def keepsTxId (u i : Nat) (s : St) : Op → Prop
  | .run (.restart _ _) => False
  | .crash _ _ _ _ => False
  | .run (.addStopped x _) => x < s.nextId ∧ x ≠ u ∧ ∀ m ∈ s.held, m.iid = i → m.uid ≠ x
  | .run (.notifyStart a _) => ∀ l, s.mvMap.lookup a = some l → ∀ m ∈ s.txq, m.iid = i → ¬ l.contains m.uid
  | _ => True

theorem J14.mono {u i : Nat} {t : Int} {tr0 : List Ev} {s s' : St} (h : J14 u i t tr0 s)
    (hm : s'.midTx = s.midTx) (hn : s.nextId ≤ s'.nextId)
    (hq : ∀ m ∈ s'.nq ++ s'.txq, m ∈ s.nq ++ s.txq ∨ (m.uid ≠ u ∧ m.iid ≠ i))
    (hi : ∀ m, s'.inFlight = some m → s.inFlight = some m)
    (ht : ∃ es, s'.trace = s.trace ++ es ∧ NoSend es) : J14 u i t tr0 s' := by
  refine ⟨?_, ⟨by have := h.lt.1; omega, by have := h.lt.2; omega⟩, ?_, ?_⟩
  · rw [hm]; intro e he; have := h.keys e he; omega
  · rw [hm]
    rcases h.st with ⟨h1, h2, h3⟩ | h1
    · refine Or.inl ⟨h1, ?_, fun m hm => h3 m (hi m hm)⟩
      intro m hm
      rcases hq m hm with h | ⟨h, h'⟩
      · exact h2 m h
      · simp [h, h']
    · refine Or.inr ?_
      intro m hm hii
      simp only [St.held, List.append_assoc, List.mem_append, Option.mem_toList] at hm
      rcases hm with hm | hm
      · exact h1 m (by simp [St.held, hi m hm]) hii
      · rcases hq m (by simpa using hm) with hm | hm
        · exact h1 m (by simp only [St.held, List.append_assoc, List.mem_append]; right; simpa using hm) hii
        · exact absurd hii hm.2
  · obtain ⟨es, e1, e2⟩ := h.tr
    obtain ⟨es', e3, e4⟩ := ht
    refine ⟨es ++ es', by rw [e3, e1, List.append_assoc], ?_⟩
    intro m hm
    rcases List.mem_append.1 hm with hm | hm
    · exact e2 m hm
    · exact absurd rfl (e4 _ hm m)

theorem sel_mem {s : St} {q : Q} {m : Msg}
    (h : (q = .tx ∧ s.selTx = some m) ∨ (q = .normal ∧ s.selTx = none ∧ s.selNormal = some m)) : m ∈ s.nq ++ s.txq := by
  rcases h with ⟨_, h⟩ | ⟨_, _, h⟩
  · unfold St.selTx at h
    split at h
    · cases h
    · rename_i x xs hx
      split at h
      · cases h; simp [hx]
      · cases h
  · have := List.mem_of_find?_eq_some h; simp [this]

theorem mem_updFirst_find {p : Msg → Bool} {m m2 : Msg} {l : List Msg} (hf : l.find? p = some m) (hn : (l.map Msg.iid).Nodup)
    {x : Msg} (hx : x ∈ updFirst p (fun _ => m2) l) : x = m2 ∨ x.iid ≠ m.iid := by
  induction l with
  | nil => simp at hf
  | cons a l ih =>
    simp only [List.map_cons, List.nodup_cons, List.mem_map, not_exists, not_and] at hn
    unfold updFirst at hx
    by_cases ha : p a = true
    · rw [List.find?_cons, ha] at hf; simp only [Option.some.injEq] at hf; subst hf
      rw [if_pos ha] at hx
      rcases List.mem_cons.1 hx with hx | hx
      · exact Or.inl hx
      · exact Or.inr (hn.1 x hx)
    · rw [List.find?_cons] at hf
      simp only [ha] at hf
      rw [if_neg ha] at hx
      rcases List.mem_cons.1 hx with hx | hx
      · right; rw [hx]; exact fun e => hn.1 m (List.mem_of_find?_eq_some hf) e.symm
      · exact ih hf hn.2 hx

/-- After a failed transmission, the message is held only in its updated form. -/
theorem failed_held {s : St} {q : Q} {m : Msg} (hS : SInv s) (hi : s.inFlight = none)
    (hs : (q = .tx ∧ s.selTx = some m) ∨ (q = .normal ∧ s.selTx = none ∧ s.selNormal = some m)) {s' : St} (v : FailPos s s' q m)
    {x : Msg} (hx : x ∈ s'.nq ++ s'.txq) (e : x.iid = m.iid) : x.uid = m.uid ∧ x.txId = (s.prepare m).txId := by
  have hmem := sel_mem hs
  have hheld : ∀ x ∈ s.nq ++ s.txq, x ∈ s.held := by
    intro x hx; simp only [St.held, List.append_assoc, List.mem_append] at hx ⊢; exact Or.inr hx
  have hI : InvC s.txq s.nq s.inFlight s.dbN s.dbT s.nextId s.trace := hS.inv
  have hdis : ∀ a ∈ s.txq, ∀ c ∈ s.nq, a.iid ≠ c.iid := by
    intro a ha c hc he
    have := hS.heldUnique (hheld a (by simp [ha])) (hheld c (by simp [hc])) he
    subst this
    have h1 := hI.nqKind a hc
    have h2 : a.key ∈ s.dbT.map Row.key := by rw [hI.eq]; simp; right; exact ⟨a, ha, rfl⟩
    obtain ⟨r, hr, hk⟩ := List.mem_map.1 h2
    have := hI.kind r hr
    simp only [Row.key, Msg.key, Prod.mk.injEq] at hk
    rw [hk.2, h1] at this; cases this
  rcases hs with ⟨rfl, hs⟩ | ⟨rfl, _, hs⟩
  · obtain ⟨hn, m2, h1, h2, h3, h4⟩ := v.tx rfl
    have hmt : ∃ tl, s.txq = m :: tl := by
      unfold St.selTx at hs
      split at hs
      · cases hs
      · rename_i x xs hx
        split at hs
        · cases hs; exact ⟨xs, hx⟩
        · cases hs
    obtain ⟨tl, ht⟩ := hmt
    rcases List.mem_append.1 hx with hx | hx
    · rw [hn] at hx; exact absurd e.symm (hdis m (by simp [ht]) x hx)
    · rw [h4] at hx
      rcases List.mem_cons.1 hx with rfl | hx
      · exact ⟨h1, h3⟩
      · have := hI.txqNodup
        rw [ht] at this hx
        simp only [List.map_cons, List.nodup_cons, List.mem_map, not_exists, not_and] at this
        exact absurd e (this.1 x hx)
  · obtain ⟨ht, m2, h1, h2, h3, h4⟩ := v.n rfl
    have hmn := List.mem_of_find?_eq_some hs
    rcases List.mem_append.1 hx with hx | hx
    · rcases mem_updFirst_find hs ((hI.nNodup).sublist (List.sublist_append_right _ _)) (h4.subset hx) with rfl | h
      · exact ⟨h1, h3⟩
      · exact absurd e h
    · rw [ht] at hx; exact absurd e (hdis x hx m hmn)

theorem J14.op {u i : Nat} {t : Int} {tr0 : List Ev} {s : St} {b : BaseOp} {s' : St} (v : OpView s b s') (hS : SInv s) (hS' : SInv s')
    (hb : keepsTxId u i s (.run b)) (h : J14 u i t tr0 s) : J14 u i t tr0 s' := by
  have mono0 : ∀ {s' : St}, s'.midTx = s.midTx → s'.nextId = s.nextId → s'.nq = s.nq → s'.txq = s.txq → s'.inFlight = s.inFlight →
      (∃ es, s'.trace = s.trace ++ es ∧ NoSend es) → J14 u i t tr0 s' := by
    intro s' a c d e f g
    exact h.mono a (by rw [c]; exact Nat.le_refl _) (by rw [d, e]; exact fun m hm => Or.inl hm) (by rw [f]; simp) g
  cases v with
  | push _ hpb hp =>
    refine h.mono (by rw [hp.eq]) (by rw [hp.eq]; exact Nat.le_succ _) ?_ (by rw [hp.eq]; simp)
      (op_noSend (b := b) (.push _ hpb hp) (Or.inr (Or.inr (by rintro rfl; simp [BaseOp.isPush] at hpb))))
    intro x hx
    rcases hp.queues with ⟨h1, h2⟩ | ⟨h1, m, e1, e2, e3, e4, e5, h2⟩
    · rw [h1, h2] at hx; exact Or.inl hx
    · have : x = m ∨ x ∈ s.nq ++ s.txq := by
        rcases h2 with ⟨a, c⟩ | ⟨a, c | c⟩
        all_goals
          rcases List.mem_append.1 hx with hx | hx
        · exact Or.inr (by simp [c.subset hx])
        · have := a.subset hx; simp at this; rcases this with h | h
          · exact Or.inr (by simp [h])
          · exact Or.inl h
        · have := c.subset hx; simp at this; rcases this with h | h
          · exact Or.inr (by simp [h])
          · exact Or.inl h
        · exact Or.inr (by simp [a.subset hx])
        · have := c.subset hx; simp at this; rcases this with h | h
          · exact Or.inl h
          · exact Or.inr (by simp [h])
        · exact Or.inr (by simp [a.subset hx])
      rcases this with rfl | this
      · right; have := h.lt; constructor <;> omega
      · exact Or.inl this
  | sent q m s' h0 h1 h2 haw hh hs v =>
    have hmem := sel_mem hs
    have hmid : s'.midTx = s.midTx.filter (fun e => e.1 != m.uid) := by rw [v.eq]
    have hnext : s'.nextId = s.nextId := by rw [v.eq]
    have htr : s'.trace = s.trace ++ [.send (s.prepare m)] := by rw [v.eq]
    have hin : s'.inFlight = some (s.prepare m) := by rw [v.eq]
    have hq : ∀ x ∈ s'.nq ++ s'.txq, x ∈ s.nq ++ s.txq := by
      intro x hx
      rcases List.mem_append.1 hx with hx | hx
      · simp [v.nq.subset hx]
      · rw [v.txq] at hx; split at hx
        · simp [List.mem_of_mem_tail hx]
        · simp [hx]
    have hheld : ∀ x ∈ s.nq ++ s.txq, x ∈ s.held := by
      intro x hx; simp only [St.held, List.append_assoc, List.mem_append] at hx ⊢; exact Or.inr hx
    have hmine : m.iid = i → (s.prepare m).txId = some t := by
      intro hi
      rcases h.st with ⟨h1, h2, h3⟩ | h1
      · have : m.uid = u := (h2 m hmem).1 hi
        simp [St.prepare, this, h1]
      · have := h1 m (hheld m hmem) hi
        simp [St.prepare, this.1, this.2]
    refine ⟨?_, by rw [hnext]; exact h.lt, ?_, ?_⟩
    · rw [hmid, hnext]; intro e he; exact h.keys e (List.mem_filter.1 he).1
    · by_cases hi : m.iid = i
      · right
        intro x hx hxi
        have hx' : s.prepare m = x := hS'.heldUnique (by simp [St.held, hin]) hx (by rw [hxi]; exact hi)
        subst hx'
        refine ⟨hmine hi, ?_⟩
        rw [hmid]; exact lookup_filter_self _ _
      · rcases h.st with ⟨h1, h2, h3⟩ | h1
        · left
          have hne : m.uid ≠ u := fun e => hi ((h2 m hmem).2 e)
          refine ⟨by rw [hmid, lookup_filter_ne _ _ _ hne]; exact h1, fun x hx => h2 x (hq x hx), ?_⟩
          intro x hx; rw [hin] at hx; cases hx; exact hi
        · right
          intro x hx hxi
          simp only [St.held, List.append_assoc, List.mem_append, Option.mem_toList] at hx
          rcases hx with hx | hx
          · rw [hin] at hx; cases hx; exact absurd hxi hi
          · have := h1 x (hheld x (hq x (by simpa using hx))) hxi
            exact ⟨this.1, by rw [hmid]; exact lookup_filter_none _ _ _ this.2⟩
    · obtain ⟨es, e1, e2⟩ := h.tr
      refine ⟨es ++ [.send (s.prepare m)], by rw [htr, e1, List.append_assoc], ?_⟩
      intro x hx hxi
      rcases List.mem_append.1 hx with hx | hx
      · exact e2 x hx hxi
      · simp at hx; subst hx; exact hmine hxi
  | fail q m s' h0 h1 h2 haw hs v vp =>
    have hmem := sel_mem hs
    have hmid : s'.midTx = s.midTx.filter (fun e => e.1 != m.uid) := by rw [v.eq]
    have hnext : s'.nextId = s.nextId := by rw [v.eq]
    have hin : s'.inFlight = none := by rw [v.eq]
    have hq : ∀ x ∈ s'.nq ++ s'.txq, x ∈ s.nq ++ s.txq ∨ (x.uid = m.uid ∧ x.iid = m.iid ∧ x.txId = (s.prepare m).txId) := by
      intro x hx
      rcases List.mem_append.1 hx with hx | hx
      · rcases v.nq x hx with h | ⟨a, c, _, d⟩
        · exact Or.inl (by simp [h])
        · exact Or.inr ⟨a, c, d⟩
      · rcases v.txq with e | ⟨m2, a, c, _, d, e⟩
        · rw [e] at hx; exact Or.inl (by simp [hx])
        · rw [e] at hx
          rcases List.mem_cons.1 hx with rfl | hx
          · exact Or.inr ⟨a, c, d⟩
          · exact Or.inl (by simp [List.mem_of_mem_tail hx])
    have hheld : ∀ x ∈ s.nq ++ s.txq, x ∈ s.held := by
      intro x hx; simp only [St.held, List.append_assoc, List.mem_append] at hx ⊢; exact Or.inr hx
    have hmine : m.iid = i → (s.prepare m).txId = some t := by
      intro hi
      rcases h.st with ⟨h1, h2, h3⟩ | h1
      · have : m.uid = u := (h2 m hmem).1 hi
        simp [St.prepare, this, h1]
      · have := h1 m (hheld m hmem) hi
        simp [St.prepare, this.1, this.2]
    refine ⟨?_, by rw [hnext]; exact h.lt, ?_, ?_⟩
    · rw [hmid, hnext]; intro e he; exact h.keys e (List.mem_filter.1 he).1
    · by_cases hi : m.iid = i
      · right
        intro x hx hxi
        simp only [St.held, hin, List.append_assoc, List.mem_append, Option.mem_toList] at hx
        rcases hx with hx | hx
        · cases hx
        · have := failed_held hS h1 hs vp (x := x) (by simpa using hx) (by rw [hxi, hi])
          refine ⟨by rw [this.2]; exact hmine hi, ?_⟩
          rw [hmid, this.1]; exact lookup_filter_self _ _
      · rcases h.st with ⟨h1, h2, h3⟩ | h1
        · left
          have hne : m.uid ≠ u := fun e => hi ((h2 m hmem).2 e)
          refine ⟨by rw [hmid, lookup_filter_ne _ _ _ hne]; exact h1, fun x hx => ?_, by rw [hin]; simp⟩
          rcases hq x hx with hx | ⟨a, c, _⟩
          · exact h2 x hx
          · rw [a, c]; exact h2 m hmem
        · right
          intro x hx hxi
          simp only [St.held, hin, List.append_assoc, List.mem_append, Option.mem_toList] at hx
          rcases hx with hx | hx
          · cases hx
          · rcases hq x (by simpa using hx) with hx | ⟨a, c, _⟩
            · have := h1 x (hheld x hx) hxi
              exact ⟨this.1, by rw [hmid]; exact lookup_filter_none _ _ _ this.2⟩
            · exact absurd (c ▸ hxi) hi
    · obtain ⟨es, e1, e2⟩ := h.tr
      obtain ⟨es', e3, e4⟩ := v.trace
      refine ⟨es ++ es', by rw [e3, e1, List.append_assoc], ?_⟩
      intro x hx
      rcases List.mem_append.1 hx with hx | hx
      · exact e2 x hx
      · have := e4 _ hx; simp at this
  | result u' s' hbe v =>
    refine h.mono (by rw [v.eq]) (by rw [v.eq]; exact Nat.le_refl _) (by rw [v.eq]; exact fun m hm => Or.inl hm) ?_
      (op_noSend (b := b) (.result u' s' hbe v) (Or.inr (Or.inr (by rw [hbe]; simp))))
    rcases v.fl with ⟨a, _⟩ | ⟨a, _⟩ <;> rw [a] <;> simp
  | seen z v =>
    obtain ⟨es, h1, h2⟩ := v.trace
    exact mono0 (by rw [v.eq]) (by rw [v.eq]) (by rw [v.eq]) (by rw [v.eq]) (by rw [v.eq]) ⟨es, h1, isIn_noSend h2⟩
  | failed m z s' hi v1 v =>
    obtain ⟨es, g1, g2⟩ := v1.trace
    obtain ⟨es', g3, g4⟩ := v.trace
    have htr : ∃ es, s'.trace = s.trace ++ es ∧ NoSend es := by
      refine ⟨es ++ es', by rw [g3, g1, List.append_assoc], noSend_append (isIn_noSend g2) ?_⟩
      rintro e he m rfl; have := g4 _ he; simp at this
    have hzi : z.inFlight = s.inFlight := by rw [v1.eq]
    have hzt : z.txq = s.txq := by rw [v1.eq]
    have hzn : z.nq = s.nq := by rw [v1.eq]
    have hzx : z.nextId = s.nextId := by rw [v1.eq]
    have hzm : z.midTx = s.midTx := by rw [v1.eq]
    have hmid : s'.midTx = s.midTx := by rw [← hzm, v.eq]
    have hfl : ∀ x, s'.inFlight = some x → s.inFlight = some x := by
      rcases v.fl with ⟨a, _⟩ | ⟨a, _⟩ <;> rw [a]
      · simp
      · rw [hzi]; simp
    rcases v.queues with ⟨a, c⟩ | ⟨m', hu, hii, _, htx, hnext, hq⟩
    · exact h.mono hmid (by rw [← hzx]; exact v.next) (by rw [a, c, hzt, hzn]; exact fun m hm => Or.inl hm) hfl htr
    · have hmem : ∀ x ∈ s'.nq ++ s'.txq, x = m' ∨ x ∈ s.nq ++ s.txq := by
        intro x hx
        rcases hq with ⟨e1, e2⟩ | ⟨e1, e2⟩ <;> rw [e1, e2, hzt, hzn] at hx <;> simp at hx ⊢ <;> rcases hx with h | h | h <;> simp [h]
      rw [hzx] at hu hnext
      have hlt := h.lt
      refine ⟨?_, by omega, ?_, ?_⟩
      · rw [hmid]; intro e he; have := h.keys e he; omega
      · rw [hmid]
        rcases h.st with ⟨h1, h2, h3⟩ | h1
        · refine Or.inl ⟨h1, ?_, fun x hx => h3 x (hfl x hx)⟩
          intro x hx
          rcases hmem x hx with rfl | hx
          · have hne : x.uid ≠ u := by omega
            have hne' : x.iid ≠ i := by rw [hii]; exact h3 m hi
            simp [hne, hne']
          · exact h2 x hx
        · refine Or.inr ?_
          intro x hx hxi
          simp only [St.held, List.append_assoc, List.mem_append, Option.mem_toList] at hx
          rcases hx with hx | hx
          · exact h1 x (by simp [St.held, hfl x hx]) hxi
          · rcases hmem x (by simpa using hx) with rfl | hx
            · refine ⟨?_, by rw [hu]; exact lookup_none_of_lt h.keys⟩
              rw [htx]; exact (h1 m (by simp [St.held, hi]) (by rw [← hii]; exact hxi)).1
            · exact h1 x (by simp only [St.held, List.append_assoc, List.mem_append] at hx ⊢; exact Or.inr hx) hxi
      · obtain ⟨es, e1, e2⟩ := h.tr
        obtain ⟨es', e3, e4⟩ := htr
        refine ⟨es ++ es', by rw [e3, e1, List.append_assoc], ?_⟩
        intro m hm
        rcases List.mem_append.1 hm with hm | hm
        · exact e2 m hm
        · exact absurd rfl (e4 _ hm m)
  | addStopped x y hbe =>
    rw [hbe] at hb
    obtain ⟨b1, b2, b3⟩ := hb
    refine ⟨?_, h.lt, ?_, h.tr⟩
    · intro e he
      simp only [List.mem_cons, List.mem_filter] at he
      rcases he with rfl | he
      · exact b1
      · exact h.keys e he.1
    · rcases h.st with ⟨h1, h2, h3⟩ | h1
      · refine Or.inl ⟨?_, h2, h3⟩
        have : (u == x) = false := by simp; exact fun e => b2 e.symm
        simp only [List.lookup_cons, this]
        rw [lookup_filter_ne _ _ _ b2]; exact h1
      · refine Or.inr ?_
        intro m hm hi
        refine ⟨(h1 m hm hi).1, ?_⟩
        have hne := b3 m hm hi
        have : (m.uid == x) = false := by simp [hne]
        simp only [List.lookup_cons, this]
        exact lookup_filter_none _ _ _ (h1 m hm hi).2
  | notifyStart a tt l hbe hl =>
    rw [hbe] at hb
    have hno : ∀ m ∈ s.txq, m.iid = i → ¬ l.contains m.uid = true := fun m hm hi => hb l hl m hm hi
    refine ⟨h.keys, h.lt, ?_, h.tr⟩
    rcases h.st with ⟨h1, h2, h3⟩ | h1
    · refine Or.inl ⟨h1, ?_, h3⟩
      intro m hm
      simp only [List.mem_append, List.mem_map] at hm
      rcases hm with hm | ⟨y, hy, e⟩
      · exact h2 m (by simp [hm])
      · have e1 : m.iid = y.iid := by rw [← e]; split <;> rfl
        have e2 : m.uid = y.uid := by rw [← e]; split <;> rfl
        rw [e1, e2]; exact h2 y (by simp [hy])
    · refine Or.inr ?_
      intro m hm hi
      simp only [St.held, List.append_assoc, List.mem_append, List.mem_map] at hm
      rcases hm with hm | hm | ⟨y, hy, e⟩
      · exact h1 m (by simp only [St.held, List.append_assoc, List.mem_append]; exact Or.inl hm) hi
      · exact h1 m (by simp [St.held, hm]) hi
      · have e1 : m.iid = y.iid := by rw [← e]; split <;> rfl
        have hyi : y.iid = i := by rw [← e1]; exact hi
        have : m = y := by rw [← e, if_neg (hno y hy hyi)]
        subst this
        exact h1 m (by simp [St.held, hy]) hi
  | csmsCall | reply | acc => exact mono0 rfl rfl rfl rfl rfl ⟨[_], rfl, by simp [NoSend]⟩
  | _ => exact mono0 rfl rfl rfl rfl rfl ⟨[], by simp, by simp [NoSend]⟩

theorem run_J14 {u i : Nat} {t : Int} {tr0 : List Ev} (s : St) (hs : SInv s) (h : J14 u i t tr0 s) (ops : List Op)
    (hops : Along (keepsTxId u i) s ops) : J14 u i t tr0 (run s ops) := by
  refine run_state (J := J14 u i t tr0) (ok := keepsTxId u i) (fun _ h => ⟨h.keys, h.lt, h.st, h.tr⟩) ?_ ?_ ?_ _ hs h ops hops
  · intro s b hS hf hr ho hw h
    have hstep : step s (.run b) = baseStep s b := by
      have : ({ s with writes := [] } : St) = s := by cases s; simp_all
      unfold step; rw [if_neg (by simp [hf])]; show baseStep { s with writes := [] } b = _; rw [this]
    exact J14.op (opView s b hr) hS (hstep ▸ step_sinv s (.run b) hS) ho h
  · intro s op h
    cases op with
    | run b => cases b <;> exact h
    | crash => exact h
  · intro s p s' cfg ign op ho hS h hn ht hf hop
    cases op with
    | run b => rw [hop b rfl] at ho; exact ho.elim
    | crash => exact ho.elim

/-- MeterValues message `u` is registered under StartTransaction `a`. -/
def JMv (a u : Nat) (s : St) : Prop := ∃ l, s.mvMap.lookup a = some l ∧ u ∈ l

/-- No restart, and no answer to StartTransaction `a` yet. -/
def beforeStart (a : Nat) : Op → Prop
  | .run (.restart _ _) => False
  | .crash _ _ _ _ => False
  | .run (.notifyStart a' _) => a' ≠ a
  | _ => True

theorem JMv.op {a u : Nat} {s : St} {b : BaseOp} {s' : St} (v : OpView s b s') (hb : beforeStart a (.run b)) (h : JMv a u s) :
    JMv a u s' := by
  cases v with
  | push _ _ hp => rw [hp.eq]; exact h
  | sent q m s' h0 h1 h2 _ _ _ v => rw [v.eq]; exact h
  | fail q m s' h0 h1 h2 _ _ v => rw [v.eq]; exact h
  | result u s' _ v => rw [v.eq]; exact h
  | seen z v => rw [v.eq]; exact h
  | failed m z s' _ v1 v =>
    have hz : JMv a u z := by rw [v1.eq]; exact h
    rw [v.eq]; exact hz
  | mv a' x mv hbe he =>
    obtain ⟨l, h1, h2⟩ := h
    unfold JMv
    simp only [he, St.addMeterValueId]
    by_cases ha : a' = a
    · subst ha
      rw [h1]
      exact ⟨l ++ [x], by simp [List.lookup_cons], by simp [h2]⟩
    · have hne : (a == a') = false := by simp; exact fun e => ha e.symm
      split
      · refine ⟨l, ?_, h2⟩
        simp only [List.lookup_cons, hne]
        rw [lookup_filter_ne _ _ _ ha]; exact h1
      · refine ⟨l, ?_, h2⟩
        simp only [List.lookup_cons, hne]; exact h1
  | notifyStart a' t l hbe hl =>
    rw [hbe] at hb
    obtain ⟨l, h1, h2⟩ := h
    exact ⟨l, by simp only; rw [lookup_filter_ne _ _ _ hb]; exact h1, h2⟩
  | _ => exact h

theorem run_JMv {a u : Nat} (s : St) (hs : SInv s) (h : JMv a u s) (ops : List Op)
    (hops : ∀ op ∈ ops, beforeStart a op) : JMv a u (run s ops) := by
  refine run_state (J := JMv a u) (ok := fun _ => beforeStart a) (fun _ h => h) ?_ (fun _ _ h => h) ?_ _ hs h ops (along_of_forall hops)
  · intro s b hS hf hr ho hw h; exact JMv.op (opView s b hr) ho h
  · intro s p s' cfg ign op ho hS h hn ht hf hop
    cases op with
    | run b => rw [hop b rfl] at ho; exact ho.elim
    | crash => exact ho.elim

end Verif.MQ
