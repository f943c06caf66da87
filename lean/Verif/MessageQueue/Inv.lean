import Verif.MessageQueue.Spec

/-! # Core invariant of the queue: ordering and persistence of transaction messages -/

namespace Verif.MQ

def Msg.key (m : Msg) : Nat × Kind := (m.iid, m.kind)
def Row.key (r : Row) : Nat × Kind := (r.iid, r.kind)

def infTx : Option Msg → List (Nat × Kind)
  | some m => if m.kind.isTx then [m.key] else []
  | none => []

def infN : Option Msg → List Nat
  | some m => if m.kind.isTx then [] else [m.iid]
  | none => []

structure InvC (txq nq : List Msg) (inf : Option Msg) (dbN dbT : List Row) (nextId : Nat) (tr : List Ev) :
    Prop where
  eq : dbT.map Row.key = infTx inf ++ txq.map Msg.key
  kind : ∀ r ∈ dbT, r.kind.isTx = true
  sorted : (dbT.map Row.iid).Pairwise (· < ·)
  lt : ∀ r ∈ dbT, r.iid < nextId
  nqKind : ∀ m ∈ nq, m.kind.isTx = false
  nLt : ∀ i ∈ infN inf ++ nq.map Msg.iid, i < nextId
  nDisj : ∀ i ∈ infN inf ++ nq.map Msg.iid, i ∉ dbT.map Row.iid
  nNodup : (infN inf ++ nq.map Msg.iid).Nodup
  dbNKind : ∀ r ∈ dbN, r.kind.isTx = false
  dbNLt : ∀ r ∈ dbN, r.iid < nextId
  dbNDisj : ∀ r ∈ dbN, r.iid ∉ dbT.map Row.iid
  dbNNodup : (dbN.map Row.iid).Nodup
  sendsLt : ∀ i ∈ txSends tr, i < nextId
  sendsLe : ∀ i ∈ txSends tr, ∀ r ∈ dbT, i ≤ r.iid
  sendsSorted : (txSends tr).Pairwise (· ≤ ·)
  spec : pendingTx tr = dbT.map Row.iid
  pushed : (pushIds tr ++ [nextId]).Pairwise (· < ·)
  att0 : ∀ r ∈ dbT, r.attempts = 0

def Inv (s : St) : Prop := InvC s.txq s.nq s.inFlight s.dbN s.dbT s.nextId s.trace

/-! ## Trace bookkeeping -/

@[simp] theorem txSends_append (a b : List Ev) : txSends (a ++ b) = txSends a ++ txSends b := by
  simp [txSends, List.filterMap_append]

/-- Events that matter neither for `txSends` nor for `pendingTx`. -/
def Ev.dull : Ev → Bool
  | .push _ _ | .send _ | .done _ _ => false
  | _ => true

theorem txSends_dull {e : Ev} (h : e.dull = true) (tr : List Ev) : txSends (tr ++ [e]) = txSends tr := by
  cases e <;> simp_all [txSends, Ev.dull]

theorem pushIds_snoc (tr : List Ev) (e : Ev) :
    pushIds (tr ++ [e]) = pushIds tr ++ (match e with | .push i _ => [i] | _ => []) := by
  cases e <;> simp [pushIds]

theorem pushIds_dull {e : Ev} (h : e.dull = true) (tr : List Ev) : pushIds (tr ++ [e]) = pushIds tr := by
  cases e <;> simp_all [pushIds, Ev.dull]

theorem pushed_push {tr : List Ev} {n i : Nat} {k : Kind} (h : (pushIds tr ++ [n]).Pairwise (· < ·)) (hi : i = n) :
    (pushIds (tr ++ [.push i k]) ++ [n + 1]).Pairwise (· < ·) := by
  subst hi
  rw [pushIds_snoc]
  simp only
  rw [List.pairwise_append]
  refine ⟨h, by simp, ?_⟩
  intro a ha b hb
  simp at hb; subst hb
  rw [List.pairwise_append] at h
  rcases List.mem_append.1 ha with ha | ha
  · have := h.2.2 a ha i (by simp); omega
  · simp at ha; omega

theorem pushed_next {l : List Nat} {n n' : Nat} (h : (l ++ [n]).Pairwise (· < ·)) (hn : n ≤ n') :
    (l ++ [n']).Pairwise (· < ·) := by
  rw [List.pairwise_append] at h ⊢
  refine ⟨h.1, by simp, ?_⟩
  intro a ha b hb
  simp at hb; subst hb
  have := h.2.2 a ha n (by simp); omega

theorem pendingTx_snoc (tr : List Ev) (e : Ev) : pendingTx (tr ++ [e]) = pendStep (pendingTx tr) e := by
  simp [pendingTx, List.foldl_append]

theorem pendingTx_dull {e : Ev} (h : e.dull = true) (tr : List Ev) : pendingTx (tr ++ [e]) = pendingTx tr := by
  rw [pendingTx_snoc]; cases e <;> simp_all [Ev.dull, pendStep]

theorem InvC.dull {txq nq inf dbN dbT n tr} {e : Ev} (he : e.dull = true)
    (h : InvC txq nq inf dbN dbT n tr) : InvC txq nq inf dbN dbT n (tr ++ [e]) := by
  obtain ⟨h1, h2, h3, h4, h5, h6, h7, h8, h9, h10, h11, h12, h13, h14, h15, h16, h17, h18⟩ := h
  constructor <;> simp_all [txSends_dull he, pendingTx_dull he, pushIds_dull he]

theorem map_iid_of_key {a : List Row} {b : List (Nat × Kind)} (h : a.map Row.key = b) :
    a.map Row.iid = b.map Prod.fst := by
  subst h; simp [Function.comp_def, Row.key]

theorem InvC.ids {txq nq inf dbN dbT n tr} (h : InvC txq nq inf dbN dbT n tr) :
    dbT.map Row.iid = (infTx inf).map Prod.fst ++ txq.map Msg.iid := by
  rw [map_iid_of_key h.eq]; simp [Function.comp_def, Msg.key]

theorem InvC.txqKind {txq nq inf dbN dbT n tr} (h : InvC txq nq inf dbN dbT n tr) :
    ∀ m ∈ txq, m.kind.isTx = true := by
  intro m hm
  have : m.key ∈ dbT.map Row.key := by rw [h.eq]; simp; right; exact ⟨m, hm, rfl⟩
  obtain ⟨r, hr, he⟩ := List.mem_map.1 this
  have := h.kind r hr
  simp [Row.key, Msg.key] at he; rw [← he.2]; exact this

/-! ## Primitive changes -/

/-- Enqueue a transaction message. -/
theorem InvC.pushTx {txq nq inf dbN dbT n tr} (h : InvC txq nq inf dbN dbT n tr) {m : Msg}
    (hk : m.kind.isTx = true) (hi : m.iid = n) (ha : m.attempts = 0) :
    InvC (txq ++ [m]) nq inf dbN (dbT ++ [m.row]) (n + 1) (tr ++ [.push m.iid m.kind]) := by
  have hids := h.ids
  obtain ⟨h1, h2, h3, h4, h5, h6, h7, h8, h9, h10, h11, h12, h13, h14, h15, h16, h17, h18⟩ := h
  have e1 : m.row.key = m.key := rfl
  have e2 : m.row.iid = n := hi
  have ts : txSends (tr ++ [.push m.iid m.kind]) = txSends tr := by simp [txSends]
  have ps : pendingTx (tr ++ [.push m.iid m.kind]) = pendingTx tr ++ [m.iid] := by
    rw [pendingTx_snoc]; simp [hk, pendStep]
  constructor
  · simp [h1, e1]
  · intro r hr; simp at hr; rcases hr with hr | rfl
    · exact h2 r hr
    · exact hk
  · simp only [List.map_append, List.map_cons, List.map_nil, e2]
    rw [List.pairwise_append]
    refine ⟨h3, by simp, ?_⟩
    intro a ha b hb
    simp at ha hb; obtain ⟨r, hr, rfl⟩ := ha; subst hb; exact h4 r hr
  · intro r hr; simp at hr; rcases hr with hr | rfl
    · have := h4 r hr; omega
    · omega
  · exact h5
  · intro i hi'; have := h6 i hi'; omega
  · intro i hi'; have a := h7 i hi'; have b := h6 i hi'
    simp only [List.map_append, List.map_cons, List.map_nil, e2, List.mem_append, List.mem_singleton, not_or]
    exact ⟨a, by omega⟩
  · exact h8
  · exact h9
  · intro r hr; have := h10 r hr; omega
  · intro r hr; have a := h11 r hr; have b := h10 r hr
    simp only [List.map_append, List.map_cons, List.map_nil, e2, List.mem_append, List.mem_singleton, not_or]
    exact ⟨a, by omega⟩
  · exact h12
  · rw [ts]; intro i hi'; have := h13 i hi'; omega
  · rw [ts]; intro i hi' r hr; simp at hr; rcases hr with hr | rfl
    · exact h14 i hi' r hr
    · have := h13 i hi'; omega
  · rw [ts]; exact h15
  · rw [ps, h16]; simp [e2, hi]
  · exact pushed_push h17 hi
  · intro r hr; simp at hr; rcases hr with hr | rfl
    · exact h18 r hr
    · exact ha

/-- Enqueue a normal message (`front`: at the front); `persist`: also in the database. -/
theorem InvC.pushN {txq nq inf dbN dbT n tr} (h : InvC txq nq inf dbN dbT n tr) {m : Msg}
    (hk : m.kind.isTx = false) (hi : m.iid = n) (nq' : List Msg) (hq : nq' = m :: nq ∨ nq' = nq ++ [m])
    (dbN' : List Row) (hd : dbN' = dbN ∨ dbN' = dbN ++ [m.row]) :
    InvC txq nq' inf dbN' dbT (n + 1) (tr ++ [.push m.iid m.kind]) := by
  have hids := h.ids
  obtain ⟨h1, h2, h3, h4, h5, h6, h7, h8, h9, h10, h11, h12, h13, h14, h15, h16, h17, h18⟩ := h
  have ts : txSends (tr ++ [.push m.iid m.kind]) = txSends tr := by simp [txSends]
  have ps : pendingTx (tr ++ [.push m.iid m.kind]) = pendingTx tr := by
    rw [pendingTx_snoc]; simp [hk, pendStep]
  have hmem : ∀ x, x ∈ nq' → x ∈ nq ∨ x = m := by
    intro x hx; rcases hq with rfl | rfl <;> simp at hx <;> grind
  have hmem' : ∀ x, x ∈ nq'.map Msg.iid → x ∈ nq.map Msg.iid ∨ x = n := by
    intro x hx; obtain ⟨y, hy, rfl⟩ := List.mem_map.1 hx
    rcases hmem y hy with h | rfl
    · left; exact List.mem_map.2 ⟨y, h, rfl⟩
    · right; exact hi
  have hdm : ∀ r, r ∈ dbN' → r ∈ dbN ∨ r = m.row := by
    intro r hr; rcases hd with rfl | rfl <;> grind
  have hn : n ∉ dbT.map Row.iid := by
    intro hc; obtain ⟨r, hr, he⟩ := List.mem_map.1 hc; have := h4 r hr; omega
  constructor
  · exact h1
  · exact h2
  · exact h3
  · intro r hr; have := h4 r hr; omega
  · intro x hx; rcases hmem x hx with h | rfl
    · exact h5 x h
    · exact hk
  · intro i hi'; rcases List.mem_append.1 hi' with h | h
    · have := h6 i (List.mem_append_left _ h); omega
    · rcases hmem' i h with h | rfl
      · have := h6 i (List.mem_append_right _ h); omega
      · omega
  · intro i hi'; rcases List.mem_append.1 hi' with h | h
    · exact h7 i (List.mem_append_left _ h)
    · rcases hmem' i h with h | rfl
      · exact h7 i (List.mem_append_right _ h)
      · exact hn
  · have hnn : n ∉ infN inf ++ nq.map Msg.iid := fun hc => by have := h6 n hc; omega
    rcases hq with rfl | rfl
    · simp only [List.map_cons, hi]
      have : (infN inf ++ n :: nq.map Msg.iid).Perm (n :: (infN inf ++ nq.map Msg.iid)) := List.perm_middle
      rw [this.nodup_iff]; exact List.nodup_cons.2 ⟨hnn, h8⟩
    · simp only [List.map_append, List.map_cons, List.map_nil, hi, ← List.append_assoc]
      have : (infN inf ++ nq.map Msg.iid ++ [n]).Perm (n :: (infN inf ++ nq.map Msg.iid)) :=
        List.perm_append_comm
      rw [this.nodup_iff]; exact List.nodup_cons.2 ⟨hnn, h8⟩
  · intro r hr; rcases hdm r hr with h | rfl
    · exact h9 r h
    · exact hk
  · intro r hr; rcases hdm r hr with h | rfl
    · have := h10 r h; omega
    · have : m.row.iid = n := hi
      omega
  · intro r hr; rcases hdm r hr with h | rfl
    · exact h11 r h
    · have : m.row.iid = n := hi
      rw [this]; exact hn
  · rcases hd with rfl | rfl
    · exact h12
    · have hnn : n ∉ dbN.map Row.iid := fun hc => by
        obtain ⟨r, hr, he⟩ := List.mem_map.1 hc; have := h10 r hr; omega
      have e : m.row.iid = n := hi
      simp only [List.map_append, List.map_cons, List.map_nil, e]
      have : (dbN.map Row.iid ++ [n]).Perm (n :: dbN.map Row.iid) := List.perm_append_comm
      rw [this.nodup_iff]; exact List.nodup_cons.2 ⟨hnn, h12⟩
  · rw [ts]; intro i hi'; have := h13 i hi'; omega
  · rw [ts]; exact h14
  · rw [ts]; exact h15
  · rw [ps, h16]
  · exact pushed_push h17 hi
  · exact h18

/-- Removing rows from the normal table. -/
theorem InvC.dbNSub {txq nq inf dbN dbT n tr} (h : InvC txq nq inf dbN dbT n tr) (dbN' : List Row)
    (hs : dbN'.Sublist dbN) : InvC txq nq inf dbN' dbT n tr := by
  obtain ⟨h1, h2, h3, h4, h5, h6, h7, h8, h9, h10, h11, h12, h13, h14, h15, h16, h17, h18⟩ := h
  exact ⟨h1, h2, h3, h4, h5, h6, h7, h8, fun r hr => h9 r (hs.subset hr), fun r hr => h10 r (hs.subset hr),
    fun r hr => h11 r (hs.subset hr), h12.sublist (hs.map _), h13, h14, h15, h16, h17, h18⟩

/-- `done` of something that is not a pending transaction message. -/
theorem InvC.doneN {txq nq inf dbN dbT n tr} (h : InvC txq nq inf dbN dbT n tr) (i : Nat) (w : Reason)
    (hi : i ∉ dbT.map Row.iid) : InvC txq nq inf dbN dbT n (tr ++ [.done i w]) := by
  obtain ⟨h1, h2, h3, h4, h5, h6, h7, h8, h9, h10, h11, h12, h13, h14, h15, h16, h17, h18⟩ := h
  have ts : txSends (tr ++ [.done i w]) = txSends tr := by simp [txSends]
  have ps : pendingTx (tr ++ [.done i w]) = pendingTx tr := by
    rw [pendingTx_snoc]; simp only [pendStep]
    rw [h16, List.filter_eq_self]
    intro a ha; simp; intro e; subst e; exact hi ha
  exact ⟨h1, h2, h3, h4, h5, h6, h7, h8, h9, h10, h11, h12, ts ▸ h13, ts ▸ h14, ts ▸ h15, ps ▸ h16, by rw [pushIds_snoc]; simpa using h17, h18⟩

/-- Shrinking the normal queue / dropping the normal in-flight message. -/
theorem InvC.nSub {txq nq inf dbN dbT n tr} (h : InvC txq nq inf dbN dbT n tr) (nq' : List Msg) (inf' : Option Msg)
    (hT : infTx inf' = infTx inf)
    (hK : ∀ m ∈ nq', m.kind.isTx = false)
    (hs : ∃ l : List Nat, l.Perm (infN inf' ++ nq'.map Msg.iid) ∧ l.Sublist (infN inf ++ nq.map Msg.iid)) :
    InvC txq nq' inf' dbN dbT n tr := by
  obtain ⟨h1, h2, h3, h4, h5, h6, h7, h8, h9, h10, h11, h12, h13, h14, h15, h16, h17, h18⟩ := h
  obtain ⟨l, hp, hl⟩ := hs
  exact ⟨by rw [hT]; exact h1, h2, h3, h4, hK,
    fun i hi => h6 i (hl.subset (hp.mem_iff.2 hi)), fun i hi => h7 i (hl.subset (hp.mem_iff.2 hi)),
    (hp.nodup_iff).1 (h8.sublist hl), h9, h10, h11, h12, h13, h14, h15, h16, h17, h18⟩

/-- Changes of queue elements that keep number and kind. -/
theorem InvC.sameKeys {txq nq inf dbN dbT n tr} (h : InvC txq nq inf dbN dbT n tr) (txq' nq' : List Msg)
    (ht : txq'.map Msg.key = txq.map Msg.key) (hn : nq'.map Msg.key = nq.map Msg.key) :
    InvC txq' nq' inf dbN dbT n tr := by
  obtain ⟨h1, h2, h3, h4, h5, h6, h7, h8, h9, h10, h11, h12, h13, h14, h15, h16, h17, h18⟩ := h
  have hi : nq'.map Msg.iid = nq.map Msg.iid := by
    have := congrArg (List.map Prod.fst) hn
    simpa [Function.comp_def, Msg.key] using this
  refine ⟨by rw [ht]; exact h1, h2, h3, h4, ?_, by rw [hi]; exact h6, by rw [hi]; exact h7, by rw [hi]; exact h8,
    h9, h10, h11, h12, h13, h14, h15, h16, h17, h18⟩
  intro m hm
  have : m.key ∈ nq.map Msg.key := by rw [← hn]; exact List.mem_map.2 ⟨m, hm, rfl⟩
  obtain ⟨x, hx, he⟩ := List.mem_map.1 this
  have := h5 x hx
  simp [Msg.key] at he
  rw [← he.2]; exact this

theorem txSends_send (tr : List Ev) (m : Msg) :
    txSends (tr ++ [.send m]) = if m.kind.isTx then txSends tr ++ [m.iid] else txSends tr := by
  simp [txSends]; split <;> simp_all

theorem pendingTx_send (tr : List Ev) (m : Msg) : pendingTx (tr ++ [.send m]) = pendingTx tr := by
  rw [pendingTx_snoc]; rfl

/-- The head of the transaction queue is transmitted. -/
theorem InvC.sendTx {rest nq dbN dbT n tr} {m m1 : Msg} (h : InvC (m :: rest) nq none dbN dbT n tr)
    (hk : m1.key = m.key) : InvC rest nq (some m1) dbN dbT n (tr ++ [.send m1]) := by
  have hkind := h.txqKind m (by simp)
  have hids := h.ids
  obtain ⟨h1, h2, h3, h4, h5, h6, h7, h8, h9, h10, h11, h12, h13, h14, h15, h16, h17, h18⟩ := h
  simp [Msg.key] at hk
  obtain ⟨hk1, hk2⟩ := hk
  have hm1 : m1.kind.isTx = true := by rw [hk2]; exact hkind
  have ts := txSends_send tr m1
  rw [if_pos hm1] at ts
  have hmem : ∃ r ∈ dbT, r.iid = m.iid := by
    have : m.iid ∈ dbT.map Row.iid := by rw [hids]; simp
    simpa using this
  obtain ⟨r0, hr0, hr0i⟩ := hmem
  simp only [infTx, List.map_nil, List.nil_append, List.map_cons] at hids
  constructor
  · rw [h1]; simp [infTx, hkind, Msg.key, hk1, hk2]
  · exact h2
  · exact h3
  · exact h4
  · exact h5
  · simpa [infN, hm1] using h6
  · simpa [infN, hm1] using h7
  · simpa [infN, hm1] using h8
  · exact h9
  · exact h10
  · exact h11
  · exact h12
  · rw [ts]; intro i hi; simp at hi; rcases hi with hi | rfl
    · exact h13 i hi
    · rw [hk1, ← hr0i]; exact h4 r0 hr0
  · rw [ts]; intro i hi r hr; simp at hi; rcases hi with hi | rfl
    · exact h14 i hi r hr
    · rw [hk1]
      have : r.iid ∈ dbT.map Row.iid := List.mem_map.2 ⟨r, hr, rfl⟩
      rw [hids] at this h3
      simp only [List.mem_cons] at this
      rcases this with e | e
      · omega
      · have := (List.pairwise_cons.1 h3).1 _ e; omega
  · rw [ts, List.pairwise_append]
    refine ⟨h15, by simp, ?_⟩
    intro a ha b hb; simp at hb; subst hb
    rw [hk1, ← hr0i]; exact h14 a ha r0 hr0
  · rw [pendingTx_send]; exact h16
  · rw [pushIds_snoc]; simpa using h17
  · exact h18

/-- A normal message is transmitted. -/
theorem InvC.sendN {txq nq dbN dbT n tr} {m1 : Msg} {nq' : List Msg} (h : InvC txq nq none dbN dbT n tr)
    (hk : m1.kind.isTx = false) (hp : (m1.iid :: nq'.map Msg.iid).Perm (nq.map Msg.iid))
    (hsub : ∀ x ∈ nq', x ∈ nq) :
    InvC txq nq' (some m1) dbN dbT n (tr ++ [.send m1]) := by
  obtain ⟨h1, h2, h3, h4, h5, h6, h7, h8, h9, h10, h11, h12, h13, h14, h15, h16, h17, h18⟩ := h
  have ts := txSends_send tr m1
  rw [if_neg (by simp [hk])] at ts
  simp only [infN, List.nil_append] at h6 h7 h8
  constructor
  · rw [h1]; simp [infTx, hk]
  · exact h2
  · exact h3
  · exact h4
  · intro x hx; exact h5 x (hsub x hx)
  · intro i hi; apply h6; apply hp.mem_iff.1; simpa [infN, hk] using hi
  · intro i hi; apply h7; apply hp.mem_iff.1; simpa [infN, hk] using hi
  · have := (hp.nodup_iff).2 h8; simpa [infN, hk] using this
  · exact h9
  · exact h10
  · exact h11
  · exact h12
  · rw [ts]; exact h13
  · rw [ts]; exact h14
  · rw [ts]; exact h15
  · rw [pendingTx_send]; exact h16
  · rw [pushIds_snoc]; simpa using h17
  · exact h18

/-- The outstanding transaction message is finished. -/
theorem InvC.finishTx {txq nq dbN dbT n tr} {m : Msg} (h : InvC txq nq (some m) dbN dbT n tr)
    (hk : m.kind.isTx = true) (w : Reason) :
    InvC txq nq none dbN (dbT.filter (fun r => r.iid != m.iid)) n (tr ++ [.done m.iid w]) := by
  have hids := h.ids
  obtain ⟨h1, h2, h3, h4, h5, h6, h7, h8, h9, h10, h11, h12, h13, h14, h15, h16, h17, h18⟩ := h
  have ts : txSends (tr ++ [.done m.iid w]) = txSends tr := by simp [txSends]
  have hsub : (dbT.filter (fun r => r.iid != m.iid)).Sublist dbT := List.filter_sublist
  -- the first row is the one of `m`
  obtain ⟨r0, dbT', rfl⟩ : ∃ r0 l, dbT = r0 :: l := by
    cases dbT with
    | nil => simp [infTx, hk] at h1
    | cons a l => exact ⟨a, l, rfl⟩
  simp only [infTx, hk, if_true, List.map_cons, List.singleton_append, List.cons.injEq] at h1
  obtain ⟨hr0, hrest⟩ := h1
  have hr0i : r0.iid = m.iid := congrArg Prod.fst hr0
  have hfil : (r0 :: dbT').filter (fun r => r.iid != m.iid) = dbT' := by
    rw [List.filter_cons_of_neg (by simp [hr0i]), List.filter_eq_self]
    intro a ha
    have := (List.pairwise_cons.1 h3).1 a.iid (List.mem_map.2 ⟨a, ha, rfl⟩)
    simp; omega
  rw [hfil]
  rw [hfil] at hsub
  constructor
  · simpa [infTx] using hrest
  · intro r hr; exact h2 r (hsub.subset hr)
  · exact (List.pairwise_cons.1 h3).2
  · intro r hr; exact h4 r (hsub.subset hr)
  · exact h5
  · simpa [infN, hk] using h6
  · intro i hi hc; exact h7 i (by simpa [infN, hk] using hi) ((hsub.map Row.iid).subset hc)
  · simpa [infN, hk] using h8
  · exact h9
  · exact h10
  · intro r hr hc; exact h11 r hr ((hsub.map Row.iid).subset hc)
  · exact h12
  · rw [ts]; exact h13
  · rw [ts]; intro i hi r hr; exact h14 i hi r (hsub.subset hr)
  · rw [ts]; exact h15
  · rw [pendingTx_snoc, h16]; simp only [pendStep]
    have hnot : ∀ a ∈ dbT'.map Row.iid, (a != m.iid) = true := by
      intro a ha; have := (List.pairwise_cons.1 h3).1 a ha
      simp; omega
    simp only [List.map_cons, hr0i]
    rw [List.filter_cons_of_neg (by simp), List.filter_eq_self.2 hnot]
  · rw [pushIds_snoc]; simpa using h17
  · intro r hr; exact h18 r (hsub.subset hr)

/-- The outstanding normal message is finished. -/
theorem InvC.finishN {txq nq dbN dbT n tr} {m : Msg} (h : InvC txq nq (some m) dbN dbT n tr)
    (hk : m.kind.isTx = false) (w : Reason) :
    InvC txq nq none dbN dbT n (tr ++ [.done m.iid w]) := by
  have hd : m.iid ∉ dbT.map Row.iid := h.nDisj _ (by simp [infN, hk])
  have h5 := h.nqKind
  exact (h.doneN m.iid w hd).nSub nq none (by simp [infTx, hk]) h5
    ⟨nq.map Msg.iid, by simp [infN], by simp [infN, hk]⟩

/-- The outstanding transaction message goes back to the front of its queue. -/
theorem InvC.requeueTx {txq nq dbN dbT n tr} {m m' : Msg} (h : InvC txq nq (some m) dbN dbT n tr)
    (hk : m.kind.isTx = true) (he : m'.key = m.key) : InvC (m' :: txq) nq none dbN dbT n tr := by
  obtain ⟨h1, h2, h3, h4, h5, h6, h7, h8, h9, h10, h11, h12, h13, h14, h15, h16, h17, h18⟩ := h
  exact ⟨by rw [h1]; simp [infTx, hk, he], h2, h3, h4, h5, by simpa [infN, hk] using h6,
    by simpa [infN, hk] using h7, by simpa [infN, hk] using h8, h9, h10, h11, h12, h13, h14, h15, h16, h17, h18⟩

/-- The outstanding normal message goes back to the front of its queue. -/
theorem InvC.requeueN {txq nq dbN dbT n tr} {m m' : Msg} (h : InvC txq nq (some m) dbN dbT n tr)
    (hk : m.kind.isTx = false) (he : m'.key = m.key) : InvC txq (m' :: nq) none dbN dbT n tr := by
  obtain ⟨h1, h2, h3, h4, h5, h6, h7, h8, h9, h10, h11, h12, h13, h14, h15, h16, h17, h18⟩ := h
  simp [Msg.key] at he
  refine ⟨by rw [h1]; simp [infTx, hk], h2, h3, h4, ?_, by simpa [infN, hk, he.1] using h6,
    by simpa [infN, hk, he.1] using h7, by simpa [infN, hk, he.1] using h8, h9, h10, h11, h12, h13, h14, h15, h16, h17, h18⟩
  intro x hx; simp at hx; rcases hx with rfl | hx
  · rw [he.2]; exact hk
  · exact h5 x hx

theorem InvC.next {txq nq inf dbN dbT n tr} (h : InvC txq nq inf dbN dbT n tr) {n' : Nat} (hn : n ≤ n') :
    InvC txq nq inf dbN dbT n' tr := by
  obtain ⟨h1, h2, h3, h4, h5, h6, h7, h8, h9, h10, h11, h12, h13, h14, h15, h16, h17, h18⟩ := h
  exact ⟨h1, h2, h3, fun r hr => Nat.lt_of_lt_of_le (h4 r hr) hn, h5, fun r hr => Nat.lt_of_lt_of_le (h6 r hr) hn,
    h7, h8, h9, fun r hr => Nat.lt_of_lt_of_le (h10 r hr) hn, h11, h12,
    fun r hr => Nat.lt_of_lt_of_le (h13 r hr) hn, h14, h15, h16, pushed_next h17 hn, h18⟩

/-- Transaction message number `i` in the queue is evicted. -/
theorem InvC.evict {txq nq inf dbN dbT n tr} (h : InvC txq nq inf dbN dbT n tr) (i : Nat)
    (hi : i ∉ (infTx inf).map Prod.fst) (w : Reason) :
    InvC (txq.filter (fun m => m.iid != i)) nq inf dbN (dbT.filter (fun r => r.iid != i)) n
      (tr ++ [.done i w]) := by
  have hids := h.ids
  obtain ⟨h1, h2, h3, h4, h5, h6, h7, h8, h9, h10, h11, h12, h13, h14, h15, h16, h17, h18⟩ := h
  have ts : txSends (tr ++ [.done i w]) = txSends tr := by simp [txSends]
  have hsub : (dbT.filter (fun r => r.iid != i)).Sublist dbT := List.filter_sublist
  have hmapf : ∀ (l : List Row), (l.filter (fun r => r.iid != i)).map Row.iid = (l.map Row.iid).filter (· != i) := by
    intro l; rw [List.filter_map]; rfl
  constructor
  · have e1 : (dbT.filter (fun r => r.iid != i)).map Row.key = (dbT.map Row.key).filter (fun p => p.1 != i) := by
      rw [List.filter_map]; rfl
    have e2 : (txq.filter (fun m => m.iid != i)).map Msg.key = (txq.map Msg.key).filter (fun p => p.1 != i) := by
      rw [List.filter_map]; rfl
    rw [e1, e2, h1, List.filter_append]
    congr 1
    rw [List.filter_eq_self]
    intro p hp; simp; intro e; exact hi (List.mem_map.2 ⟨p, hp, e⟩)
  · intro r hr; exact h2 r (hsub.subset hr)
  · exact h3.sublist (hsub.map _)
  · intro r hr; exact h4 r (hsub.subset hr)
  · exact h5
  · exact h6
  · intro j hj hc; exact h7 j hj ((hsub.map Row.iid).subset hc)
  · exact h8
  · exact h9
  · exact h10
  · intro r hr hc; exact h11 r hr ((hsub.map Row.iid).subset hc)
  · exact h12
  · rw [ts]; exact h13
  · rw [ts]; intro j hj r hr; exact h14 j hj r (hsub.subset hr)
  · rw [ts]; exact h15
  · rw [pendingTx_snoc, h16, hmapf]; rfl
  · rw [pushIds_snoc]; simpa using h17
  · intro r hr; exact h18 r (hsub.subset hr)

/-- Everything in memory is lost; only the database remains. -/
theorem InvC.crash {txq nq inf dbN dbT n tr} (h : InvC txq nq inf dbN dbT n tr) :
    InvC (dbT.map Row.load) [] none dbN dbT n tr := by
  obtain ⟨h1, h2, h3, h4, h5, h6, h7, h8, h9, h10, h11, h12, h13, h14, h15, h16, h17, h18⟩ := h
  exact ⟨by simp [infTx, Function.comp_def, Row.load, Msg.key, Row.key], h2, h3, h4, by simp,
    by simp [infN], by simp [infN], by simp [infN], h9, h10, h11, h12, h13, h14, h15, h16, h17, h18⟩

end Verif.MQ
