import Verif.MessageQueue.Reach

/-! # Invariants behind the individual properties -/

namespace Verif.MQ

set_option linter.unusedSimpArgs false

/-- `P` holds before every transmission in `tr`. -/
def BeforeSend (P : List Ev → Msg → Prop) (tr : List Ev) : Prop := ∀ a m b, tr = a ++ Ev.send m :: b → P a m

theorem beforeSend_snoc {P : List Ev → Msg → Prop} {tr : List Ev} {e : Ev} (h : BeforeSend P tr)
    (he : ∀ m, e = .send m → P tr m) : BeforeSend P (tr ++ [e]) := by
  intro a m b hab
  rcases List.eq_nil_or_concat b with rfl | ⟨b', x, rfl⟩
  · have := List.append_inj' hab (by simp)
    rw [← this.1]; exact he m (by simpa using this.2)
  · have hab' : tr ++ [e] = (a ++ Ev.send m :: b') ++ [x] := by simpa using hab
    have := List.append_inj' hab' (by simp)
    exact h a m b' this.1

theorem beforeSend_append {P : List Ev → Msg → Prop} {tr es : List Ev} (h : BeforeSend P tr)
    (he : ∀ e ∈ es, ∀ m, e ≠ .send m) : BeforeSend P (tr ++ es) := by
  induction es generalizing tr with
  | nil => simpa using h
  | cons e es ih =>
    have : tr ++ e :: es = (tr ++ [e]) ++ es := by simp
    rw [this]
    refine ih (beforeSend_snoc h ?_) (fun x hx => he x (by simp [hx]))
    intro m hm; exact absurd hm (he e (by simp) m)

/-- `P` holds before every occurrence of an event in `tr`. -/
def BeforeEv (P : List Ev → Ev → Prop) (tr : List Ev) : Prop := ∀ a e b, tr = a ++ e :: b → P a e

theorem beforeEv_snoc {P : List Ev → Ev → Prop} {tr : List Ev} {e : Ev} (h : BeforeEv P tr)
    (he : P tr e) : BeforeEv P (tr ++ [e]) := by
  intro a m b hab
  rcases List.eq_nil_or_concat b with rfl | ⟨b', x, rfl⟩
  · have := List.append_inj' hab (by simp)
    rw [← this.1]; have := this.2; simp at this; rw [← this]; exact he
  · have hab' : tr ++ [e] = (a ++ m :: b') ++ [x] := by simpa using hab
    have := List.append_inj' hab' (by simp)
    exact h a m b' this.1

/-- Events of an interrupted operation or of a restart. -/
theorem restart_events {p s s' : St} {cfg ign}
    {op : Op} (ht : Gap s p op)
    (hf : RestartFacts p s' cfg ign) :
    ∃ es ds, s'.trace = s.trace ++ es ++ [.restart] ++ ds ∧
      (∀ e ∈ es, (∃ i k, e = .push i k) ∨ ∃ i w, e = .done i w) ∧ (∀ e ∈ ds, ∃ i, e = .done i .ignored) := by
  obtain ⟨es, h1, h2, _⟩ := ht
  obtain ⟨ds, h3, h4⟩ := hf.tr
  exact ⟨es, ds, by rw [h3, h1], h2, fun e he => by obtain ⟨r, _, _, rfl⟩ := h4 e he; exact ⟨_, rfl⟩⟩

theorem foldl_neutral {α} (f : α → Ev → α) (es : List Ev) (h : ∀ e ∈ es, ∀ a, f a e = a) (a : α) :
    es.foldl f a = a := by
  induction es generalizing a with
  | nil => rfl
  | cons e es ih => simp only [List.foldl_cons]; rw [h e (by simp)]; exact ih (fun x hx => h x (by simp [hx])) a

theorem foldl_restart {α} (f : α → Ev → α) (s' : List Ev) (tr es ds : List Ev) (a0 r : α)
    (hr : ∀ a, f a .restart = r) (hd : ∀ e ∈ ds, ∀ a, f a e = a)
    (e : s' = tr ++ es ++ [.restart] ++ ds) : s'.foldl f a0 = r := by
  subst e
  simp only [List.foldl_append, List.foldl_cons, List.foldl_nil, hr]
  exact foldl_neutral f ds hd r

theorem beforeSend_restart {P : List Ev → Msg → Prop} {p s s' : St} {cfg ign} (h : BeforeSend P s.trace)
    {op : Op} (ht : Gap s p op)
    (hf : RestartFacts p s' cfg ign) : BeforeSend P s'.trace := by
  obtain ⟨es, ds, e1, e2, e3⟩ := restart_events ht hf
  rw [e1]
  refine beforeSend_append (beforeSend_append (beforeSend_append h ?_) ?_) ?_
  · intro e he m hm
    rcases e2 e he with ⟨i, k, h⟩ | ⟨i, w, h⟩ <;> simp [h] at hm
  · intro e he m hm; simp at he; subst he; simp at hm
  · intro e he m hm
    obtain ⟨i, h⟩ := e3 e he; simp [h] at hm

/-! ## C02 -/

structure J02 (c : Core) : Prop where
  ok : BeforeSend (fun a _ => openCall a = none) c.tr
  idle : c.inf = none → openCall c.tr = none
  busy : ∀ m, c.inf = some m → openCall c.tr = none ∨ openCall c.tr = some m.uid

theorem openCall_snoc (tr : List Ev) (e : Ev) : openCall (tr ++ [e]) = openStep (openCall tr) e := by
  simp [openCall, List.foldl_append]

/-- Appending an event that neither opens nor closes. -/
theorem J02.neutral {c : Core} (h : J02 c) (e : Ev) (hs : ∀ m, e ≠ .send m) (hn : ∀ o, openStep o e = o)
    (c' : Core) (ht : c'.tr = c.tr ++ [e]) (hi : c'.inf = c.inf) : J02 c' := by
  constructor
  · rw [ht]; exact beforeSend_snoc h.ok (fun m hm => absurd hm (hs m))
  · rw [ht, hi, openCall_snoc, hn]; exact h.idle
  · rw [ht, hi, openCall_snoc, hn]; exact h.busy

theorem J02.same {c : Core} (h : J02 c) (c' : Core) (ht : c'.tr = c.tr) (hi : c'.inf = c.inf) : J02 c' := by
  constructor
  · rw [ht]; exact h.ok
  · rw [ht, hi]; exact h.idle
  · rw [ht, hi]; exact h.busy

theorem J02.micro {fl : Flags} {c c' : Core} (h : J02 c) (hm : Micro fl c c') : J02 c' := by
  cases hm with
  | ev e he =>
    exact h.neutral e (by intro m hm; subst hm; simp [Ev.obs] at he)
      (by intro o; cases e <;> simp_all [Ev.obs, openStep]) _ rfl rfl
  | failed m hi =>
    constructor
    · exact beforeSend_snoc h.ok (by simp)
    · intro hc; simp [hi] at hc
    · intro m' hm'
      simp only [openCall_snoc, openStep]
      split
      · exact Or.inl rfl
      · exact h.busy m' hm'
  | accept => exact h.neutral .accepted (by simp) (by simp [openStep]) _ rfl rfl
  | unreg => exact h.same _ rfl rfl
  | att n _ => exact h.same _ rfl rfl
  | bump => exact h.same _ rfl rfl
  | fulfilFresh off => exact h.neutral _ (by simp) (by simp [openStep]) _ rfl rfl
  | pushTx m hk hi ha hq => exact h.neutral _ (by simp) (by simp [openStep]) _ rfl rfl
  | pushN m nq' per hk hi ha hq hn =>
    cases per <;> exact h.neutral _ (by simp) (by simp [openStep]) _ rfl rfl
  | evictN m rest per hn => cases per <;> exact h.neutral _ (by simp) (by simp [openStep]) _ rfl rfl
  | evictT m hm hu => exact h.neutral _ (by simp) (by simp [openStep]) _ rfl rfl
  | sendTx m m1 rest hi hq hs ha hal =>
    constructor
    · exact beforeSend_snoc h.ok (fun _ _ => h.idle hi)
    · simp
    · intro m' hm'
      simp at hm'
      rw [openCall_snoc]; right; simp [openStep, hm']
  | sendN m m1 pre post hi hq hs ha hal =>
    constructor
    · exact beforeSend_snoc h.ok (fun _ _ => h.idle hi)
    · simp
    · intro m' hm'
      simp at hm'
      rw [openCall_snoc]; right; simp [openStep, hm']
  | failTx _ m m1 rest hi hq hs ha => exact h.same _ rfl rfl
  | failN _ m m1 pre post hi hq hs ha => exact h.same _ rfl rfl
  | failPop _ m m1 f pre post rest hi hq hs ha hnp hr _ =>
    have h1 : J02 { c with tr := c.tr ++ [Ev.fulfil m.iid true] } :=
      h.neutral (.fulfil m.iid true) (by simp) (by simp [openStep]) _ rfl rfl
    exact h1.neutral (.done f.iid .popped) (by simp) (by simp [openStep]) _ rfl rfl
  | answer m per hi hnp ht =>
    have key : J02 { c with
        inf := none, ps := m.iid :: c.ps,
        tr := c.tr ++ [Ev.fulfil m.iid false] ++ [Ev.answer m.uid m.iid] ++ [Ev.done m.iid .answered] } := by
      have h1 : openCall (c.tr ++ [Ev.fulfil m.iid false] ++ [Ev.answer m.uid m.iid] ++ [Ev.done m.iid .answered]) = none := by
        simp only [openCall_snoc, openStep]
        rcases h.busy m hi with h | h <;> simp [h]
      constructor
      · exact beforeSend_snoc (beforeSend_snoc (beforeSend_snoc h.ok (by simp)) (by simp)) (by simp)
      · intro _; exact h1
      · simp
    cases per
    · exact key
    · exact key.same _ rfl rfl
  | giveUp m off per hi hnp ht hA =>
    have key : J02 { c with
        inf := none, ps := m.iid :: c.ps,
        tr := c.tr ++ [Ev.failed m.uid m.iid] ++ [Ev.fulfil m.iid off] ++ [Ev.done m.iid .gaveUp] } := by
      have h1 : openCall (c.tr ++ [Ev.failed m.uid m.iid] ++ [Ev.fulfil m.iid off] ++ [Ev.done m.iid .gaveUp]) = none := by
        simp only [openCall_snoc, openStep]
        rcases h.busy m hi with h | h <;> simp [h]
      constructor
      · exact beforeSend_snoc (beforeSend_snoc (beforeSend_snoc h.ok (by simp)) (by simp)) (by simp)
      · intro _; exact h1
      · simp
    cases per
    · exact key
    · exact key.same _ rfl rfl
  | retryTx m m' hi hk hs ha hA =>
    constructor
    · exact beforeSend_snoc h.ok (by simp)
    · intro _
      simp only [openCall_snoc, openStep]
      rcases h.busy m hi with h | h <;> simp [h]
    · simp
  | retryN m m' hi hk hs ha hA =>
    constructor
    · exact beforeSend_snoc h.ok (by simp)
    · intro _
      simp only [openCall_snoc, openStep]
      rcases h.busy m hi with h | h <;> simp [h]
    · simp
  | mapTx f hf => exact h.same _ rfl rfl
  | faultNull _ => exact h.same _ rfl rfl
  | faultPromise m _ _ => exact h.same _ rfl rfl

/-! ## C04, C05: counting transmissions -/

theorem since_snoc (tr : List Ev) (e : Ev) : sinceRestart (tr ++ [e]) = sinceStep (sinceRestart tr) e := by
  simp [sinceRestart, List.foldl_append]

def cnt (tr : List Ev) (i : Nat) : Nat := sendCount i (sinceRestart tr)

/-- Is message `m` one of those that may be transmitted again? -/
def lasting (chk : Kind → Bool) (k : Kind) : Prop := k.isTx = true ∨ chk k = true ∨ k = .boot

def Ev.plain : Ev → Bool
  | .send _ | .restart => false
  | _ => true

theorem since_plain {e : Ev} (h : e.plain = true) (tr : List Ev) : sinceRestart (tr ++ [e]) = sinceRestart tr ++ [e] := by
  rw [since_snoc]; cases e <;> simp_all [Ev.plain, sinceStep]

theorem cnt_plain {e : Ev} (h : e.plain = true) (tr : List Ev) (i : Nat) : cnt (tr ++ [e]) i = cnt tr i := by
  unfold cnt
  rw [since_plain h]
  simp only [sendCount, List.countP_append]
  cases e <;> simp_all [Ev.plain, isSendOf]

theorem mem_since_plain {e : Ev} (h : e.plain = true) (tr : List Ev) (m : Msg) :
    Ev.send m ∈ sinceRestart (tr ++ [e]) ↔ Ev.send m ∈ sinceRestart tr := by
  rw [since_plain h]; cases e <;> simp_all [Ev.plain]

theorem cnt_send (tr : List Ev) (m : Msg) (i : Nat) :
    cnt (tr ++ [.send m]) i = cnt tr i + (if m.iid = i then 1 else 0) := by
  unfold cnt
  rw [since_snoc]
  simp only [sinceStep, sendCount, List.countP_append]
  by_cases h : m.iid = i <;> simp [isSendOf, h]

theorem mem_since_send (tr : List Ev) (m x : Msg) :
    Ev.send x ∈ sinceRestart (tr ++ [.send m]) ↔ Ev.send x ∈ sinceRestart tr ∨ x = m := by
  rw [since_snoc]; simp [sinceStep]

structure J04 (c : Core) : Prop where
  fresh : ∀ i, c.nextId ≤ i → cnt c.tr i = 0
  queued : ∀ m, m ∈ c.txq ∨ m ∈ c.nq →
    cnt c.tr m.iid ≤ m.attempts ∧ (m.kind ≠ .boot → cnt c.tr m.iid = 0 ∨ (cnt c.tr m.iid : Int) < c.att) ∧
    (¬ lasting c.chk m.kind → cnt c.tr m.iid = 0)
  flight : ∀ m, c.inf = some m →
    cnt c.tr m.iid ≤ m.attempts ∧ (m.kind ≠ .boot → (cnt c.tr m.iid : Int) ≤ max 1 c.att) ∧
    (¬ lasting c.chk m.kind → cnt c.tr m.iid ≤ 1)
  all : ∀ i, (∀ m, .send m ∈ sinceRestart c.tr → m.iid = i → m.kind ≠ .boot) → (cnt c.tr i : Int) ≤ max 1 c.att
  once : ∀ i, (∀ m, .send m ∈ sinceRestart c.tr → m.iid = i → ¬ lasting c.chk m.kind) → cnt c.tr i ≤ 1

theorem J04.frame {c c' : Core} (h : J04 c) (hc : ∀ i, cnt c'.tr i = cnt c.tr i)
    (hm : ∀ m, Ev.send m ∈ sinceRestart c'.tr ↔ Ev.send m ∈ sinceRestart c.tr)
    (ha : c'.att = c.att) (hk : c'.chk = c.chk) (hn : c.nextId ≤ c'.nextId)
    (hq : ∀ m, m ∈ c'.txq ∨ m ∈ c'.nq → c.nextId ≤ m.iid ∨ ∃ m0, (m0 ∈ c.txq ∨ m0 ∈ c.nq) ∧ sameMsg m m0 ∧
      m0.attempts ≤ m.attempts)
    (hi : c'.inf = none ∨ c'.inf = c.inf) : J04 c' := by
  constructor
  · intro i h'; rw [hc]; exact h.fresh i (Nat.le_trans hn h')
  · intro m hm'
    rw [hc, ha, hk]
    rcases hq m hm' with hf | ⟨m0, hm0, hs, hat⟩
    · rw [h.fresh _ hf]; simp
    · obtain ⟨a, b, d⟩ := h.queued m0 hm0
      rw [hs.1, hs.2.1]
      exact ⟨Nat.le_trans a hat, b, d⟩
  · intro m hm'
    rw [hc, ha, hk]
    rcases hi with hi | hi
    · rw [hi] at hm'; cases hm'
    · rw [hi] at hm'; exact h.flight m hm'
  · intro i hb; rw [hc, ha]; exact h.all i (fun m hm' => hb m ((hm m).2 hm'))
  · intro i hb; rw [hc]; exact h.once i (fun m hm' => by rw [← hk]; exact hb m ((hm m).2 hm'))

theorem J04.frame1 {c c' : Core} (h : J04 c) (e : Ev) (he : e.plain = true) (ht : c'.tr = c.tr ++ [e])
    (ha : c'.att = c.att) (hk : c'.chk = c.chk) (hn : c.nextId ≤ c'.nextId)
    (hq : ∀ m, m ∈ c'.txq ∨ m ∈ c'.nq → c.nextId ≤ m.iid ∨ ∃ m0, (m0 ∈ c.txq ∨ m0 ∈ c.nq) ∧ sameMsg m m0 ∧
      m0.attempts ≤ m.attempts)
    (hi : c'.inf = none ∨ c'.inf = c.inf) : J04 c' :=
  h.frame (by intro i; rw [ht, cnt_plain he]) (by intro m; rw [ht, mem_since_plain he]) ha hk hn hq hi

theorem sameMsg.refl (m : Msg) : sameMsg m m := ⟨rfl, rfl, rfl, rfl⟩

theorem keepQ {c : Core} (m : Msg) (h : m ∈ c.txq ∨ m ∈ c.nq) :
    c.nextId ≤ m.iid ∨ ∃ m0, (m0 ∈ c.txq ∨ m0 ∈ c.nq) ∧ sameMsg m m0 ∧ m0.attempts ≤ m.attempts :=
  Or.inr ⟨m, h, .refl m, Nat.le_refl _⟩

/-- Sending: the message leaves the queue, and no other queued message has its number. -/
theorem J04.send {c : Core} (h : J04 c) {m m1 : Msg} (hm : m ∈ c.txq ∨ m ∈ c.nq) (hs : sameMsg m1 m)
    (ha : m1.attempts = m.attempts + 1) (hlt : m.iid < c.nextId) (txq' nq' : List Msg)
    (hq : ∀ x, x ∈ txq' ∨ x ∈ nq' → (x ∈ c.txq ∨ x ∈ c.nq) ∧ x.iid ≠ m.iid) :
    J04 { c with txq := txq', nq := nq', inf := some m1, tr := c.tr ++ [.send m1] } := by
  obtain ⟨qa, qb, qc⟩ := h.queued m hm
  have e1 : cnt (c.tr ++ [.send m1]) m.iid = cnt c.tr m.iid + 1 := by rw [cnt_send, hs.1]; simp
  have e2 : ∀ i, i ≠ m.iid → cnt (c.tr ++ [.send m1]) i = cnt c.tr i := by
    intro i hi; rw [cnt_send, hs.1]; simp [Ne.symm hi]
  have hb : m1.kind ≠ .boot → ((cnt c.tr m.iid + 1 : Nat) : Int) ≤ max 1 c.att := by
    intro hb; rw [hs.2.1] at hb
    rcases qb hb with h0 | h0
    · omega
    · omega
  have ho : ¬ lasting c.chk m1.kind → cnt c.tr m.iid + 1 ≤ 1 := by
    intro hb; rw [hs.2.1] at hb; have := qc hb; omega
  constructor
  · intro i hi; simp only at hi ⊢
    rw [e2 i (by omega)]; exact h.fresh i hi
  · intro x hx; obtain ⟨hx1, hx2⟩ := hq x hx
    simp only
    rw [e2 _ hx2]; exact h.queued x hx1
  · intro x hx
    simp only [Option.some.injEq] at hx; subst hx
    simp only
    rw [hs.1, e1, ha]
    exact ⟨by omega, hb, ho⟩
  · intro i hi
    simp only at hi ⊢
    by_cases hc : i = m.iid
    · subst hc; rw [e1]; exact hb (hi m1 ((mem_since_send _ _ _).2 (Or.inr rfl)) hs.1)
    · rw [e2 i hc]; exact h.all i (fun x hx => hi x ((mem_since_send _ _ _).2 (Or.inl hx)))
  · intro i hi
    simp only at hi ⊢
    by_cases hc : i = m.iid
    · subst hc; rw [e1]; exact ho (hi m1 ((mem_since_send _ _ _).2 (Or.inr rfl)) hs.1)
    · rw [e2 i hc]; exact h.once i (fun x hx => hi x ((mem_since_send _ _ _).2 (Or.inl hx)))

/-- Numbers of queued messages are pairwise different and below `nextId`. -/
theorem CInv.txq_lt {c : Core} (h : CInv c) {m : Msg} (hm : m ∈ c.txq) : m.iid < c.nextId ∧ m.iid ∈ c.dbT.map Row.iid := by
  have : m.iid ∈ c.dbT.map Row.iid := by rw [h.inv.ids]; simp; right; exact ⟨m, hm, rfl⟩
  refine ⟨?_, this⟩
  obtain ⟨r, hr, he⟩ := List.mem_map.1 this
  rw [← he]; exact h.inv.lt r hr

theorem CInv.nq_lt {c : Core} (h : CInv c) {m : Msg} (hm : m ∈ c.nq) : m.iid < c.nextId ∧ m.iid ∉ c.dbT.map Row.iid :=
  ⟨h.inv.nLt _ (by simp; right; exact ⟨m, hm, rfl⟩), h.inv.nDisj _ (by simp; right; exact ⟨m, hm, rfl⟩)⟩

theorem CInv.inf_lt {c : Core} (h : CInv c) {m : Msg} (hm : c.inf = some m) : m.iid < c.nextId := by
  have hI := h.inv
  rw [hm] at hI
  cases hk : m.kind.isTx
  · exact hI.nLt _ (by simp [infN, hk])
  · have : m.iid ∈ c.dbT.map Row.iid := by rw [hI.ids]; simp [infTx, hk, Msg.key]
    obtain ⟨r, hr, he⟩ := List.mem_map.1 this
    rw [← he]; exact hI.lt r hr

theorem CInv.sendTx_ne {c : Core} (h : CInv c) {m : Msg} {rest : List Msg} (hq : c.txq = m :: rest) :
    ∀ x, x ∈ rest ∨ x ∈ c.nq → (x ∈ c.txq ∨ x ∈ c.nq) ∧ x.iid ≠ m.iid := by
  intro x hx
  have hnd := h.inv.txqNodup
  rw [hq] at hnd
  simp only [List.map_cons, List.nodup_cons] at hnd
  rcases hx with hx | hx
  · refine ⟨Or.inl (by rw [hq]; simp [hx]), ?_⟩
    intro e; exact hnd.1 (List.mem_map.2 ⟨x, hx, e⟩)
  · refine ⟨Or.inr hx, ?_⟩
    intro e
    have h1 := (h.nq_lt hx).2
    rw [e] at h1
    exact h1 (h.txq_lt (m := m) (by rw [hq]; simp)).2

theorem CInv.sendN_ne {c : Core} (h : CInv c) {m : Msg} {pre post : List Msg} (hq : c.nq = pre ++ m :: post) :
    ∀ x, x ∈ c.txq ∨ x ∈ pre ++ post → (x ∈ c.txq ∨ x ∈ c.nq) ∧ x.iid ≠ m.iid := by
  intro x hx
  have hnd : (c.nq.map Msg.iid).Nodup := (h.inv.nNodup).sublist (List.sublist_append_right _ _)
  rw [hq] at hnd
  simp only [List.map_append, List.map_cons] at hnd
  have hnd' : (m.iid :: (pre.map Msg.iid ++ post.map Msg.iid)).Nodup := (List.perm_middle.nodup_iff).1 hnd
  rcases hx with hx | hx
  · refine ⟨Or.inl hx, ?_⟩
    intro e
    have h1 := (h.txq_lt hx).2
    rw [e] at h1
    exact (h.nq_lt (m := m) (by rw [hq]; simp)).2 h1
  · refine ⟨Or.inr (by rw [hq]; simp at hx ⊢; grind), ?_⟩
    intro e
    rw [List.nodup_cons] at hnd'
    apply hnd'.1
    rw [← List.map_append]
    exact List.mem_map.2 ⟨x, hx, e⟩

theorem J04.micro {fl : Flags} (hfl : ¬ fl.att) {c c' : Core} (hC : CInv c) (h : J04 c) (hm : Micro fl c c') : J04 c' := by
  cases hm with
  | ev e he => exact h.frame1 e (by cases e <;> simp_all [Ev.obs, Ev.plain]) rfl rfl rfl (Nat.le_refl _) keepQ (Or.inr rfl)
  | failed m hi => exact h.frame1 _ rfl rfl rfl rfl (Nat.le_refl _) keepQ (Or.inr rfl)
  | accept => exact h.frame1 _ rfl rfl rfl rfl (Nat.le_refl _) keepQ (Or.inr rfl)
  | unreg => exact h.frame (fun _ => rfl) (fun _ => Iff.rfl) rfl rfl (Nat.le_refl _) keepQ (Or.inr rfl)
  | att n hn => exact absurd hn hfl
  | bump => exact h.frame (fun _ => rfl) (fun _ => Iff.rfl) rfl rfl (Nat.le_succ _) (keepQ (c := c)) (Or.inr rfl)
  | fulfilFresh off => exact h.frame1 _ rfl rfl rfl rfl (Nat.le_succ _) (keepQ (c := c)) (Or.inr rfl)
  | pushTx m hk hi ha hq =>
    refine h.frame1 (c' := Core.db _ _) _ rfl rfl rfl rfl (Nat.le_succ _) ?_ (Or.inr rfl)
    intro x hx
    simp only [Core.db, List.mem_append, List.mem_singleton] at hx
    rcases hx with (hx | rfl) | hx
    · exact keepQ x (Or.inl hx)
    · exact Or.inl (Nat.le_of_eq hi.symm)
    · exact keepQ x (Or.inr hx)
  | pushN m nq' per hk hi ha hq hn =>
    have key : ∀ x, x ∈ c.txq ∨ x ∈ nq' → c.nextId ≤ x.iid ∨ ∃ m0, (m0 ∈ c.txq ∨ m0 ∈ c.nq) ∧ sameMsg x m0 ∧
        m0.attempts ≤ x.attempts := by
      intro x hx
      rcases hx with hx | hx
      · exact keepQ x (Or.inl hx)
      · have : x = m ∨ x ∈ c.nq := by rcases hn with rfl | rfl <;> grind
        rcases this with rfl | hx
        · exact Or.inl (Nat.le_of_eq hi.symm)
        · exact keepQ x (Or.inr hx)
    cases per
    · exact h.frame1 _ rfl rfl rfl rfl (Nat.le_succ _) key (Or.inr rfl)
    · exact h.frame1 (c' := Core.db _ _) _ rfl rfl rfl rfl (Nat.le_succ _) key (Or.inr rfl)
  | evictN m rest per hn =>
    have key : ∀ x, x ∈ c.txq ∨ x ∈ rest → c.nextId ≤ x.iid ∨ ∃ m0, (m0 ∈ c.txq ∨ m0 ∈ c.nq) ∧ sameMsg x m0 ∧
        m0.attempts ≤ x.attempts := by
      intro x hx
      refine keepQ x (hx.imp id ?_)
      intro hx; rw [hn]; simp [hx]
    cases per
    · exact h.frame1 _ rfl rfl rfl rfl (Nat.le_refl _) key (Or.inr rfl)
    · exact h.frame1 (c' := Core.db _ _) _ rfl rfl rfl rfl (Nat.le_refl _) key (Or.inr rfl)
  | evictT m hm hu =>
    refine h.frame1 (c' := Core.db _ _) _ rfl rfl rfl rfl (Nat.le_refl _) ?_ (Or.inr rfl)
    intro x hx
    refine keepQ x (hx.imp ?_ id)
    intro hx; exact (List.mem_filter.1 hx).1
  | sendTx m m1 rest hi hq hs ha hal =>
    have hmem : m ∈ c.txq := by rw [hq]; simp
    exact h.send (Or.inl hmem) hs ha (hC.txq_lt hmem).1 rest c.nq (hC.sendTx_ne hq)
  | sendN m m1 pre post hi hq hs ha hal =>
    have hmem : m ∈ c.nq := by rw [hq]; simp
    exact h.send (Or.inr hmem) hs ha (hC.nq_lt hmem).1 c.txq (pre ++ post) (hC.sendN_ne hq)
  | failTx _ m m1 rest hi hq hs ha =>
    refine h.frame (fun _ => rfl) (fun _ => Iff.rfl) rfl rfl (Nat.le_refl _) ?_ (Or.inr rfl)
    intro x hx
    simp only [List.mem_cons] at hx
    rcases hx with (rfl | hx) | hx
    · exact Or.inr ⟨m, Or.inl (by rw [hq]; simp), hs, by omega⟩
    · exact keepQ x (Or.inl (by rw [hq]; simp [hx]))
    · exact keepQ x (Or.inr hx)
  | failN _ m m1 pre post hi hq hs ha =>
    refine h.frame (fun _ => rfl) (fun _ => Iff.rfl) rfl rfl (Nat.le_refl _) ?_ (Or.inr rfl)
    intro x hx
    simp only [List.mem_append, List.mem_cons] at hx
    rcases hx with hx | (hx | rfl | hx)
    · exact keepQ x (Or.inl hx)
    · exact keepQ x (Or.inr (by rw [hq]; simp [hx]))
    · exact Or.inr ⟨m, Or.inr (by rw [hq]; simp), hs, by omega⟩
    · exact keepQ x (Or.inr (by rw [hq]; simp [hx]))
  | failPop _ m m1 f pre post rest hi hq hs ha hnp hr _ =>
    have h1 : J04 { c with nq := rest, ps := m.iid :: c.ps, tr := c.tr ++ [Ev.fulfil m.iid true] } := by
      refine h.frame1 _ rfl rfl rfl rfl (Nat.le_refl _) ?_ (Or.inr rfl)
      intro x hx
      rcases hx with hx | hx
      · exact keepQ x (Or.inl hx)
      · have hx' : x ∈ pre ++ m1 :: post := by rw [hr]; simp only [List.mem_cons]; right; exact hx
        simp only [List.mem_append, List.mem_cons] at hx'
        rcases hx' with (hx | rfl | hx)
        · exact keepQ x (Or.inr (by rw [hq]; simp [hx]))
        · exact Or.inr ⟨m, Or.inr (by rw [hq]; simp), hs, by omega⟩
        · exact keepQ x (Or.inr (by rw [hq]; simp [hx]))
    exact h1.frame1 _ rfl rfl rfl rfl (Nat.le_refl _) keepQ (Or.inr rfl)
  | answer m per hi hnp ht =>
    have h1 : J04 { c with inf := none, ps := m.iid :: c.ps, tr := c.tr ++ [Ev.fulfil m.iid false] } :=
      h.frame1 _ rfl rfl rfl rfl (Nat.le_refl _) keepQ (Or.inl rfl)
    have h2 : J04 { c with
        inf := none, ps := m.iid :: c.ps, tr := c.tr ++ [Ev.fulfil m.iid false] ++ [Ev.answer m.uid m.iid] } :=
      h1.frame1 _ rfl rfl rfl rfl (Nat.le_refl _) keepQ (Or.inr rfl)
    cases per
    · exact h2.frame1 _ rfl rfl rfl rfl (Nat.le_refl _) keepQ (Or.inr rfl)
    · exact h2.frame1 (c' := Core.db _ _) _ rfl rfl rfl rfl (Nat.le_refl _) keepQ (Or.inr rfl)
  | giveUp m off per hi hnp ht hA =>
    have h1 : J04 { c with inf := none, ps := m.iid :: c.ps, tr := c.tr ++ [Ev.failed m.uid m.iid] } :=
      h.frame1 _ rfl rfl rfl rfl (Nat.le_refl _) keepQ (Or.inl rfl)
    have h2 : J04 { c with
        inf := none, ps := m.iid :: c.ps, tr := c.tr ++ [Ev.failed m.uid m.iid] ++ [Ev.fulfil m.iid off] } :=
      h1.frame1 _ rfl rfl rfl rfl (Nat.le_refl _) keepQ (Or.inr rfl)
    cases per
    · exact h2.frame1 _ rfl rfl rfl rfl (Nat.le_refl _) keepQ (Or.inr rfl)
    · exact h2.frame1 (c' := Core.db _ _) _ rfl rfl rfl rfl (Nat.le_refl _) keepQ (Or.inr rfl)
  | retryTx m m' hi hk hs ha hA =>
    obtain ⟨fa, fb, fc⟩ := h.flight m hi
    have h1 : J04 { c with txq := m' :: c.txq } := by
      refine ⟨h.fresh, ?_, h.flight, h.all, h.once⟩
      intro x hx
      simp only [List.mem_cons] at hx
      rcases hx with (rfl | hx) | hx
      · rw [hs.1, hs.2.1, ha]
        refine ⟨fa, fun hb => ?_, fun hl => absurd (Or.inl hk) hl⟩
        simp only; omega
      · exact h.queued x (Or.inl hx)
      · exact h.queued x (Or.inr hx)
    exact h1.frame1 _ rfl rfl rfl rfl (Nat.le_succ _) (keepQ (c := { c with txq := m' :: c.txq })) (Or.inl rfl)
  | retryN m m' hi hk hs ha hA =>
    obtain ⟨fa, fb, fc⟩ := h.flight m hi
    have h1 : J04 { c with nq := m' :: c.nq } := by
      refine ⟨h.fresh, ?_, h.flight, h.all, h.once⟩
      intro x hx
      simp only [List.mem_cons] at hx
      rcases hx with hx | (rfl | hx)
      · exact h.queued x (Or.inl hx)
      · rw [hs.1, hs.2.1, ha]
        refine ⟨fa, fun hb => ?_, fun hl => ?_⟩
        · rcases hA with hA | hA
          · simp only; omega
          · exact absurd hA hb
        · rcases hA with hA | hA
          · exact absurd (Or.inr (Or.inl hA.2)) hl
          · exact absurd (Or.inr (Or.inr hA)) hl
      · exact h.queued x (Or.inr hx)
    exact h1.frame1 _ rfl rfl rfl rfl (Nat.le_succ _) (keepQ (c := { c with nq := m' :: c.nq })) (Or.inl rfl)
  | mapTx f hf =>
    refine h.frame (fun _ => rfl) (fun _ => Iff.rfl) rfl rfl (Nat.le_refl _) ?_ (Or.inr rfl)
    intro x hx
    rcases hx with hx | hx
    · obtain ⟨y, hy, rfl⟩ := List.mem_map.1 hx
      exact Or.inr ⟨y, Or.inl hy, (hf y).1, Nat.le_of_eq (hf y).2.symm⟩
    · exact keepQ x (Or.inr hx)
  | faultNull _ => exact h.frame (fun _ => rfl) (fun _ => Iff.rfl) rfl rfl (Nat.le_refl _) keepQ (Or.inr rfl)
  | faultPromise m _ _ => exact h.frame (fun _ => rfl) (fun _ => Iff.rfl) rfl rfl (Nat.le_refl _) keepQ (Or.inr rfl)

theorem since_restart {p s s' : St} {cfg ign}
    {op : Op} (ht : Gap s p op)
    (hf : RestartFacts p s' cfg ign) : ∀ m, Ev.send m ∉ sinceRestart s'.trace := by
  obtain ⟨es, ds, e1, e2, e3⟩ := restart_events ht hf
  rw [e1]
  generalize s.trace ++ es = t
  have h1 : sinceRestart (t ++ [.restart]) = [] := by rw [since_snoc]; rfl
  have h2 : ∀ ds : List Ev, (∀ e ∈ ds, ∃ i, e = .done i .ignored) → ∀ t m, Ev.send m ∉ sinceRestart t →
      Ev.send m ∉ sinceRestart (t ++ ds) := by
    intro ds
    induction ds with
    | nil => intro _ t m h; simpa using h
    | cons d ds ih =>
      intro hd t m h
      have e : t ++ d :: ds = (t ++ [d]) ++ ds := by simp
      rw [e]
      refine ih (fun x hx => hd x (by simp [hx])) _ m ?_
      obtain ⟨i, rfl⟩ := hd d (by simp)
      rw [mem_since_plain rfl]; exact h
  intro m
  exact h2 ds e3 _ m (by rw [h1]; simp)

theorem cnt_restart {p s s' : St} {cfg ign}
    {op : Op} (ht : Gap s p op)
    (hf : RestartFacts p s' cfg ign) (i : Nat) : cnt s'.trace i = 0 := by
  unfold cnt sendCount
  rw [List.countP_eq_zero]
  intro e he
  cases e with
  | send m => exact absurd he (since_restart ht hf m)
  | _ => simp [isSendOf]

theorem J04.restart {p s s' : St} {cfg ign}
    {op : Op} (ht : Gap s p op)
    (hf : RestartFacts p s' cfg ign) : J04 s'.core := by
  have hc := cnt_restart ht hf
  constructor
  · intro i _; exact hc i
  · intro m _; simp only [St.core, hc]; simp
  · intro m hm; simp [St.core, hf.inFlight] at hm
  · intro i _; simp only [St.core, hc]; simp; omega
  · intro i _; simp only [St.core, hc]; simp

theorem J04.init (cfg : Cfg) (now : Int) : J04 (init cfg now).core := by
  have hc : ∀ i, cnt [] i = 0 := fun i => rfl
  constructor <;> simp [Verif.MQ.init, St.core, hc]
  omega

/-! ## C05 -/

/-- Before giving up on a pending transaction message it has been transmitted at least `A` times since the last start. -/
def GaveUpOk (A : Int) (a : List Ev) (e : Ev) : Prop :=
  ∀ i, e = .done i .gaveUp → i ∈ pendingTx a → A ≤ sendCount i (sinceRestart a)

structure J05 (A : Int) (c : Core) : Prop where
  att : c.att = A
  queued : ∀ m ∈ c.txq, m.attempts ≤ cnt c.tr m.iid
  flight : ∀ m, c.inf = some m → m.kind.isTx = true → m.attempts ≤ cnt c.tr m.iid
  ok : BeforeEv (GaveUpOk A) c.tr

theorem GaveUpOk.other {A : Int} {a : List Ev} {e : Ev} (h : ∀ i, e ≠ .done i .gaveUp) : GaveUpOk A a e :=
  fun i he => absurd he (h i)

theorem J05.frame {A : Int} {c c' : Core} (h : J05 A c) (e : Ev) (he : e.plain = true) (hg : ∀ i, e ≠ .done i .gaveUp)
    (ht : c'.tr = c.tr ++ [e]) (ha : c'.att = c.att)
    (hq : ∀ m ∈ c'.txq, m.attempts = 0 ∨ ∃ m0 ∈ c.txq, m.iid = m0.iid ∧ m.attempts = m0.attempts)
    (hi : c'.inf = none ∨ c'.inf = c.inf) : J05 A c' := by
  constructor
  · rw [ha]; exact h.att
  · intro m hm
    rcases hq m hm with h0 | ⟨m0, h1, h2, h3⟩
    · omega
    · rw [ht, cnt_plain he, h2, h3]; exact h.queued m0 h1
  · intro m hm hk
    rw [ht, cnt_plain he]
    rcases hi with hi | hi
    · rw [hi] at hm; cases hm
    · rw [hi] at hm; exact h.flight m hm hk
  · rw [ht]; exact beforeEv_snoc h.ok (.other hg)

theorem J05.same {A : Int} {c c' : Core} (h : J05 A c)
    (ht : c'.tr = c.tr) (ha : c'.att = c.att)
    (hq : ∀ m ∈ c'.txq, m.attempts = 0 ∨ ∃ m0 ∈ c.txq, m.iid = m0.iid ∧ m.attempts = m0.attempts)
    (hi : c'.inf = none ∨ c'.inf = c.inf) : J05 A c' := by
  constructor
  · rw [ha]; exact h.att
  · intro m hm
    rcases hq m hm with h0 | ⟨m0, h1, h2, h3⟩
    · omega
    · rw [ht, h2, h3]; exact h.queued m0 h1
  · intro m hm hk
    rw [ht]
    rcases hi with hi | hi
    · rw [hi] at hm; cases hm
    · rw [hi] at hm; exact h.flight m hm hk
  · rw [ht]; exact h.ok

theorem keep05 {c : Core} : ∀ m ∈ c.txq, m.attempts = 0 ∨ ∃ m0 ∈ c.txq, m.iid = m0.iid ∧ m.attempts = m0.attempts :=
  fun m hm => Or.inr ⟨m, hm, rfl, rfl⟩

theorem J05.micro {A : Int} {fl : Flags} (hfl : ¬ fl.att) (hff : ¬ fl.fail) {c c' : Core} (hC : CInv c) (h : J05 A c)
    (hm : Micro fl c c') : J05 A c' := by
  cases hm with
  | ev e he =>
    exact h.frame e (by cases e <;> simp_all [Ev.obs, Ev.plain]) (by rintro i rfl; simp [Ev.obs] at he) rfl rfl keep05 (Or.inr rfl)
  | failed m hi => exact h.frame _ rfl (by simp) rfl rfl keep05 (Or.inr rfl)
  | accept => exact h.frame _ rfl (by simp) rfl rfl keep05 (Or.inr rfl)
  | unreg => exact h.same rfl rfl keep05 (Or.inr rfl)
  | att n hn => exact absurd hn hfl
  | bump => exact h.same rfl rfl keep05 (Or.inr rfl)
  | fulfilFresh off => exact h.frame _ rfl (by simp) rfl rfl keep05 (Or.inr rfl)
  | pushTx m hk hi ha hq =>
    refine h.frame (c' := Core.db _ _) _ rfl (by simp) rfl rfl ?_ (Or.inr rfl)
    intro x hx
    simp only [Core.db, List.mem_append, List.mem_singleton] at hx
    rcases hx with hx | rfl
    · exact keep05 x hx
    · exact Or.inl ha
  | pushN m nq' per hk hi ha hq hn =>
    cases per
    · exact h.frame _ rfl (by simp) rfl rfl keep05 (Or.inr rfl)
    · exact h.frame (c' := Core.db _ _) _ rfl (by simp) rfl rfl keep05 (Or.inr rfl)
  | evictN m rest per hn =>
    cases per
    · exact h.frame _ rfl (by simp) rfl rfl keep05 (Or.inr rfl)
    · exact h.frame (c' := Core.db _ _) _ rfl (by simp) rfl rfl keep05 (Or.inr rfl)
  | evictT m hm hu =>
    refine h.frame (c' := Core.db _ _) _ rfl (by simp) rfl rfl ?_ (Or.inr rfl)
    intro x hx
    exact keep05 x (List.mem_filter.1 hx).1
  | sendTx m m1 rest hi hq hs ha hal =>
    have hq1 : m.attempts ≤ cnt c.tr m.iid := h.queued m (by rw [hq]; simp)
    constructor
    · exact h.att
    · intro x hx
      have := h.queued x (by rw [hq]; simp [show x ∈ rest from hx])
      simp only [cnt_send]; omega
    · intro x hx _
      simp only [Option.some.injEq] at hx; subst hx
      simp only [cnt_send, hs.1, ha]; simp; exact hq1
    · exact beforeEv_snoc h.ok (.other (by simp))
  | sendN m m1 pre post hi hq hs ha hal =>
    have hk : m.kind.isTx = false := hC.inv.nqKind m (by rw [hq]; simp)
    constructor
    · exact h.att
    · intro x hx
      have := h.queued x hx
      simp only [cnt_send]; omega
    · intro x hx hk'
      simp only [Option.some.injEq] at hx; subst hx
      rw [hs.2.1, hk] at hk'; cases hk'
    · exact beforeEv_snoc h.ok (.other (by simp))
  | failTx hff' => exact absurd hff' hff
  | failN hff' => exact absurd hff' hff
  | failPop hff' => exact absurd hff' hff
  | answer m per hi hnp ht =>
    have h1 : J05 A { c with inf := none, ps := m.iid :: c.ps, tr := c.tr ++ [Ev.fulfil m.iid false] } :=
      h.frame _ rfl (by simp) rfl rfl keep05 (Or.inl rfl)
    have h2 : J05 A { c with
        inf := none, ps := m.iid :: c.ps, tr := c.tr ++ [Ev.fulfil m.iid false] ++ [Ev.answer m.uid m.iid] } :=
      h1.frame _ rfl (by simp) rfl rfl keep05 (Or.inr rfl)
    cases per
    · exact h2.frame _ rfl (by simp) rfl rfl keep05 (Or.inr rfl)
    · exact h2.frame (c' := Core.db _ _) _ rfl (by simp) rfl rfl keep05 (Or.inr rfl)
  | giveUp m off per hi hnp ht hA =>
    have h1 : J05 A { c with inf := none, ps := m.iid :: c.ps, tr := c.tr ++ [Ev.failed m.uid m.iid] } :=
      h.frame _ rfl (by simp) rfl rfl keep05 (Or.inl rfl)
    have h2 : J05 A { c with
        inf := none, ps := m.iid :: c.ps, tr := c.tr ++ [Ev.failed m.uid m.iid] ++ [Ev.fulfil m.iid off] } :=
      h1.frame _ rfl (by simp) rfl rfl keep05 (Or.inr rfl)
    have h3 : J05 A { c with
        inf := none, ps := m.iid :: c.ps,
        tr := c.tr ++ [Ev.failed m.uid m.iid] ++ [Ev.fulfil m.iid off] ++ [Ev.done m.iid .gaveUp] } := by
      constructor
      · exact h.att
      · intro x hx; simp only; rw [cnt_plain rfl]; exact h2.queued x hx
      · intro x hx; cases hx
      · refine beforeEv_snoc h2.ok ?_
        intro i he hp
        simp only [Ev.done.injEq, and_true] at he
        subst he
        rw [pendingTx_dull rfl, pendingTx_dull rfl, hC.inv.spec] at hp
        have hk : m.kind.isTx = true := by
          cases hk : m.kind.isTx
          · exact absurd hp (hC.inv.nDisj _ (by rw [hi]; simp [infN, hk]))
          · rfl
        have a1 := hA hk
        have a2 := h.flight m hi hk
        have a3 : cnt (c.tr ++ [Ev.failed m.uid m.iid] ++ [Ev.fulfil m.iid off]) m.iid = cnt c.tr m.iid := by
          rw [cnt_plain rfl, cnt_plain rfl]
        have a4 := h.att
        show A ≤ (cnt (c.tr ++ [Ev.failed m.uid m.iid] ++ [Ev.fulfil m.iid off]) m.iid : Int)
        rw [a3]; omega
    cases per
    · exact h3
    · exact h3.same rfl rfl keep05 (Or.inr rfl)
  | retryTx m m' hi hk hs ha hA =>
    have a2 := h.flight m hi hk
    have h1 : J05 A { c with txq := m' :: c.txq } := by
      refine ⟨h.att, ?_, h.flight, h.ok⟩
      intro x hx
      simp only [List.mem_cons] at hx
      rcases hx with rfl | hx
      · rw [hs.1, ha]; exact a2
      · exact h.queued x hx
    exact h1.frame _ rfl (by simp) rfl rfl keep05 (Or.inl rfl)
  | retryN m m' hi hk hs ha hA => exact h.frame _ rfl (by simp) rfl rfl keep05 (Or.inl rfl)
  | mapTx f hf =>
    refine h.same rfl rfl ?_ (Or.inr rfl)
    intro x hx
    obtain ⟨y, hy, rfl⟩ := List.mem_map.1 hx
    exact Or.inr ⟨y, hy, (hf y).1.1, (hf y).2⟩
  | faultNull _ => exact h.same rfl rfl keep05 (Or.inr rfl)
  | faultPromise m _ _ => exact h.same rfl rfl keep05 (Or.inr rfl)

theorem beforeEv_append {P : List Ev → Ev → Prop} {tr es : List Ev} (h : BeforeEv P tr)
    (he : ∀ a, ∀ e ∈ es, P a e) : BeforeEv P (tr ++ es) := by
  induction es generalizing tr with
  | nil => simpa using h
  | cons e es ih =>
    have : tr ++ e :: es = (tr ++ [e]) ++ es := by simp
    rw [this]
    exact ih (beforeEv_snoc h (he _ e (by simp))) (fun a x hx => he a x (by simp [hx]))

theorem J05.restart {A : Int} {p s s' : St} {cfg ign} {op : Op} (h : J05 A s.core) (hop : op.isCrash = false)
    (hA : s'.cfg.attempts = A) (ht : Gap s p op) (hf : RestartFacts p s' cfg ign) : J05 A s'.core := by
  constructor
  · exact hA
  · intro m hm; rw [(hf.stallT m hm).2.1]; exact Nat.zero_le _
  · intro m hm; simp [St.core, hf.inFlight] at hm
  · obtain ⟨es, h1, _, h2⟩ := ht
    have := (h2 hop).1; subst this
    obtain ⟨ds, h3, h4⟩ := hf.tr
    show BeforeEv _ s'.trace
    rw [h3, h1]
    refine beforeEv_append (beforeEv_append (by simpa using (show BeforeEv _ s.trace from h.ok)) ?_) ?_
    · intro a e he; simp at he; subst he; exact .other (by simp)
    · intro a e he
      obtain ⟨r, _, _, rfl⟩ := h4 e he
      exact .other (by simp)

/-! ## C07 -/

structure J07 (c : Core) : Prop where
  tx : ∀ m ∈ c.txq, m.iid ∉ c.ps
  n : ∀ m ∈ c.nq, m.iid ∉ c.ps
  inf : ∀ m, c.inf = some m → m.iid ∉ c.ps
  ok : c.fault ≠ some .promiseTwice

theorem J07.sub {c c' : Core} (h : J07 c) (ht : ∀ m ∈ c'.txq, ∃ m0 ∈ c.txq, m.iid = m0.iid)
    (hn : ∀ m ∈ c'.nq, ∃ m0 ∈ c.nq, m.iid = m0.iid) (hi : c'.inf = none ∨ c'.inf = c.inf) (hp : c'.ps = c.ps)
    (hf : c'.fault ≠ some .promiseTwice) : J07 c' := by
  constructor
  · intro m hm; obtain ⟨m0, h1, h2⟩ := ht m hm; rw [hp, h2]; exact h.tx m0 h1
  · intro m hm; obtain ⟨m0, h1, h2⟩ := hn m hm; rw [hp, h2]; exact h.n m0 h1
  · intro m hm; rw [hp]
    rcases hi with hi | hi
    · rw [hi] at hm; cases hm
    · rw [hi] at hm; exact h.inf m hm
  · exact hf

theorem idSub (l : List Msg) : ∀ m ∈ l, ∃ m0 ∈ l, m.iid = m0.iid := fun m hm => ⟨m, hm, rfl⟩

theorem CInv.inf_ne {c : Core} (h : CInv c) {m : Msg} (hi : c.inf = some m) :
    (∀ x ∈ c.txq, x.iid ≠ m.iid) ∧ ∀ x ∈ c.nq, x.iid ≠ m.iid := by
  have hI := h.inv
  rw [hi] at hI
  cases hk : m.kind.isTx
  · have hd := hI.nDisj m.iid (by simp [infN, hk])
    have hn := hI.nNodup
    simp only [infN, hk, Bool.false_eq_true, if_false, List.singleton_append, List.nodup_cons] at hn
    exact ⟨fun x hx e => hd (e ▸ (h.txq_lt hx).2), fun x hx e => hn.1 (List.mem_map.2 ⟨x, hx, e⟩)⟩
  · have hmem : m.iid ∈ c.dbT.map Row.iid := by rw [hI.ids]; simp [infTx, hk, Msg.key]
    refine ⟨fun x hx e => hI.inf_not_txq hx (by simp [infTx, hk, Msg.key, e]), fun x hx e => (h.nq_lt hx).2 (e ▸ hmem)⟩

theorem J07.finish {c : Core} (h : J07 c) (hC : CInv c) {m : Msg} (hi : c.inf = some m) (c' : Core)
    (h1 : c'.txq = c.txq) (h2 : c'.nq = c.nq) (h3 : c'.inf = none) (h4 : c'.ps = m.iid :: c.ps)
    (h5 : c'.fault = c.fault) : J07 c' := by
  obtain ⟨a, b⟩ := hC.inf_ne hi
  constructor
  · rw [h1, h4]; intro x hx; simp; exact ⟨a x hx, h.tx x hx⟩
  · rw [h2, h4]; intro x hx; simp; exact ⟨b x hx, h.n x hx⟩
  · rw [h3]; simp
  · rw [h5]; exact h.ok

theorem J07.micro {fl : Flags} (hmid : ¬ fl.mid) {c c' : Core} (hC : CInv c) (h : J07 c) (hm : Micro fl c c') :
    J07 c' := by
  have hnf : ∀ x, x ∈ c.txq ∨ x ∈ c.nq → x.iid ≠ c.nextId := by
    intro x hx
    rcases hx with hx | hx
    · exact Nat.ne_of_lt (hC.txq_lt hx).1
    · exact Nat.ne_of_lt (hC.nq_lt hx).1
  have hps : c.nextId ∉ c.ps := fun hc => by have := hC.psLt _ hc; omega
  cases hm with
  | ev | failed | accept | unreg | att | bump => exact h.sub (idSub _) (idSub _) (Or.inr rfl) rfl h.ok
  | fulfilFresh off =>
    constructor
    · intro x hx; simp; exact ⟨hnf x (Or.inl hx), h.tx x hx⟩
    · intro x hx; simp; exact ⟨hnf x (Or.inr hx), h.n x hx⟩
    · intro x hx; simp; exact ⟨Nat.ne_of_lt (hC.inf_lt hx), h.inf x hx⟩
    · exact h.ok
  | pushTx m hk hi ha hq =>
    refine ⟨?_, h.n, h.inf, h.ok⟩
    intro x hx
    simp only [Core.db, List.mem_append, List.mem_singleton] at hx
    rcases hx with hx | rfl
    · exact h.tx x hx
    · rw [hi]; exact hps
  | pushN m nq' per hk hi ha hq hn =>
    have key : ∀ x ∈ nq', x.iid ∉ c.ps := by
      intro x hx
      have : x = m ∨ x ∈ c.nq := by rcases hn with rfl | rfl <;> grind
      rcases this with rfl | hx
      · rw [hi]; exact hps
      · exact h.n x hx
    cases per <;> exact ⟨h.tx, key, h.inf, h.ok⟩
  | evictN m rest per hn =>
    have key : ∀ x ∈ rest, x.iid ∉ c.ps := fun x hx => h.n x (by rw [hn]; simp [hx])
    cases per <;> exact ⟨h.tx, key, h.inf, h.ok⟩
  | evictT m hm hu => exact ⟨fun x hx => h.tx x (List.mem_filter.1 hx).1, h.n, h.inf, h.ok⟩
  | sendTx m m1 rest hi hq hs ha hal =>
    refine ⟨fun x hx => h.tx x (by rw [hq]; exact List.mem_cons_of_mem _ hx), h.n, ?_, h.ok⟩
    intro x hx; simp only [Option.some.injEq] at hx; subst hx
    rw [hs.1]; exact h.tx m (by rw [hq]; simp)
  | sendN m m1 pre post hi hq hs ha hal =>
    refine ⟨h.tx, fun x hx => h.n x (by rw [hq]; simp at hx ⊢; grind), ?_, h.ok⟩
    intro x hx; simp only [Option.some.injEq] at hx; subst hx
    rw [hs.1]; exact h.n m (by rw [hq]; simp)
  | failTx _ m m1 rest hi hq hs ha =>
    refine ⟨?_, h.n, h.inf, h.ok⟩
    intro x hx
    simp only [List.mem_cons] at hx
    rcases hx with rfl | hx
    · rw [hs.1]; exact h.tx m (by rw [hq]; simp)
    · exact h.tx x (by rw [hq]; simp [hx])
  | failN _ m m1 pre post hi hq hs ha =>
    refine ⟨h.tx, ?_, h.inf, h.ok⟩
    intro x hx
    simp only [List.mem_append, List.mem_cons] at hx
    rcases hx with hx | rfl | hx
    · exact h.n x (by rw [hq]; simp [hx])
    · rw [hs.1]; exact h.n m (by rw [hq]; simp)
    · exact h.n x (by rw [hq]; simp [hx])
  | failPop _ m m1 f pre post rest hi hq hs ha hnp hr hmid' =>
    have hpre : pre = [] := hmid'.resolve_right hmid
    subst hpre
    simp only [List.nil_append, List.cons.injEq] at hr hq
    obtain ⟨_, hr⟩ := hr
    subst hr
    have hne := hC.sendN_ne (m := m) (pre := []) (post := post) (by simpa using hq)
    constructor
    · intro x hx; simp; exact ⟨(hne x (Or.inl hx)).2, h.tx x hx⟩
    · intro x hx; simp
      exact ⟨(hne x (Or.inr (by simpa using hx))).2, h.n x (by rw [hq]; exact List.mem_cons_of_mem _ hx)⟩
    · intro x hx; simp [hi] at hx
    · exact h.ok
  | answer m per hi hnp ht =>
    cases per <;> exact h.finish hC hi _ rfl rfl rfl rfl rfl
  | giveUp m off per hi hnp ht hA =>
    cases per <;> exact h.finish hC hi _ rfl rfl rfl rfl rfl
  | retryTx m m' hi hk hs ha hA =>
    refine ⟨?_, h.n, by simp, h.ok⟩
    intro x hx
    simp only [List.mem_cons] at hx
    rcases hx with rfl | hx
    · rw [hs.1]; exact h.inf m hi
    · exact h.tx x hx
  | retryN m m' hi hk hs ha hA =>
    refine ⟨h.tx, ?_, by simp, h.ok⟩
    intro x hx
    simp only [List.mem_cons] at hx
    rcases hx with rfl | hx
    · rw [hs.1]; exact h.inf m hi
    · exact h.n x hx
  | mapTx f hf =>
    refine ⟨?_, h.n, h.inf, h.ok⟩
    intro x hx
    obtain ⟨y, hy, rfl⟩ := List.mem_map.1 hx
    rw [(hf y).1.1]; exact h.tx y hy
  | faultNull _ => exact h.sub (idSub _) (idSub _) (Or.inr rfl) rfl (by simp)
  | faultPromise m hp hm =>
    rcases hm with hm | hm
    · exact absurd hp (h.inf m hm)
    · exact absurd hp (h.n m hm)

theorem J07.restart {p s' : St} {cfg ign} (hf : RestartFacts p s' cfg ign) : J07 s'.core := by
  constructor <;> simp [St.core, hf.ps, hf.fault]

/-! ## C08 -/

/-- May `m` be transmitted before the station is accepted? -/
def early (m : Msg) : Prop := m.kind = .boot ∨ m.trig = true

structure J08 (c : Core) : Prop where
  acc : acceptedNow c.tr = c.acc
  reg : c.reg = true → c.acc = true
  tx : c.acc = false → ∀ m ∈ c.txq, m.stall = true ∨ early m
  n : c.acc = false → ∀ m ∈ c.nq, m.stall = true ∨ early m
  inf : c.acc = false → ∀ m, c.inf = some m → early m
  ok : BeforeSend (fun a m => acceptedNow a = true ∨ early m) c.tr

theorem acceptedNow_snoc (tr : List Ev) (e : Ev) : acceptedNow (tr ++ [e]) = accStep (acceptedNow tr) e := by
  simp [acceptedNow, List.foldl_append]

theorem early_same {m' m : Msg} (h : sameMsg m' m) : early m' ↔ early m := by
  simp [early, h.2.1, h.2.2.2]

theorem J08.frame {c c' : Core} (h : J08 c) (e : Ev) (hs : ∀ m, e ≠ .send m) (he : ∀ b, accStep b e = b)
    (ht : c'.tr = c.tr ++ [e]) (ha : c'.acc = c.acc) (hr : c'.reg = c.reg)
    (hT : ∀ m ∈ c'.txq, (m.stall = true ∨ early m ∨ c.reg = true) ∨ ∃ m0 ∈ c.txq, sameMsg m m0)
    (hN : ∀ m ∈ c'.nq, (m.stall = true ∨ early m ∨ c.reg = true) ∨ ∃ m0 ∈ c.nq, sameMsg m m0)
    (hi : c'.inf = none ∨ c'.inf = c.inf) : J08 c' := by
  constructor
  · rw [ht, acceptedNow_snoc, he, ha]; exact h.acc
  · rw [hr, ha]; exact h.reg
  · rw [ha]; intro h0 m hm
    rcases hT m hm with h1 | ⟨m0, h1, h2⟩
    · rcases h1 with h1 | h1 | h1
      · exact Or.inl h1
      · exact Or.inr h1
      · have := h.reg h1; rw [this] at h0; cases h0
    · rw [early_same h2, h2.2.2.1]; exact h.tx h0 m0 h1
  · rw [ha]; intro h0 m hm
    rcases hN m hm with h1 | ⟨m0, h1, h2⟩
    · rcases h1 with h1 | h1 | h1
      · exact Or.inl h1
      · exact Or.inr h1
      · have := h.reg h1; rw [this] at h0; cases h0
    · rw [early_same h2, h2.2.2.1]; exact h.n h0 m0 h1
  · rw [ha]; intro h0 m hm
    rcases hi with hi | hi
    · rw [hi] at hm; cases hm
    · rw [hi] at hm; exact h.inf h0 m hm
  · rw [ht]; exact beforeSend_snoc h.ok (fun m hm => absurd hm (hs m))

theorem J08.same {c c' : Core} (h : J08 c)
    (ht : c'.tr = c.tr) (ha : c'.acc = c.acc) (hr : c'.reg = true → c.reg = true)
    (hT : ∀ m ∈ c'.txq, ∃ m0 ∈ c.txq, sameMsg m m0)
    (hN : ∀ m ∈ c'.nq, ∃ m0 ∈ c.nq, sameMsg m m0)
    (hi : c'.inf = none ∨ c'.inf = c.inf) : J08 c' := by
  constructor
  · rw [ht, ha]; exact h.acc
  · rw [ha]; exact fun x => h.reg (hr x)
  · rw [ha]; intro h0 m hm
    obtain ⟨m0, h1, h2⟩ := hT m hm
    rw [early_same h2, h2.2.2.1]; exact h.tx h0 m0 h1
  · rw [ha]; intro h0 m hm
    obtain ⟨m0, h1, h2⟩ := hN m hm
    rw [early_same h2, h2.2.2.1]; exact h.n h0 m0 h1
  · rw [ha]; intro h0 m hm
    rcases hi with hi | hi
    · rw [hi] at hm; cases hm
    · rw [hi] at hm; exact h.inf h0 m hm
  · rw [ht]; exact h.ok

theorem keep8 {c : Core} (l : List Msg) :
    ∀ m ∈ l, (m.stall = true ∨ early m ∨ c.reg = true) ∨ ∃ m0 ∈ l, sameMsg m m0 :=
  fun m hm => Or.inr ⟨m, hm, .refl m⟩

theorem keep8' (l : List Msg) : ∀ m ∈ l, ∃ m0 ∈ l, sameMsg m m0 := fun m hm => ⟨m, hm, .refl m⟩

theorem quiet8 {m : Msg} {c : Core} {r : Prop} (h : m.quietOk c r) (hr : ¬ r) :
    m.stall = true ∨ early m ∨ c.reg = true := by
  simp only [Msg.quietOk] at h
  simp only [early]
  rcases h with h | h | h | h | h
  · exact Or.inl h
  · exact Or.inr (Or.inl (Or.inl h))
  · exact Or.inr (Or.inl (Or.inr h))
  · exact Or.inr (Or.inr h)
  · exact absurd h hr

theorem J08.micro {fl : Flags} (hraw : ¬ fl.raw) {c c' : Core} (h : J08 c) (hm : Micro fl c c') : J08 c' := by
  cases hm with
  | ev e he =>
    exact h.frame e (by rintro m rfl; simp [Ev.obs] at he) (by intro b; cases e <;> simp_all [Ev.obs, accStep])
      rfl rfl rfl (keep8 _) (keep8 _) (Or.inr rfl)
  | failed m hi => exact h.frame _ (by simp) (by simp [accStep]) rfl rfl rfl (keep8 _) (keep8 _) (Or.inr rfl)
  | accept =>
    constructor
    · simp [acceptedNow_snoc, accStep]
    · simp
    · simp
    · simp
    · simp
    · exact beforeSend_snoc h.ok (by simp)
  | unreg => exact h.same rfl rfl (by simp) (keep8' _) (keep8' _) (Or.inr rfl)
  | att | bump => exact h.same rfl rfl id (keep8' _) (keep8' _) (Or.inr rfl)
  | fulfilFresh off => exact h.frame _ (by simp) (by simp [accStep]) rfl rfl rfl (keep8 _) (keep8 _) (Or.inr rfl)
  | pushTx m hk hi ha hq =>
    refine h.frame (c' := Core.db _ _) _ (by simp) (by simp [accStep]) rfl rfl rfl ?_ (keep8 _) (Or.inr rfl)
    intro x hx
    simp only [Core.db, List.mem_append, List.mem_singleton] at hx
    rcases hx with hx | rfl
    · exact keep8 _ x hx
    · exact Or.inl (quiet8 hq hraw)
  | pushN m nq' per hk hi ha hq hn =>
    have key : ∀ x ∈ nq', (x.stall = true ∨ early x ∨ c.reg = true) ∨ ∃ m0 ∈ c.nq, sameMsg x m0 := by
      intro x hx
      have : x = m ∨ x ∈ c.nq := by rcases hn with rfl | rfl <;> grind
      rcases this with rfl | hx
      · exact Or.inl (quiet8 hq hraw)
      · exact keep8 _ x hx
    cases per
    · exact h.frame _ (by simp) (by simp [accStep]) rfl rfl rfl (keep8 _) key (Or.inr rfl)
    · exact h.frame (c' := Core.db _ _) _ (by simp) (by simp [accStep]) rfl rfl rfl (keep8 _) key (Or.inr rfl)
  | evictN m rest per hn =>
    have key : ∀ x ∈ rest, (x.stall = true ∨ early x ∨ c.reg = true) ∨ ∃ m0 ∈ c.nq, sameMsg x m0 :=
      fun x hx => Or.inr ⟨x, by rw [hn]; simp [hx], .refl x⟩
    cases per
    · exact h.frame _ (by simp) (by simp [accStep]) rfl rfl rfl (keep8 _) key (Or.inr rfl)
    · exact h.frame (c' := Core.db _ _) _ (by simp) (by simp [accStep]) rfl rfl rfl (keep8 _) key (Or.inr rfl)
  | evictT m hm hu =>
    refine h.frame (c' := Core.db _ _) _ (by simp) (by simp [accStep]) rfl rfl rfl ?_ (keep8 _) (Or.inr rfl)
    intro x hx; exact keep8 _ x (List.mem_filter.1 hx).1
  | sendTx m m1 rest hi hq hs ha hal =>
    have hearly : c.acc = false → early m1 := by
      intro h0
      rcases h.tx h0 m (by rw [hq]; simp) with h1 | h1
      · have := hal h1; rw [this] at h0; cases h0
      · exact (early_same hs).2 h1
    constructor
    · rw [acceptedNow_snoc]; exact h.acc
    · exact h.reg
    · intro h0 x hx; exact h.tx h0 x (by rw [hq]; exact List.mem_cons_of_mem _ hx)
    · exact h.n
    · intro h0 x hx; simp only [Option.some.injEq] at hx; subst hx; exact hearly h0
    · refine beforeSend_snoc h.ok ?_
      intro x hx; simp only [Ev.send.injEq] at hx; subst hx
      cases h0 : c.acc
      · exact Or.inr (hearly h0)
      · left; rw [h.acc]; exact h0
  | sendN m m1 pre post hi hq hs ha hal =>
    have hearly : c.acc = false → early m1 := by
      intro h0
      rcases h.n h0 m (by rw [hq]; simp) with h1 | h1
      · have := hal h1; rw [this] at h0; cases h0
      · exact (early_same hs).2 h1
    constructor
    · rw [acceptedNow_snoc]; exact h.acc
    · exact h.reg
    · exact h.tx
    · intro h0 x hx; exact h.n h0 x (by rw [hq]; simp at hx ⊢; grind)
    · intro h0 x hx; simp only [Option.some.injEq] at hx; subst hx; exact hearly h0
    · refine beforeSend_snoc h.ok ?_
      intro x hx; simp only [Ev.send.injEq] at hx; subst hx
      cases h0 : c.acc
      · exact Or.inr (hearly h0)
      · left; rw [h.acc]; exact h0
  | failTx _ m m1 rest hi hq hs ha =>
    refine h.same rfl rfl id ?_ (keep8' _) (Or.inr rfl)
    intro x hx
    simp only [List.mem_cons] at hx
    rcases hx with rfl | hx
    · exact ⟨m, by rw [hq]; simp, hs⟩
    · exact ⟨x, by rw [hq]; simp [hx], .refl x⟩
  | failN _ m m1 pre post hi hq hs ha =>
    refine h.same rfl rfl id (keep8' _) ?_ (Or.inr rfl)
    intro x hx
    simp only [List.mem_append, List.mem_cons] at hx
    rcases hx with hx | rfl | hx
    · exact ⟨x, by rw [hq]; simp [hx], .refl x⟩
    · exact ⟨m, by rw [hq]; simp, hs⟩
    · exact ⟨x, by rw [hq]; simp [hx], .refl x⟩
  | failPop _ m m1 f pre post rest hi hq hs ha hnp hr _ =>
    have h1 : J08 { c with nq := rest, ps := m.iid :: c.ps, tr := c.tr ++ [Ev.fulfil m.iid true] } := by
      refine h.frame _ (by simp) (by simp [accStep]) rfl rfl rfl (keep8 _) ?_ (Or.inr rfl)
      intro x hx
      have hx' : x ∈ pre ++ m1 :: post := by rw [hr]; exact List.mem_cons_of_mem _ hx
      simp only [List.mem_append, List.mem_cons] at hx'
      rcases hx' with hx | rfl | hx
      · exact Or.inr ⟨x, by rw [hq]; simp [hx], .refl x⟩
      · exact Or.inr ⟨m, by rw [hq]; simp, hs⟩
      · exact Or.inr ⟨x, by rw [hq]; simp [hx], .refl x⟩
    exact h1.frame _ (by simp) (by simp [accStep]) rfl rfl rfl (keep8 _) (keep8 _) (Or.inr rfl)
  | answer m per hi hnp ht =>
    have h1 : J08 { c with inf := none, ps := m.iid :: c.ps, tr := c.tr ++ [Ev.fulfil m.iid false] } :=
      h.frame _ (by simp) (by simp [accStep]) rfl rfl rfl (keep8 _) (keep8 _) (Or.inl rfl)
    have h2 : J08 { c with
        inf := none, ps := m.iid :: c.ps, tr := c.tr ++ [Ev.fulfil m.iid false] ++ [Ev.answer m.uid m.iid] } :=
      h1.frame _ (by simp) (by simp [accStep]) rfl rfl rfl (keep8 _) (keep8 _) (Or.inr rfl)
    cases per
    · exact h2.frame _ (by simp) (by simp [accStep]) rfl rfl rfl (keep8 _) (keep8 _) (Or.inr rfl)
    · exact h2.frame (c' := Core.db _ _) _ (by simp) (by simp [accStep]) rfl rfl rfl (keep8 _) (keep8 _) (Or.inr rfl)
  | giveUp m off per hi hnp ht hA =>
    have h1 : J08 { c with inf := none, ps := m.iid :: c.ps, tr := c.tr ++ [Ev.failed m.uid m.iid] } :=
      h.frame _ (by simp) (by simp [accStep]) rfl rfl rfl (keep8 _) (keep8 _) (Or.inl rfl)
    have h2 : J08 { c with
        inf := none, ps := m.iid :: c.ps, tr := c.tr ++ [Ev.failed m.uid m.iid] ++ [Ev.fulfil m.iid off] } :=
      h1.frame _ (by simp) (by simp [accStep]) rfl rfl rfl (keep8 _) (keep8 _) (Or.inr rfl)
    cases per
    · exact h2.frame _ (by simp) (by simp [accStep]) rfl rfl rfl (keep8 _) (keep8 _) (Or.inr rfl)
    · exact h2.frame (c' := Core.db _ _) _ (by simp) (by simp [accStep]) rfl rfl rfl (keep8 _) (keep8 _) (Or.inr rfl)
  | retryTx m m' hi hk hs ha hA =>
    have h1 : J08 { c with txq := m' :: c.txq } := by
      refine ⟨h.acc, h.reg, ?_, h.n, h.inf, h.ok⟩
      intro h0 x hx
      simp only [List.mem_cons] at hx
      rcases hx with rfl | hx
      · exact Or.inr ((early_same hs).2 (h.inf h0 m hi))
      · exact h.tx h0 x hx
    exact h1.frame _ (by simp) (by simp [accStep]) rfl rfl rfl (keep8 _) (keep8 _) (Or.inl rfl)
  | retryN m m' hi hk hs ha hA =>
    have h1 : J08 { c with nq := m' :: c.nq } := by
      refine ⟨h.acc, h.reg, h.tx, ?_, h.inf, h.ok⟩
      intro h0 x hx
      simp only [List.mem_cons] at hx
      rcases hx with rfl | hx
      · exact Or.inr ((early_same hs).2 (h.inf h0 m hi))
      · exact h.n h0 x hx
    exact h1.frame _ (by simp) (by simp [accStep]) rfl rfl rfl (keep8 _) (keep8 _) (Or.inl rfl)
  | mapTx f hf =>
    refine h.same rfl rfl id ?_ (keep8' _) (Or.inr rfl)
    intro x hx
    obtain ⟨y, hy, rfl⟩ := List.mem_map.1 hx
    exact ⟨y, hy, (hf y).1⟩
  | faultNull _ => exact h.same rfl rfl id (keep8' _) (keep8' _) (Or.inr rfl)
  | faultPromise m _ _ => exact h.same rfl rfl id (keep8' _) (keep8' _) (Or.inr rfl)

theorem J08.restart {p s s' : St} {cfg ign} {op : Op} (h : J08 s.core) (ht : Gap s p op)
    (hf : RestartFacts p s' cfg ign) : J08 s'.core := by
  obtain ⟨es, ds, e1, e2, e3⟩ := restart_events ht hf
  constructor
  · show acceptedNow s'.trace = s'.accepted
    rw [hf.acc]
    exact foldl_restart accStep s'.trace s.trace es ds false false (fun _ => rfl)
      (fun e he a => by obtain ⟨i, rfl⟩ := e3 e he; rfl) e1
  · intro hr; simp [St.core, hf.reg] at hr
  · intro _ m hm; exact Or.inl (hf.stallT m hm).1
  · intro _ m hm; exact Or.inl (hf.stallN m hm).1
  · intro _ m hm; simp [St.core, hf.inFlight] at hm
  · exact beforeSend_restart h.ok ht hf

theorem J02.restart {p s s' : St} {cfg ign} {op : Op} (h : J02 s.core) (ht : Gap s p op)
    (hf : RestartFacts p s' cfg ign) : J02 s'.core := by
  obtain ⟨es, ds, e1, e2, e3⟩ := restart_events ht hf
  constructor
  · exact beforeSend_restart h.ok ht hf
  · intro _
    exact foldl_restart openStep s'.trace s.trace es ds none none (fun _ => rfl)
      (fun e he a => by obtain ⟨i, rfl⟩ := e3 e he; rfl) e1
  · intro m hm; simp [St.core, hf.inFlight] at hm

end Verif.MQ
