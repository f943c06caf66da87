import Verif.Tx16.Resume

/-! C118: a running transaction has the id the CSMS has assigned to it, for all histories of an application that keeps to the rules. -/

namespace Verif.Tx16

set_option linter.constructorNameAsVariable false

/-- A session is resumed only if it is the last one of its connector that is not acknowledged: the application does not resume a session while there was a later
one on the same connector. -/
def ResumesLast (ops : List Op) : Prop :=
  ∀ pre l post, ops = pre ++ .crash l :: post →
    ∀ a r b, (run {} pre).rows.filter (fun r => !r.acked) = a ++ r :: b → r.session ∈ l → ∀ x ∈ b, x.conn ≠ r.conn

/-! ## The invariant -/

/-- The message ids of a row are old; they are those of its own messages. -/
def RowOk (q : List Msg) (next : Nat) (r : Row) : Prop :=
  (r.startMid < next ∧ ∀ k, r.stopMid = some k → k < next) ∧
  ∀ m ∈ q, (m.stop = false → (r.startMid = m.iid ↔ r.session = m.session) ∧ r.stopMid ≠ some m.iid) ∧
    (m.stop = true → r.stopMid = some m.iid → r.session = m.session)

def TxOk (q : List Msg) (next : Nat) (t : Tx) : Prop :=
  ((∀ k, t.startMid = some k → k < next) ∧ ∀ k, t.stopMid = some k → k < next) ∧
  ∀ m ∈ q, (m.stop = false → (t.startMid = some m.mid ↔ t.session = m.session) ∧ t.stopMid ≠ some m.mid) ∧
    (m.stop = true → t.stopMid = some m.mid → t.session = m.session)

def MsgOk (rows : List Row) (log : List Ev) (next : Nat) (m : Msg) : Prop :=
  (m.mid < next ∧ m.iid < next) ∧ (∃ r ∈ rows, r.session = m.session) ∧ (m.stop = false → ∀ n, Ev.assigned m.session n ∉ log)

/-- The message id of the StopTransaction.req just queued. -/
def MidOk (q : List Msg) (next k mid : Nat) : Prop :=
  mid < next ∧ ∀ m ∈ q, m.mid = mid ∨ m.iid = mid → m.stop = true ∧ m.session = k

def PcOk (s : S) : Prop :=
  match s.pc with
  | .idle => True
  | .starting t mid _ => mid < s.next ∧ t.startMid = none ∧ t.stopMid = none ∧ (∀ n, Ev.assigned t.session n ∉ s.log) ∧
      (∃ r ∈ s.rows, r.session = t.session) ∧
      (∀ m ∈ s.queue, m.session ≠ t.session ∧ m.mid ≠ mid ∧ m.iid ≠ mid) ∧
      (∀ r ∈ s.rows, (r.startMid = mid ↔ r.session = t.session) ∧ r.stopMid ≠ some mid) ∧
      (∀ u, u ∈ s.active ∨ u ∈ s.stopped → u.session ≠ t.session ∧ u.startMid ≠ some mid ∧ u.stopMid ≠ some mid) ∧
      ∀ u ∈ s.active, u.conn ≠ t.conn
  | .queued c k mid _ => MidOk s.queue s.next k mid ∧ ∀ t ∈ s.active, t.conn = c → t.session = k
  | .marked k mid _ => MidOk s.queue s.next k mid

/-- Without the memory of the transactions whose StartTransaction.req is queued. -/
structure Core (s : S) : Prop where
  row : ∀ r ∈ s.rows, RowOk s.queue s.next r
  tx : ∀ t, t ∈ s.active ∨ t ∈ s.stopped → TxOk s.queue s.next t
  txRow : ∀ t, t ∈ s.active ∨ t ∈ s.stopped → ∃ r ∈ s.rows, r.session = t.session
  msg : ∀ m ∈ s.queue, MsgOk s.rows s.log s.next m
  order : s.queue.Pairwise (fun a b => b.stop = false → a.session ≠ b.session)
  known : ∀ k n, Ev.assigned k n ∈ s.log → (∃ r ∈ s.rows, r.session = k) ∧ ∀ r ∈ s.rows, r.session = k → r.txId = n ∨ r.acked = true
  act : ∀ t ∈ s.active, ∀ n, Ev.assigned t.session n ∈ s.log → t.txId = some n
  conn : ∀ t ∈ s.active, ∀ u ∈ s.active, t.conn = u.conn → t.session = u.session

/-- A transaction whose StartTransaction.req is queued is in memory. -/
def Mem (s : S) : Prop :=
  ∀ m ∈ s.queue, m.stop = false → ∀ r ∈ s.rows, r.session = m.session → r.acked = true ∨ ∃ t, (t ∈ s.active ∨ t ∈ s.stopped) ∧ t.session = m.session

def J (s : S) : Prop := Core s ∧ Mem s ∧ PcOk s

/-! ## Lemmas -/

theorem RowOk.mono {q q' : List Msg} {n n' : Nat} {r : Row} (h : RowOk q n r) (hq : ∀ m ∈ q', m ∈ q) (hn : n ≤ n') : RowOk q' n' r :=
  ⟨⟨by have := h.1.1; omega, fun k e => by have := h.1.2 k e; omega⟩, fun m hm => h.2 m (hq m hm)⟩

theorem TxOk.mono {q q' : List Msg} {n n' : Nat} {t : Tx} (h : TxOk q n t) (hq : ∀ m ∈ q', m ∈ q) (hn : n ≤ n') : TxOk q' n' t :=
  ⟨⟨fun k e => by have := h.1.1 k e; omega, fun k e => by have := h.1.2 k e; omega⟩, fun m hm => h.2 m (hq m hm)⟩

/-- A StopTransaction.req with a new message id is queued. -/
theorem RowOk.push {q : List Msg} {n : Nat} {r : Row} (h : RowOk q n r) (x : Msg) (hs : x.stop = true) (hi : x.iid = n) : RowOk (q ++ [x]) (n + 1) r := by
  refine ⟨⟨by have := h.1.1; omega, fun k e => by have := h.1.2 k e; omega⟩, fun m hm => ?_⟩
  rcases List.mem_append.mp hm with hm | hm
  · exact h.2 m hm
  · rw [List.mem_singleton.mp hm]
    refine ⟨fun e => by rw [hs] at e; simp at e, fun _ e => ?_⟩
    have := h.1.2 _ e; omega

theorem TxOk.push {q : List Msg} {n : Nat} {t : Tx} (h : TxOk q n t) (x : Msg) (hs : x.stop = true) (hi : x.mid = n) : TxOk (q ++ [x]) (n + 1) t := by
  refine ⟨⟨fun k e => by have := h.1.1 k e; omega, fun k e => by have := h.1.2 k e; omega⟩, fun m hm => ?_⟩
  rcases List.mem_append.mp hm with hm | hm
  · exact h.2 m hm
  · rw [List.mem_singleton.mp hm]
    refine ⟨fun e => by rw [hs] at e; simp at e, fun _ e => ?_⟩
    have := h.1.2 _ e; omega

theorem order_push {q : List Msg} (h : q.Pairwise (fun a b => b.stop = false → a.session ≠ b.session)) (x : Msg)
    (hx : x.stop = false → ∀ m ∈ q, m.session ≠ x.session) : (q ++ [x]).Pairwise (fun a b => b.stop = false → a.session ≠ b.session) := by
  rw [List.pairwise_append]
  refine ⟨h, List.pairwise_singleton _ _, fun a ha b hb e => ?_⟩
  rw [List.mem_singleton.mp hb] at e ⊢
  exact hx e a ha

/-- Rows that changed neither their session nor their message ids. -/
def Like (a b : List Row) : Prop :=
  (∀ r ∈ a, ∃ x ∈ b, r.session = x.session ∧ r.startMid = x.startMid ∧ r.stopMid = x.stopMid ∧ (x.acked = true → r.acked = true)) ∧
  ∀ x ∈ b, ∃ r ∈ a, r.session = x.session

theorem like_row {a b : List Row} (h : Like a b) {q : List Msg} {n : Nat} (hr : ∀ r ∈ b, RowOk q n r) : ∀ r ∈ a, RowOk q n r := by
  intro r hra
  obtain ⟨x, hx, e1, e2, e3, _⟩ := h.1 r hra
  have := hr x hx
  unfold RowOk at *
  rw [e1, e2, e3]
  exact this

theorem like_ex {a b : List Row} (h : Like a b) {k : Nat} (he : ∃ r ∈ b, r.session = k) : ∃ r ∈ a, r.session = k := by
  obtain ⟨x, hx, e⟩ := he
  obtain ⟨r, hr, e'⟩ := h.2 x hx
  exact ⟨r, hr, e'.trans e⟩

theorem like_refl (a : List Row) : Like a a := ⟨fun r hr => ⟨r, hr, rfl, rfl, rfl, id⟩, fun r hr => ⟨r, hr, rfl⟩⟩

theorem like_update {l : List Row} {k : Nat} {f : Row → Row}
    (hf : ∀ r, (f r).session = r.session ∧ (f r).startMid = r.startMid ∧ (f r).stopMid = r.stopMid ∧ (r.acked = true → (f r).acked = true)) :
    Like (updateRow l k f) l := by
  constructor
  · intro r hr
    obtain ⟨x, hx, rfl⟩ := mem_updateRow.mp hr
    refine ⟨x, hx, ?_⟩
    split
    · exact hf x
    · exact ⟨rfl, rfl, rfl, id⟩
  · intro x hx
    refine ⟨_, mem_updateRow.mpr ⟨x, hx, rfl⟩, ?_⟩
    split
    · exact (hf x).1
    · rfl

theorem found {s : S} (h : Core s) {m : Msg} (hm : m ∈ s.queue) (hs : m.stop = false) {t : Tx} (ht : byMid s m.mid = some t) : t.session = m.session := by
  have h1 := List.mem_of_find?_eq_some ht
  have h2 := List.find?_some ht
  simp only [List.mem_append] at h1
  simp only [Bool.or_eq_true, beq_iff_eq] at h2
  have := ((h.tx t h1).2 m hm).1 hs
  exact this.1.mp (h2.resolve_right this.2)

theorem notFound {s : S} (h : Core s) {m : Msg} (hm : m ∈ s.queue) (hs : m.stop = false) (ht : byMid s m.mid = none) :
    ∀ t, t ∈ s.active ∨ t ∈ s.stopped → t.session ≠ m.session := by
  have h1 := List.find?_eq_none.mp ht
  simp only [List.mem_append, Bool.or_eq_true, beq_iff_eq, not_or] at h1
  exact fun t ht' e => (h1 t ht').1 ((((h.tx t ht').2 m hm).1 hs).1.mpr e)

theorem renumber_eq {s : S} (h : Core s) {m : Msg} (hm : m ∈ s.queue) (hs : m.stop = false) (l : List Tx) (hl : ∀ t ∈ l, t ∈ s.active ∨ t ∈ s.stopped) :
    renumber s m.mid l = updateTx l m.session (fun t => { t with startMid := some s.next }) := by
  unfold renumber
  cases ht : byMid s m.mid with
  | none => exact (updateTx_none (fun t h' => notFound h hm hs ht t (hl t h'))).symm
  | some t => simp only [found h hm hs ht]

/-! ## The steps -/

theorem J.nil : J {} := by
  refine ⟨⟨?_, ?_, ?_, ?_, List.Pairwise.nil, ?_, ?_, ?_⟩, ?_, trivial⟩ <;> first | (intro r hr; simp at hr) | (intro k n hr; simp at hr)

theorem J.startInsert {s : S} (h : J s) (c k : Nat) (r m : Int) (h1 : ∀ x ∈ s.rows, x.session ≠ k) (h2 : ∀ t ∈ s.active, t.conn ≠ c) :
    J (startInsert s c k r m) := by
  unfold Tx16.startInsert
  split
  · obtain ⟨hc, hm, _⟩ := h
    have hins : insertRow s.rows { session := k, txId := r, conn := c, startMid := s.next, meterStart := m, meterLast := m } =
        s.rows ++ [{ session := k, txId := r, conn := c, startMid := s.next, meterStart := m, meterLast := m }] := by
      unfold insertRow
      rw [if_neg]
      simp only [List.any_eq_true, beq_iff_eq, not_exists, not_and]
      exact h1
    have noQ : ∀ x ∈ s.queue, x.session ≠ k := fun x hx e => by
      obtain ⟨y, hy, e'⟩ := (hc.msg x hx).2.1; exact h1 y hy (e'.trans e)
    have noT : ∀ t, t ∈ s.active ∨ t ∈ s.stopped → t.session ≠ k := fun t ht e => by
      obtain ⟨y, hy, e'⟩ := hc.txRow t ht; exact h1 y hy (e'.trans e)
    have noA : ∀ n, Ev.assigned k n ∉ s.log := fun n hn => by
      obtain ⟨y, hy, e'⟩ := (hc.known k n hn).1; exact h1 y hy e'
    rw [hins]
    refine ⟨⟨?_, ?_, ?_, ?_, hc.order, ?_, hc.act, hc.conn⟩, ?_, ?_⟩
    · intro x hx
      rcases List.mem_append.mp hx with hx | hx
      · exact (hc.row x hx).mono (fun _ h => h) (Nat.le_succ _)
      · rw [List.mem_singleton.mp hx]
        refine ⟨⟨Nat.lt_succ_self _, fun k e => by simp at e⟩, fun y hy => ⟨fun _ => ⟨⟨fun e => ?_, fun e => ?_⟩, by simp⟩, fun _ e => by simp at e⟩⟩
        · have := (hc.msg y hy).1.2
          simp only at e; omega
        · exact absurd e.symm (noQ y hy)
    · exact fun t ht => (hc.tx t ht).mono (fun _ h => h) (Nat.le_succ _)
    · intro t ht
      obtain ⟨y, hy, e⟩ := hc.txRow t ht
      exact ⟨y, List.mem_append_left _ hy, e⟩
    · intro x hx
      obtain ⟨e1, ⟨y, hy, e2⟩, e3⟩ := hc.msg x hx
      exact ⟨⟨by have := e1.1; simp only; omega, by have := e1.2; simp only; omega⟩, ⟨y, List.mem_append_left _ hy, e2⟩, e3⟩
    · intro j n hj
      obtain ⟨⟨y, hy, e⟩, e'⟩ := hc.known j n hj
      refine ⟨⟨y, List.mem_append_left _ hy, e⟩, fun x hx ex => ?_⟩
      rcases List.mem_append.mp hx with hx | hx
      · exact e' x hx ex
      · rw [List.mem_singleton.mp hx] at ex
        simp only at ex
        rw [← ex] at hj
        exact absurd hj (noA n)
    · intro x hx hs y hy e
      rcases List.mem_append.mp hy with hy | hy
      · exact hm x hx hs y hy e
      · rw [List.mem_singleton.mp hy] at e
        exact absurd e.symm (noQ x hx)
    · show _ ∧ _
      refine ⟨Nat.lt_succ_self _, rfl, rfl, noA, ⟨_, List.mem_append_right _ (List.mem_singleton.mpr rfl), rfl⟩, fun x hx => ⟨noQ x hx, ?_, ?_⟩, ?_, ?_, h2⟩
      · have := (hc.msg x hx).1.1; omega
      · have := (hc.msg x hx).1.2; omega
      · intro y hy
        rcases List.mem_append.mp hy with hy | hy
        · have e1 := (hc.row y hy).1
          refine ⟨⟨fun e => ?_, fun e => absurd e (h1 y hy)⟩, fun e => ?_⟩
          · have := e1.1; omega
          · have := e1.2 _ e; omega
        · rw [List.mem_singleton.mp hy]
          exact ⟨⟨fun _ => rfl, fun _ => rfl⟩, by simp⟩
      · intro u hu
        have e1 := (hc.tx u hu).1
        refine ⟨noT u hu, fun e => ?_, fun e => ?_⟩
        · have := e1.1 _ e; omega
        · have := e1.2 _ e; omega
  · exact h

theorem J.startQueue {s : S} (h : J s) : J (startQueue s) := by
  unfold Tx16.startQueue
  split
  · rename_i t mid v hp
    obtain ⟨hc, hm, hpc⟩ := h
    unfold PcOk at hpc
    rw [hp] at hpc
    obtain ⟨p1, p2, p3, p4, p5, p6, p7, p8, p9⟩ := hpc
    have hfil : s.active.filter (fun x => x.conn != t.conn) = s.active := List.filter_eq_self.mpr (fun x hx => by simpa using p9 x hx)
    have hadd : addActive s.active { t with startMid := some mid } = { t with startMid := some mid } :: s.active := by
      unfold addActive; dsimp only; rw [hfil]
    rw [hadd]
    have tx' : ∀ u, (u ∈ ({ t with startMid := some mid } :: s.active : List Tx) ∨ u ∈ s.stopped) →
        u = { t with startMid := some mid } ∨ (u ∈ s.active ∨ u ∈ s.stopped) := by
      intro u hu
      rcases hu with hu | hu
      · rcases List.mem_cons.mp hu with hu | hu
        · exact .inl hu
        · exact .inr (.inl hu)
      · exact .inr (.inr hu)
    refine ⟨⟨?_, ?_, ?_, ?_, ?_, hc.known, ?_, ?_⟩, ?_, trivial⟩
    · intro r hr
      refine ⟨(hc.row r hr).1, fun m hm' => ?_⟩
      rcases List.mem_append.mp hm' with hm' | hm'
      · exact (hc.row r hr).2 m hm'
      · rw [List.mem_singleton.mp hm']
        exact ⟨fun _ => p7 r hr, fun e => by simp at e⟩
    · intro u hu
      rcases tx' u hu with rfl | hu
      · refine ⟨⟨fun k e => ?_, fun k e => by rw [show _ = none from p3] at e; simp at e⟩, fun m hm' => ?_⟩
        · simp only [Option.some.injEq] at e; rw [← e]; exact p1
        · rcases List.mem_append.mp hm' with hm' | hm'
          · have := p6 m hm'
            refine ⟨fun _ => ⟨⟨fun e => ?_, fun e => absurd e.symm this.1⟩, fun e => ?_⟩, fun _ e => ?_⟩
            · simp only [Option.some.injEq] at e; exact absurd e.symm this.2.1
            · rw [show _ = none from p3] at e; simp at e
            · rw [show _ = none from p3] at e; simp at e
          · rw [List.mem_singleton.mp hm']
            exact ⟨fun _ => ⟨⟨fun _ => rfl, fun _ => rfl⟩, fun e => by rw [show _ = none from p3] at e; simp at e⟩, fun e => by simp at e⟩
      · refine ⟨(hc.tx u hu).1, fun m hm' => ?_⟩
        rcases List.mem_append.mp hm' with hm' | hm'
        · exact (hc.tx u hu).2 m hm'
        · rw [List.mem_singleton.mp hm']
          have := p8 u hu
          exact ⟨fun _ => ⟨⟨fun e => absurd e this.2.1, fun e => absurd e this.1⟩, this.2.2⟩, fun e => by simp at e⟩
    · intro u hu
      rcases tx' u hu with rfl | hu
      · exact p5
      · exact hc.txRow u hu
    · intro m hm'
      rcases List.mem_append.mp hm' with hm' | hm'
      · exact hc.msg m hm'
      · rw [List.mem_singleton.mp hm']
        exact ⟨⟨p1, p1⟩, p5, fun _ => p4⟩
    · exact order_push hc.order _ (fun _ m hm' => (p6 m hm').1)
    · intro u hu n hn
      rcases List.mem_cons.mp hu with rfl | hu
      · exact absurd hn (p4 n)
      · exact hc.act u hu n hn
    · intro u hu w hw e
      rcases List.mem_cons.mp hu with rfl | hu <;> rcases List.mem_cons.mp hw with rfl | hw
      · rfl
      · exact absurd e.symm (p9 w hw)
      · exact absurd e (p9 u hu)
      · exact hc.conn u hu w hw e
    · intro m hm' hs r hr e
      rcases List.mem_append.mp hm' with hm' | hm'
      · rcases hm m hm' hs r hr e with h | ⟨u, hu, e'⟩
        · exact .inl h
        · exact .inr ⟨u, hu.imp (List.mem_cons_of_mem _) id, e'⟩
      · rw [List.mem_singleton.mp hm']
        exact .inr ⟨_, .inl (List.mem_cons_self ..), rfl⟩
  · exact h

theorem J.stopQueue {s : S} (h : J s) (c : Nat) (v : Int) : J (stopQueue s c v) := by
  unfold Tx16.stopQueue
  split
  · split
    · exact h
    · rename_i t ht
      obtain ⟨hc, hm, _⟩ := h
      have hta : t ∈ s.active := List.mem_of_find?_eq_some ht
      have htc : t.conn = c := by simpa using List.find?_some ht
      refine ⟨⟨fun r hr => (hc.row r hr).push _ rfl rfl, fun u hu => (hc.tx u hu).push _ rfl rfl, hc.txRow, ?_, order_push hc.order _ (fun e => by simp at e),
        hc.known, hc.act, hc.conn⟩, ?_, ?_⟩
      · intro m hm'
        rcases List.mem_append.mp hm' with hm' | hm'
        · obtain ⟨e1, e2, e3⟩ := hc.msg m hm'
          exact ⟨⟨by have := e1.1; simp only; omega, by have := e1.2; simp only; omega⟩, e2, e3⟩
        · rw [List.mem_singleton.mp hm']
          exact ⟨⟨Nat.lt_succ_self _, Nat.lt_succ_self _⟩, hc.txRow t (.inl hta), fun e => by simp at e⟩
      · intro m hm' hs
        rcases List.mem_append.mp hm' with hm' | hm'
        · exact hm m hm' hs
        · rw [List.mem_singleton.mp hm'] at hs; simp at hs
      · show MidOk _ _ _ _ ∧ _
        refine ⟨⟨Nat.lt_succ_self _, fun m hm' e => ?_⟩, fun u hu e => hc.conn u hu t hta (e.trans htc.symm)⟩
        rcases List.mem_append.mp hm' with hm' | hm'
        · have := (hc.msg m hm').1
          omega
        · rw [List.mem_singleton.mp hm']; exact ⟨rfl, rfl⟩
  · exact h

theorem J.stopMark {s : S} (h : J s) : J (stopMark s) := by
  unfold Tx16.stopMark
  split
  · rename_i c k mid v hp
    obtain ⟨hc, hm, hpc⟩ := h
    unfold PcOk at hpc
    rw [hp] at hpc
    obtain ⟨p1, p2⟩ := hpc
    have tx' : ∀ u, (u ∈ s.active.filter (fun t => t.conn != c) ∨
        u ∈ s.stopped ++ (s.active.filter (fun t => t.conn == c)).map (fun t => { t with finished := true, stopMid := some mid })) →
        (u ∈ s.active ∨ u ∈ s.stopped) ∨ ∃ t ∈ s.active, t.conn = c ∧ u = { t with finished := true, stopMid := some mid } := by
      intro u hu
      rcases hu with hu | hu
      · exact .inl (.inl (List.mem_filter.mp hu).1)
      · rcases List.mem_append.mp hu with hu | hu
        · exact .inl (.inr hu)
        · obtain ⟨t, ht, rfl⟩ := List.mem_map.mp hu
          exact .inr ⟨t, (List.mem_filter.mp ht).1, by simpa using (List.mem_filter.mp ht).2, rfl⟩
    refine ⟨⟨hc.row, ?_, ?_, hc.msg, hc.order, hc.known, fun t ht => hc.act t (List.mem_filter.mp ht).1,
      fun t ht u hu => hc.conn t (List.mem_filter.mp ht).1 u (List.mem_filter.mp hu).1⟩, ?_, p1⟩
    · intro u hu
      rcases tx' u hu with hu | ⟨t, ht, e, rfl⟩
      · exact hc.tx u hu
      · have h1 := hc.tx t (.inl ht)
        refine ⟨⟨h1.1.1, fun j e => ?_⟩, fun m hm' => ⟨fun hs => ⟨((h1.2 m hm').1 hs).1, fun e => ?_⟩, fun hs e' => ?_⟩⟩
        · simp only [Option.some.injEq] at e; rw [← e]; exact p1.1
        · simp only [Option.some.injEq] at e
          have := (p1.2 m hm' (.inl e.symm)).1
          rw [hs] at this; simp at this
        · simp only [Option.some.injEq] at e'
          exact (p2 t ht e).trans (p1.2 m hm' (.inl e'.symm)).2.symm
    · intro u hu
      rcases tx' u hu with hu | ⟨t, ht, e, rfl⟩
      · exact hc.txRow u hu
      · exact hc.txRow t (.inl ht)
    · intro m hm' hs r hr e
      rcases hm m hm' hs r hr e with h | ⟨t, ht | ht, e'⟩
      · exact .inl h
      · by_cases hcc : t.conn = c
        · exact .inr ⟨{ t with finished := true, stopMid := some mid },
            .inr (List.mem_append_right _ (List.mem_map.mpr ⟨t, List.mem_filter.mpr ⟨ht, by simpa using hcc⟩, rfl⟩)), e'⟩
        · exact .inr ⟨t, .inl (List.mem_filter.mpr ⟨ht, by simpa using hcc⟩), e'⟩
      · exact .inr ⟨t, .inr (List.mem_append_left _ ht), e'⟩
  · exact h

/-- The end of a transaction is stored. -/
theorem row_ended {l : List Row} {k mid : Nat} {v : Int} {q : List Msg} {n : Nat} (hr : ∀ r ∈ l, RowOk q n r) (hlt : mid < n)
    (hmid : ∀ m ∈ q, m.iid = mid → m.stop = true ∧ m.session = k) : ∀ r ∈ updateRow l k (ended mid v), RowOk q n r := by
  intro r hra
  obtain ⟨x, hx, e1, _, e2, _, _, e3⟩ := (mem_ended l k mid v).1 r hra
  have h := hr x hx
  rcases e3 with e3 | ⟨e3, e4⟩
  · unfold RowOk at *
    rw [e1, e2, e3]; exact h
  · refine ⟨⟨by rw [e2]; exact h.1.1, fun j e => ?_⟩, fun m hm => ⟨fun hs => ⟨by rw [e1, e2]; exact ((h.2 m hm).1 hs).1, fun e => ?_⟩, fun hs e => ?_⟩⟩
    · rw [e3] at e; simp only [Option.some.injEq] at e; omega
    · rw [e3] at e; simp only [Option.some.injEq] at e
      have := (hmid m hm e.symm).1; rw [hs] at this; simp at this
    · rw [e3] at e; simp only [Option.some.injEq] at e
      rw [e4]; exact (hmid m hm e.symm).2.symm

theorem known_ended {l : List Row} {k mid : Nat} {v : Int} {j : Nat} {n : Int}
    (h : (∃ r ∈ l, r.session = j) ∧ ∀ r ∈ l, r.session = j → r.txId = n ∨ r.acked = true) :
    (∃ r ∈ updateRow l k (ended mid v), r.session = j) ∧ ∀ r ∈ updateRow l k (ended mid v), r.session = j → r.txId = n ∨ r.acked = true := by
  obtain ⟨⟨x, hx, e⟩, h2⟩ := h
  obtain ⟨r, hr, e'⟩ := (mem_ended l k mid v).2 x hx
  refine ⟨⟨r, hr, e'.trans e⟩, fun r hr e => ?_⟩
  obtain ⟨x, hx, e1, e2, _, e3, _⟩ := (mem_ended l k mid v).1 r hr
  rw [e2, e3]; exact h2 x hx (e1.symm.trans e)

theorem ex_ended {l : List Row} {k mid : Nat} {v : Int} {j : Nat} (h : ∃ r ∈ l, r.session = j) : ∃ r ∈ updateRow l k (ended mid v), r.session = j := by
  obtain ⟨x, hx, e⟩ := h
  obtain ⟨r, hr, e'⟩ := (mem_ended l k mid v).2 x hx
  exact ⟨r, hr, e'.trans e⟩

theorem J.stopStore {s : S} (h : J s) : J (stopStore s) := by
  unfold Tx16.stopStore
  split
  · rename_i k mid v hp
    obtain ⟨hc, hm, hpc⟩ := h
    unfold PcOk at hpc
    rw [hp] at hpc
    have p1 : MidOk s.queue s.next k mid := hpc
    refine ⟨⟨row_ended hc.row p1.1 (fun m hm' e => p1.2 m hm' (.inr e)), hc.tx, fun t ht => ex_ended (hc.txRow t ht), fun m hm' => ?_, hc.order,
      fun j n hj => known_ended (hc.known j n hj), hc.act, hc.conn⟩, ?_, trivial⟩
    · obtain ⟨e1, e2, e3⟩ := hc.msg m hm'
      exact ⟨e1, ex_ended e2, e3⟩
    · intro m hm' hs r hr e
      obtain ⟨x, hx, e1, _, _, e2, _⟩ := (mem_ended s.rows k mid v).1 r hr
      rw [e2]
      exact hm m hm' hs x hx (e1.symm.trans e)
  · exact h

/-- Rows change, but not their sessions and message ids. -/
theorem J.like {s : S} (h : J s) (rows : List Row) (hl : Like rows s.rows)
    (hk : ∀ k n, Ev.assigned k n ∈ s.log → ∀ r ∈ rows, r.session = k → r.txId = n ∨ r.acked = true) : J { s with rows := rows } := by
  obtain ⟨hc, hm, hpc⟩ := h
  refine ⟨⟨like_row hl hc.row, hc.tx, fun t ht => like_ex hl (hc.txRow t ht), fun m hm' => ?_, hc.order,
    fun k n hj => ⟨like_ex hl (hc.known k n hj).1, hk k n hj⟩, hc.act, hc.conn⟩, ?_, ?_⟩
  · obtain ⟨e1, e2, e3⟩ := hc.msg m hm'
    exact ⟨e1, like_ex hl e2, e3⟩
  · intro m hm' hs r hr e
    obtain ⟨x, hx, e1, _, _, e2⟩ := hl.1 r hr
    rcases hm m hm' hs x hx (e1.symm.trans e) with h | h
    · exact .inl (e2 h)
    · exact .inr h
  · unfold PcOk at hpc ⊢
    dsimp only
    split
    · trivial
    · rename_i t mid v hp
      rw [hp] at hpc
      obtain ⟨p1, p2, p3, p4, p5, p6, p7, p8, p9⟩ := hpc
      refine ⟨p1, p2, p3, p4, like_ex hl p5, p6, fun r hr => ?_, p8, p9⟩
      obtain ⟨x, hx, e1, e2, e3, _⟩ := hl.1 r hr
      rw [e1, e2, e3]; exact p7 x hx
    · rename_i hp; rw [hp] at hpc; exact hpc
    · rename_i hp; rw [hp] at hpc; exact hpc

theorem J.sample {s : S} (h : J s) (c : Nat) (v : Int) : J (sample s c v) := by
  unfold Tx16.sample
  split
  · split
    · refine h.like _ (like_update (fun r => ⟨rfl, rfl, rfl, id⟩)) ?_
      intro k n hn r hr e
      obtain ⟨x, hx, rfl⟩ := mem_updateRow.mp hr
      have := (h.1.known k n hn).2 x hx
      split at e
      · rename_i hs; rw [if_pos hs]; exact this e
      · rename_i hs; rw [if_neg hs]; exact this e
    · exact h
  · exact h

/-- Less is queued. -/
theorem J.tail {s : S} (h : J s) (q : List Msg) (m : Msg) (hq : s.queue = m :: q) : J { s with queue := q } := by
  obtain ⟨hc, hm, hpc⟩ := h
  have hsub : ∀ x ∈ q, x ∈ s.queue := fun x hx => by rw [hq]; exact List.mem_cons_of_mem _ hx
  refine ⟨⟨fun r hr => (hc.row r hr).mono hsub (Nat.le_refl _), fun t ht => (hc.tx t ht).mono hsub (Nat.le_refl _), hc.txRow, fun x hx => hc.msg x (hsub x hx),
    (by have := hc.order; rw [hq] at this; exact (List.pairwise_cons.mp this).2), hc.known, hc.act, hc.conn⟩, fun x hx => hm x (hsub x hx), ?_⟩
  unfold PcOk at hpc ⊢
  dsimp only
  split
  · trivial
  · rename_i hp
    rw [hp] at hpc
    obtain ⟨p1, p2, p3, p4, p5, p6, p7, p8, p9⟩ := hpc
    exact ⟨p1, p2, p3, p4, p5, fun m hm => p6 m (hsub m hm), p7, p8, p9⟩
  · rename_i hp; rw [hp] at hpc; exact ⟨⟨hpc.1.1, fun m hm => hpc.1.2 m (hsub m hm)⟩, hpc.2⟩
  · rename_i hp; rw [hp] at hpc; exact ⟨hpc.1, fun m hm => hpc.2 m (hsub m hm)⟩

theorem J.drop {s : S} (h : J s) : J (drop s) := by
  unfold Tx16.drop
  cases hq : s.queue with
  | nil =>
    have : ({ s with queue := [] } : S) = s := by cases s; simp only at hq; rw [hq]
    rw [List.tail_nil, this]; exact h
  | cons m q => exact h.tail q m hq

theorem J.retryStop {s : S} (h : J s) {m : Msg} {q : List Msg} (hq : s.queue = m :: q) (hs : m.stop = true) (id : Int) (mp : List (Nat × Int)) :
    J { s with queue := { m with mid := s.next, id := id } :: q, map := mp, next := s.next + 1 } := by
  obtain ⟨hc, hm, hpc⟩ := h
  have hmq : m ∈ s.queue := by rw [hq]; exact List.mem_cons_self ..
  have hsub : ∀ x ∈ q, x ∈ s.queue := fun x hx => by rw [hq]; exact List.mem_cons_of_mem _ hx
  have hord := hc.order
  rw [hq] at hord
  obtain ⟨o1, o2⟩ := List.pairwise_cons.mp hord
  have hmid : ∀ k mid, MidOk s.queue s.next k mid → MidOk ({ m with mid := s.next, id := id } :: q) (s.next + 1) k mid := by
    intro k mid hk
    refine ⟨by have := hk.1; omega, fun x hx e => ?_⟩
    rcases List.mem_cons.mp hx with rfl | hx
    · have := hk.1
      simp only at e ⊢
      rcases e with e | e
      · omega
      · exact hk.2 m hmq (.inr e)
    · exact hk.2 x (hsub x hx) e
  refine ⟨⟨?_, ?_, hc.txRow, ?_, ?_, hc.known, hc.act, hc.conn⟩, ?_, ?_⟩
  · intro r hr
    have h1 := hc.row r hr
    refine ⟨⟨by have := h1.1.1; simp only; omega, fun k e => by have := h1.1.2 k e; simp only; omega⟩, fun x hx => ?_⟩
    rcases List.mem_cons.mp hx with rfl | hx
    · exact h1.2 m hmq
    · exact h1.2 x (hsub x hx)
  · intro t ht
    have h1 := hc.tx t ht
    refine ⟨⟨fun k e => by have := h1.1.1 k e; simp only; omega, fun k e => by have := h1.1.2 k e; simp only; omega⟩, fun x hx => ?_⟩
    rcases List.mem_cons.mp hx with rfl | hx
    · refine ⟨fun e => by rw [show m.stop = false from e] at hs; simp at hs, fun _ e => ?_⟩
      have := h1.1.2 _ e; simp only at this; omega
    · exact h1.2 x (hsub x hx)
  · intro x hx
    rcases List.mem_cons.mp hx with rfl | hx
    · obtain ⟨e1, e2, e3⟩ := hc.msg m hmq
      exact ⟨⟨Nat.lt_succ_self _, by have := e1.2; simp only; omega⟩, e2, e3⟩
    · obtain ⟨e1, e2, e3⟩ := hc.msg x (hsub x hx)
      exact ⟨⟨by have := e1.1; simp only; omega, by have := e1.2; simp only; omega⟩, e2, e3⟩
  · exact List.pairwise_cons.mpr ⟨o1, o2⟩
  · intro x hx hs'
    rcases List.mem_cons.mp hx with rfl | hx
    · rw [show m.stop = false from hs'] at hs; simp at hs
    · exact hm x (hsub x hx) hs'
  · unfold PcOk at hpc ⊢
    dsimp only
    split
    · trivial
    · rename_i hp
      rw [hp] at hpc
      obtain ⟨p1, p2, p3, p4, p5, p6, p7, p8, p9⟩ := hpc
      refine ⟨by omega, p2, p3, p4, p5, fun x hx => ?_, p7, p8, p9⟩
      rcases List.mem_cons.mp hx with rfl | hx
      · have := p6 m hmq
        exact ⟨this.1, by simp only; omega, this.2.2⟩
      · exact p6 x (hsub x hx)
    · rename_i hp; rw [hp] at hpc; exact ⟨hmid _ _ hpc.1, hpc.2⟩
    · rename_i hp; rw [hp] at hpc; exact hmid _ _ hpc

theorem mem_updateTx_or {s : S} {k : Nat} {f : Tx → Tx} {t : Tx} (h : t ∈ updateTx s.active k f ∨ t ∈ updateTx s.stopped k f) :
    ∃ u, (u ∈ s.active ∨ u ∈ s.stopped) ∧ t = if u.session = k then f u else u := by
  rcases h with h | h
  · obtain ⟨u, hu, e⟩ := mem_updateTx.mp h; exact ⟨u, .inl hu, e⟩
  · obtain ⟨u, hu, e⟩ := mem_updateTx.mp h; exact ⟨u, .inr hu, e⟩

theorem updateTx_has {s : S} {k : Nat} {f : Tx → Tx} (hf : ∀ t, (f t).session = t.session) {u : Tx} (hu : u ∈ s.active ∨ u ∈ s.stopped) :
    ∃ t, (t ∈ updateTx s.active k f ∨ t ∈ updateTx s.stopped k f) ∧ t.session = u.session := by
  rcases hu with hu | hu
  · refine ⟨_, .inl (mem_updateTx.mpr ⟨u, hu, rfl⟩), ?_⟩
    split
    · exact hf u
    · rfl
  · refine ⟨_, .inr (mem_updateTx.mpr ⟨u, hu, rfl⟩), ?_⟩
    split
    · exact hf u
    · rfl

theorem J.retryStart {s : S} (h : J s) {m : Msg} {q : List Msg} (hq : s.queue = m :: q) (hs : m.stop = false) :
    J { s with
        queue := { m with mid := s.next } :: q
        next := s.next + 1
        active := renumber s m.mid s.active
        stopped := renumber s m.mid s.stopped } := by
  obtain ⟨hc, hm, hpc⟩ := h
  have hmq : m ∈ s.queue := by rw [hq]; exact List.mem_cons_self ..
  have hsub : ∀ x ∈ q, x ∈ s.queue := fun x hx => by rw [hq]; exact List.mem_cons_of_mem _ hx
  have hord := hc.order
  rw [hq] at hord
  obtain ⟨o1, o2⟩ := List.pairwise_cons.mp hord
  rw [renumber_eq hc hmq hs _ (fun t ht => .inl ht), renumber_eq hc hmq hs _ (fun t ht => .inr ht)]
  have hmid : ∀ k mid, MidOk s.queue s.next k mid → MidOk ({ m with mid := s.next } :: q) (s.next + 1) k mid := by
    intro k mid hk
    refine ⟨by have := hk.1; omega, fun x hx e => ?_⟩
    rcases List.mem_cons.mp hx with rfl | hx
    · have := hk.1
      simp only at e ⊢
      rcases e with e | e
      · omega
      · exact hk.2 m hmq (.inr e)
    · exact hk.2 x (hsub x hx) e
  refine ⟨⟨?_, ?_, ?_, ?_, ?_, hc.known, ?_, ?_⟩, ?_, ?_⟩
  · intro r hr
    have h1 := hc.row r hr
    refine ⟨⟨by have := h1.1.1; simp only; omega, fun k e => by have := h1.1.2 k e; simp only; omega⟩, fun x hx => ?_⟩
    rcases List.mem_cons.mp hx with rfl | hx
    · exact h1.2 m hmq
    · exact h1.2 x (hsub x hx)
  · intro t ht
    obtain ⟨u, hu, rfl⟩ := mem_updateTx_or ht
    have h1 := hc.tx u hu
    by_cases e : u.session = m.session
    · rw [if_pos e]
      refine ⟨⟨fun k e => by simp only [Option.some.injEq] at e; simp only; omega, fun k e => by have := h1.1.2 k e; simp only; omega⟩, fun x hx => ?_⟩
      rcases List.mem_cons.mp hx with rfl | hx
      · refine ⟨fun _ => ⟨⟨fun _ => e, fun _ => rfl⟩, fun e' => ?_⟩, fun e' => by rw [show m.stop = true from e'] at hs; simp at hs⟩
        have := h1.1.2 _ e'; simp only at this; omega
      · refine ⟨fun hs' => ⟨⟨fun e' => ?_, fun e' => ?_⟩, ((h1.2 x (hsub x hx)).1 hs').2⟩, (h1.2 x (hsub x hx)).2⟩
        · have := (hc.msg x (hsub x hx)).1.1
          simp only [Option.some.injEq] at e'; omega
        · exact absurd (e.symm.trans e') (o1 x hx hs')
    · rw [if_neg e]
      refine ⟨⟨fun k e => by have := h1.1.1 k e; simp only; omega, fun k e => by have := h1.1.2 k e; simp only; omega⟩, fun x hx => ?_⟩
      rcases List.mem_cons.mp hx with rfl | hx
      · refine ⟨fun _ => ⟨⟨fun e' => ?_, fun e' => absurd e' e⟩, fun e' => ?_⟩, fun e' => by rw [show m.stop = true from e'] at hs; simp at hs⟩
        · have := h1.1.1 _ e'; simp only at this; omega
        · have := h1.1.2 _ e'; simp only at this; omega
      · exact h1.2 x (hsub x hx)
  · intro t ht
    obtain ⟨u, hu, rfl⟩ := mem_updateTx_or ht
    have := hc.txRow u hu
    split
    · exact this
    · exact this
  · intro x hx
    rcases List.mem_cons.mp hx with rfl | hx
    · obtain ⟨e1, e2, e3⟩ := hc.msg m hmq
      exact ⟨⟨Nat.lt_succ_self _, by have := e1.2; simp only; omega⟩, e2, e3⟩
    · obtain ⟨e1, e2, e3⟩ := hc.msg x (hsub x hx)
      exact ⟨⟨by have := e1.1; simp only; omega, by have := e1.2; simp only; omega⟩, e2, e3⟩
  · exact List.pairwise_cons.mpr ⟨o1, o2⟩
  · intro t ht n hn
    obtain ⟨u, hu, rfl⟩ := mem_updateTx.mp ht
    by_cases e : u.session = m.session
    · rw [if_pos e] at hn ⊢; exact hc.act u hu n hn
    · rw [if_neg e] at hn ⊢; exact hc.act u hu n hn
  · intro t ht w hw e
    obtain ⟨t', ht', rfl⟩ := mem_updateTx.mp ht
    obtain ⟨w', hw', rfl⟩ := mem_updateTx.mp hw
    have e' : t'.conn = w'.conn := by
      have h1 : ∀ x : Tx, (if x.session = m.session then { x with startMid := some s.next } else x).conn = x.conn := by intro x; split <;> rfl
      rw [h1, h1] at e; exact e
    have h1 : ∀ x : Tx, (if x.session = m.session then { x with startMid := some s.next } else x).session = x.session := by intro x; split <;> rfl
    rw [h1, h1]
    exact hc.conn t' ht' w' hw' e'
  · intro x hx hs' r hr e
    have key : ∀ y ∈ s.queue, y.stop = false → r.session = y.session → r.acked = true ∨
        ∃ t, (t ∈ updateTx s.active m.session (fun t => { t with startMid := some s.next }) ∨
          t ∈ updateTx s.stopped m.session (fun t => { t with startMid := some s.next })) ∧ t.session = y.session := by
      intro y hy hys e
      rcases hm y hy hys r hr e with h | ⟨u, hu, e'⟩
      · exact .inl h
      · obtain ⟨t, ht, e''⟩ := updateTx_has (k := m.session) (f := fun t => { t with startMid := some s.next }) (fun _ => rfl) hu
        exact .inr ⟨t, ht, e''.trans e'⟩
    rcases List.mem_cons.mp hx with rfl | hx
    · exact key m hmq hs e
    · exact key x (hsub x hx) hs' e
  · unfold PcOk at hpc ⊢
    dsimp only
    split
    · trivial
    · rename_i hp
      rw [hp] at hpc
      obtain ⟨p1, p2, p3, p4, p5, p6, p7, p8, p9⟩ := hpc
      refine ⟨by omega, p2, p3, p4, p5, fun x hx => ?_, p7, fun u hu => ?_, fun u hu => ?_⟩
      · rcases List.mem_cons.mp hx with rfl | hx
        · have := p6 m hmq
          exact ⟨this.1, by simp only; omega, this.2.2⟩
        · exact p6 x (hsub x hx)
      · obtain ⟨y, hy, rfl⟩ := mem_updateTx_or hu
        have := p8 y hy
        split
        · exact ⟨this.1, by simp only [ne_eq, Option.some.injEq]; omega, this.2.2⟩
        · exact this
      · obtain ⟨y, hy, rfl⟩ := mem_updateTx.mp hu
        have := p9 y hy
        split <;> exact this
    · rename_i hp; rw [hp] at hpc
      refine ⟨hmid _ _ hpc.1, fun u hu e => ?_⟩
      obtain ⟨y, hy, rfl⟩ := mem_updateTx.mp hu
      by_cases e' : y.session = m.session
      · rw [if_pos e'] at e ⊢; exact hpc.2 y hy e
      · rw [if_neg e'] at e ⊢; exact hpc.2 y hy e
    · rename_i hp; rw [hp] at hpc; exact hmid _ _ hpc

theorem J.deliverStop {s : S} (h : J s) {m : Msg} {q : List Msg} (hq : s.queue = m :: q) (hs : m.stop = true) (id : Int) (mp : List (Nat × Int)) :
    J (stopConf { s with queue := q, map := mp, log := s.log ++ [.stopped m.session id m.meter] } m.mid id) := by
  have hmq : m ∈ s.queue := by rw [hq]; exact List.mem_cons_self ..
  have hord := h.1.order
  rw [hq] at hord
  have o1 := (List.pairwise_cons.mp hord).1
  have hst := fun t ht => ((h.1.tx t ht).2 m hmq).2 hs
  have h' := (h.tail q m hq).like (ack s.rows id) (by
    constructor
    · intro r hr
      obtain ⟨x, hx, e1, _, e2, _, e3, e4, _⟩ := (mem_ack s.rows id).1 r hr
      exact ⟨x, hx, e1, e2, e3, fun ha => by rcases e4 with e4 | e4 <;> simp [e4, ha]⟩
    · exact (mem_ack s.rows id).2) (by
    intro k n hn r hr e
    obtain ⟨x, hx, e1, e2, _, _, _, e4, _⟩ := (mem_ack s.rows id).1 r hr
    rcases (h.1.known k n hn).2 x hx (e1.symm.trans e) with h2 | h2
    · exact .inl (e2.trans h2)
    · exact .inr (by rcases e4 with e4 | e4 <;> simp [e4, h2]))
  obtain ⟨hc, hm, hpc⟩ := h'
  have hlog : ∀ k n, Ev.assigned k n ∈ s.log ++ [.stopped m.session id m.meter] ↔ Ev.assigned k n ∈ s.log := by intro k n; simp
  have hsub : ∀ t, (t ∈ s.active ∨ t ∈ s.stopped.filter (fun t => t.stopMid != some m.mid)) → t ∈ s.active ∨ t ∈ s.stopped :=
    fun t ht => ht.imp (fun h => h) (fun h => (List.mem_filter.mp h).1)
  unfold stopConf
  refine ⟨⟨hc.row, fun t ht => hc.tx t (hsub t ht), fun t ht => hc.txRow t (hsub t ht), fun x hx => ?_, hc.order, fun k n hn => hc.known k n ((hlog k n).1 hn),
    fun t ht n hn => hc.act t ht n ((hlog _ _).1 hn), hc.conn⟩, ?_, ?_⟩
  · obtain ⟨e1, e2, e3⟩ := hc.msg x hx
    exact ⟨e1, e2, fun e n hn => e3 e n ((hlog _ _).1 hn)⟩
  · intro x hx hs' r hr e
    rcases hm x hx hs' r hr e with h | ⟨t, ht | ht, e'⟩
    · exact .inl h
    · exact .inr ⟨t, .inl ht, e'⟩
    · refine .inr ⟨t, .inr (List.mem_filter.mpr ⟨ht, ?_⟩), e'⟩
      simp only [bne_iff_ne, ne_eq]
      intro e2
      exact o1 x hx hs' ((hst t (.inr ht) e2).symm.trans e')
  · unfold PcOk at hpc ⊢
    dsimp only at hpc ⊢
    split
    · trivial
    · rename_i hp
      rw [hp] at hpc
      obtain ⟨p1, p2, p3, p4, p5, p6, p7, p8, p9⟩ := hpc
      exact ⟨p1, p2, p3, fun n hn => p4 n ((hlog _ _).1 hn), p5, p6, p7, fun u hu => p8 u (hsub u hu), p9⟩
    · rename_i hp; rw [hp] at hpc; exact hpc
    · rename_i hp; rw [hp] at hpc; exact hpc

theorem J.deliverStart {s : S} (h : J s) {m : Msg} {q : List Msg} (hq : s.queue = m :: q) (hs : m.stop = false) (n : Int) :
    J (startConf { s with queue := q, log := s.log ++ [.assigned m.session n] } m.mid n) := by
  have hmq : m ∈ s.queue := by rw [hq]; exact List.mem_cons_self ..
  have hord := h.1.order
  rw [hq] at hord
  have o1 := (List.pairwise_cons.mp hord).1
  have hnew := (h.1.msg m hmq).2.2 hs
  have hlog : ∀ k j, Ev.assigned k j ∈ s.log ++ [.assigned m.session n] ↔ Ev.assigned k j ∈ s.log ∨ (k = m.session ∧ j = n) := by intro k j; simp
  have hrow := (h.1.msg m hmq).2.1
  have hpcq : ∀ t mid v, s.pc = .starting t mid v → m.session ≠ t.session := by
    intro t mid v hp
    have := h.2.2
    unfold PcOk at this
    rw [hp] at this
    exact (this.2.2.2.2.2.1 m hmq).1
  have hb' : byMid { s with queue := q, log := s.log ++ [.assigned m.session n] } m.mid = byMid s m.mid := rfl
  unfold startConf
  rw [hb']
  cases hb : byMid s m.mid with
  | none =>
    have hno := notFound h.1 hmq hs hb
    have hacked : ∀ r ∈ s.rows, r.session = m.session → r.acked = true := by
      intro r hr e
      rcases h.2.1 m hmq hs r hr e with h | ⟨t, ht, e'⟩
      · exact h
      · exact absurd e' (hno t ht)
    obtain ⟨hc, hm, hpc⟩ := h.tail q m hq
    refine ⟨⟨hc.row, hc.tx, hc.txRow, fun x hx => ?_, hc.order, fun k j hk => ?_, fun t ht j hj => ?_, hc.conn⟩, hm, ?_⟩
    · obtain ⟨e1, e2, e3⟩ := hc.msg x hx
      refine ⟨e1, e2, fun e j hj => ?_⟩
      rcases (hlog _ _).1 hj with h | ⟨h, _⟩
      · exact e3 e j h
      · exact o1 x hx e h.symm
    · rcases (hlog _ _).1 hk with h | ⟨e1, _⟩
      · exact hc.known k j h
      · rw [e1]; exact ⟨hrow, fun r hr e => .inr (hacked r hr e)⟩
    · rcases (hlog _ _).1 hj with h | ⟨e1, _⟩
      · exact hc.act t ht j h
      · exact absurd e1 (hno t (.inl ht))
    · unfold PcOk at hpc ⊢
      dsimp only at hpc ⊢
      split
      · trivial
      · rename_i t mid v hp
        rw [hp] at hpc
        obtain ⟨p1, p2, p3, p4, p5, p6, p7, p8, p9⟩ := hpc
        refine ⟨p1, p2, p3, fun j hj => ?_, p5, p6, p7, p8, p9⟩
        rcases (hlog _ _).1 hj with h | ⟨e1, _⟩
        · exact p4 j h
        · exact hpcq t mid v hp e1.symm
      · rename_i hp; rw [hp] at hpc; exact hpc
      · rename_i hp; rw [hp] at hpc; exact hpc
  | some u =>
    have hu := found h.1 hmq hs hb
    dsimp only
    rw [hu]
    have hl : Like (updateRow s.rows m.session (fun r => { r with txId := n })) s.rows := like_update (fun r => ⟨rfl, rfl, rfl, id⟩)
    have h' := (h.tail q m hq).like (updateRow s.rows m.session (fun r => { r with txId := n })) hl (by
      intro k j hj r hr e
      obtain ⟨x, hx, e1, e2, _, e3, _⟩ := (mem_renamed s.rows m.session n).1 r hr
      by_cases e4 : x.session = m.session
      · exact absurd (by rw [← e4, ← e1, e]; exact hj) (hnew j)
      · rw [e2, if_neg e4, e3]
        exact (h.1.known k j hj).2 x hx (e1.symm.trans e))
    obtain ⟨hc, hm, hpc⟩ := h'
    have hsess : ∀ x : Tx, (if x.session = m.session then { x with txId := some n } else x).session = x.session := by intro x; split <;> rfl
    have hconn : ∀ x : Tx, (if x.session = m.session then { x with txId := some n } else x).conn = x.conn := by intro x; split <;> rfl
    have hst : ∀ x : Tx, (if x.session = m.session then { x with txId := some n } else x).startMid = x.startMid := by intro x; split <;> rfl
    have hsp : ∀ x : Tx, (if x.session = m.session then { x with txId := some n } else x).stopMid = x.stopMid := by intro x; split <;> rfl
    refine ⟨⟨hc.row, fun t ht => ?_, fun t ht => ?_, fun x hx => ?_, hc.order, fun k j hk => ?_, fun t ht j hj => ?_, fun t ht w hw e => ?_⟩,
      fun x hx hs' r hr e => ?_, ?_⟩
    · obtain ⟨y, hy, rfl⟩ := mem_updateTx_or ht
      have := hc.tx y hy
      unfold TxOk at this ⊢
      rw [hsess, hst, hsp]; exact this
    · obtain ⟨y, hy, rfl⟩ := mem_updateTx_or ht
      rw [hsess]; exact hc.txRow y hy
    · obtain ⟨e1, e2, e3⟩ := hc.msg x hx
      refine ⟨e1, e2, fun e j hj => ?_⟩
      rcases (hlog _ _).1 hj with h | ⟨h, _⟩
      · exact e3 e j h
      · exact o1 x hx e h.symm
    · rcases (hlog _ _).1 hk with h | ⟨e1, e2⟩
      · exact hc.known k j h
      · rw [e1, e2]
        refine ⟨like_ex hl hrow, fun r hr e => .inl ?_⟩
        obtain ⟨x, hx, e3, e4, _⟩ := (mem_renamed s.rows m.session n).1 r hr
        rw [e4, if_pos (e3.symm.trans e)]
    · obtain ⟨y, hy, rfl⟩ := mem_updateTx.mp ht
      rw [hsess] at hj
      rcases (hlog _ _).1 hj with h | ⟨e1, e2⟩
      · have : y.session ≠ m.session := fun e => hnew j (by rw [← e]; exact h)
        rw [if_neg this]
        exact hc.act y hy j h
      · rw [if_pos e1, e2]
    · obtain ⟨t', ht', rfl⟩ := mem_updateTx.mp ht
      obtain ⟨w', hw', rfl⟩ := mem_updateTx.mp hw
      rw [hconn, hconn] at e
      rw [hsess, hsess]
      exact hc.conn t' ht' w' hw' e
    · rcases hm x hx hs' r hr e with h | ⟨t, ht, e'⟩
      · exact .inl h
      · obtain ⟨w, hw, e''⟩ := updateTx_has (s := s) (k := m.session) (f := fun t => { t with txId := some n }) (fun _ => rfl) ht
        exact .inr ⟨w, hw, e''.trans e'⟩
    · unfold PcOk at hpc ⊢
      dsimp only at hpc ⊢
      split
      · trivial
      · rename_i t mid v hp
        rw [hp] at hpc
        obtain ⟨p1, p2, p3, p4, p5, p6, p7, p8, p9⟩ := hpc
        refine ⟨p1, p2, p3, fun j hj => ?_, p5, p6, p7, fun y hy => ?_, fun y hy => ?_⟩
        · rcases (hlog _ _).1 hj with h | ⟨e1, _⟩
          · exact p4 j h
          · exact hpcq t mid v hp e1.symm
        · obtain ⟨z, hz, rfl⟩ := mem_updateTx_or hy
          rw [hsess, hst, hsp]; exact p8 z hz
        · obtain ⟨z, hz, rfl⟩ := mem_updateTx.mp hy
          rw [hconn]; exact p9 z hz
      · rename_i hp; rw [hp] at hpc
        refine ⟨hpc.1, fun y hy e => ?_⟩
        obtain ⟨z, hz, rfl⟩ := mem_updateTx.mp hy
        rw [hconn] at e; rw [hsess]; exact hpc.2 z hz e
      · rename_i hp; rw [hp] at hpc; exact hpc

/-! ## A restart -/

/-- During a restart: the messages have their first ids; the rows still to come are consistent with the queue. -/
structure Fold (s : S) (rest : List Row) : Prop where
  core : Core s
  first : ∀ m ∈ s.queue, m.mid = m.iid
  todo : ∀ r ∈ rest, RowOk s.queue s.next r ∧ (∃ x ∈ s.rows, x.session = r.session) ∧
    ∀ n, Ev.assigned r.session n ∈ s.log → r.txId = n ∨ r.acked = true
  unacked : ∀ r ∈ rest, r.acked = false

theorem tx_of_row {s : S} {r : Row} (h : RowOk s.queue s.next r) (hf : ∀ m ∈ s.queue, m.mid = m.iid) : TxOk s.queue s.next r.tx := by
  refine ⟨⟨fun k e => ?_, h.1.2⟩, fun m hm => ?_⟩
  · simp only [Row.tx, Option.some.injEq] at e; have := h.1.1; omega
  · rw [hf m hm]
    have := h.2 m hm
    refine ⟨fun hs => ⟨⟨fun e => ?_, fun e => ?_⟩, (this.1 hs).2⟩, this.2⟩
    · simp only [Row.tx, Option.some.injEq] at e; exact (this.1 hs).1.mp e
    · simp only [Row.tx, Option.some.injEq]; exact (this.1 hs).1.mpr e

theorem Fold.one {s : S} {r : Row} {rest : List Row} (l : List Nat) (h : Fold s (r :: rest)) : Fold (resumeOne l s r) rest := by
  obtain ⟨hc, hf, hr, ho⟩ := h
  obtain ⟨r1, r2, r3⟩ := hr r (List.mem_cons_self ..)
  have hro := ho r (List.mem_cons_self ..)
  have hr' := fun x hx => hr x (List.mem_cons_of_mem _ hx)
  have ho' := fun x hx => ho x (List.mem_cons_of_mem _ hx)
  unfold resumeOne
  split
  · have tx' : ∀ t, (t ∈ s.active.filter (fun t => t.conn != r.conn) ∨ t ∈ s.stopped ++ [{ r.tx with finished := true }]) →
        (t ∈ s.active ∨ t ∈ s.stopped) ∨ t = { r.tx with finished := true } := by
      intro t ht
      rcases ht with ht | ht
      · exact .inl (.inl (List.mem_filter.mp ht).1)
      · rcases List.mem_append.mp ht with ht | ht
        · exact .inl (.inr ht)
        · exact .inr (List.mem_singleton.mp ht)
    refine ⟨⟨hc.row, fun t ht => ?_, fun t ht => ?_, hc.msg, hc.order, hc.known, fun t ht => hc.act t (List.mem_filter.mp ht).1,
      fun t ht u hu => hc.conn t (List.mem_filter.mp ht).1 u (List.mem_filter.mp hu).1⟩, hf, hr', ho'⟩
    · rcases tx' t ht with ht | rfl
      · exact hc.tx t ht
      · exact tx_of_row r1 hf
    · rcases tx' t ht with ht | rfl
      · exact hc.txRow t ht
      · exact r2
  · split
    · have tx' : ∀ t, (t ∈ addActive s.active r.tx ∨ t ∈ s.stopped) → (t ∈ s.active ∨ t ∈ s.stopped) ∨ t = r.tx := by
        intro t ht
        rcases ht with ht | ht
        · rcases List.mem_cons.mp ht with ht | ht
          · exact .inr ht
          · exact .inl (.inl (List.mem_filter.mp ht).1)
        · exact .inl (.inr ht)
      refine ⟨⟨hc.row, fun t ht => ?_, fun t ht => ?_, hc.msg, hc.order, hc.known, fun t ht n hn => ?_, fun t ht u hu e => ?_⟩, hf, hr', ho'⟩
      · rcases tx' t ht with ht | rfl
        · exact hc.tx t ht
        · exact tx_of_row r1 hf
      · rcases tx' t ht with ht | rfl
        · exact hc.txRow t ht
        · exact r2
      · rcases List.mem_cons.mp ht with rfl | ht
        · rcases r3 n hn with h | h
          · show some r.txId = _; rw [h]
          · rw [hro] at h; simp at h
        · exact hc.act t (List.mem_filter.mp ht).1 n hn
      · rcases List.mem_cons.mp ht with rfl | ht <;> rcases List.mem_cons.mp hu with rfl | hu
        · rfl
        · have := (List.mem_filter.mp hu).2
          simp only [bne_iff_ne, ne_eq] at this
          exact absurd e.symm this
        · have := (List.mem_filter.mp ht).2
          simp only [bne_iff_ne, ne_eq] at this
          exact absurd e this
        · exact hc.conn t (List.mem_filter.mp ht).1 u (List.mem_filter.mp hu).1 e
    · generalize hv : r.meterStop.getD r.meterLast = v
      have tx' : ∀ t, (t ∈ s.active.filter (fun t => t.conn != r.conn) ∨ t ∈ s.stopped ++ [{ r.tx with finished := true, stopMid := some s.next }]) →
          (t ∈ s.active ∨ t ∈ s.stopped) ∨ t = { r.tx with finished := true, stopMid := some s.next } := by
        intro t ht
        rcases ht with ht | ht
        · exact .inl (.inl (List.mem_filter.mp ht).1)
        · rcases List.mem_append.mp ht with ht | ht
          · exact .inl (.inr ht)
          · exact .inr (List.mem_singleton.mp ht)
      have hiid : ∀ m ∈ s.queue, m.iid < s.next := fun m hm => (hc.msg m hm).1.2
      have hmidl : ∀ m ∈ s.queue, m.mid < s.next := fun m hm => (hc.msg m hm).1.1
      refine ⟨⟨?_, fun t ht => ?_, fun t ht => ?_, fun m hm => ?_, order_push hc.order _ (fun e => by simp at e), fun j n hj => known_ended (hc.known j n hj),
        fun t ht => hc.act t (List.mem_filter.mp ht).1, fun t ht u hu => hc.conn t (List.mem_filter.mp ht).1 u (List.mem_filter.mp hu).1⟩, fun m hm => ?_,
        fun x hx => ?_, ho'⟩
      · refine row_ended (fun x hx => (hc.row x hx).push _ rfl rfl) (Nat.lt_succ_self _) (fun m hm e => ?_)
        rcases List.mem_append.mp hm with hm | hm
        · have := hiid m hm; omega
        · rw [List.mem_singleton.mp hm]; exact ⟨rfl, rfl⟩
      · rcases tx' t ht with ht | rfl
        · exact (hc.tx t ht).push _ rfl rfl
        · have h1 := tx_of_row r1 hf
          refine ⟨⟨fun k e => by have := h1.1.1 k e; simp only; omega, fun k e => by simp only [Option.some.injEq] at e; simp only; omega⟩, fun m hm => ?_⟩
          rcases List.mem_append.mp hm with hm | hm
          · have := hmidl m hm
            refine ⟨fun hs => ⟨((h1.2 m hm).1 hs).1, fun e => ?_⟩, fun hs e => ?_⟩
            · simp only [Option.some.injEq] at e; omega
            · simp only [Option.some.injEq] at e; omega
          · rw [List.mem_singleton.mp hm]
            exact ⟨fun e => by simp at e, fun _ _ => rfl⟩
      · rcases tx' t ht with ht | rfl
        · exact ex_ended (hc.txRow t ht)
        · exact ex_ended r2
      · rcases List.mem_append.mp hm with hm | hm
        · obtain ⟨e1, e2, e3⟩ := hc.msg m hm
          exact ⟨⟨by have := e1.1; simp only; omega, by have := e1.2; simp only; omega⟩, ex_ended e2, e3⟩
        · rw [List.mem_singleton.mp hm]
          exact ⟨⟨Nat.lt_succ_self _, Nat.lt_succ_self _⟩, ex_ended r2, fun e => by simp at e⟩
      · rcases List.mem_append.mp hm with hm | hm
        · exact hf m hm
        · rw [List.mem_singleton.mp hm]
      · obtain ⟨x1, x2, x3⟩ := hr' x hx
        exact ⟨x1.push _ rfl rfl, ex_ended x2, x3⟩

theorem Fold.all (l : List Nat) : ∀ (rest : List Row) {s : S}, Fold s rest → Fold (rest.foldl (resumeOne l) s) [] := by
  intro rest
  induction rest with
  | nil => intro s h; exact h
  | cons r rest ih => intro s h; exact ih (h.one l)

theorem fold_stopped (l : List Nat) : ∀ (b : List Row) (s : S) (t : Tx), t ∈ s.stopped → t ∈ (b.foldl (resumeOne l) s).stopped := by
  intro b
  induction b with
  | nil => intro s t h; exact h
  | cons r b ih =>
    intro s t ht
    refine ih _ t ?_
    unfold resumeOne
    split
    · exact List.mem_append_left _ ht
    · split
      · exact ht
      · exact List.mem_append_left _ ht

theorem fold_start (l : List Nat) : ∀ (b : List Row) (s : S), (∀ m ∈ (b.foldl (resumeOne l) s).queue, m.stop = false → m ∈ s.queue) ∧
    ∀ r ∈ (b.foldl (resumeOne l) s).rows, ∃ x ∈ s.rows, x.session = r.session ∧ x.acked = r.acked := by
  intro b
  induction b with
  | nil => intro s; exact ⟨fun m h _ => h, fun r h => ⟨r, h, rfl, rfl⟩⟩
  | cons y b ih =>
    intro s
    obtain ⟨h1, h2⟩ := ih (resumeOne l s y)
    refine ⟨fun m hm hs => ?_, fun r hr => ?_⟩
    · have := h1 m hm hs
      unfold resumeOne at this
      split at this
      · exact this
      · split at this
        · exact this
        · rcases List.mem_append.mp this with h | h
          · exact h
          · rw [List.mem_singleton.mp h] at hs; simp at hs
    · obtain ⟨x, hx, e1, e2⟩ := h2 r hr
      unfold resumeOne at hx
      split at hx
      · exact ⟨x, hx, e1, e2⟩
      · split at hx
        · exact ⟨x, hx, e1, e2⟩
        · obtain ⟨z, hz, e3, _, _, e4, _⟩ := (mem_ended s.rows y.session s.next (y.meterStop.getD y.meterLast)).1 x hx
          exact ⟨z, hz, e3.symm.trans e1, e4.symm.trans e2⟩

theorem J.restart {s : S} (h : J s) (l : List Nat)
    (hl : ∀ a r b, s.rows.filter (fun r => !r.acked) = a ++ r :: b → r.session ∈ l → ∀ x ∈ b, x.conn ≠ r.conn) : J (restart s l) := by
  obtain ⟨hc, hm, _⟩ := h
  have hrow : ∀ r ∈ s.rows, RowOk (crashed s).queue s.next r := by
    intro r hr
    have h1 := hc.row r hr
    refine ⟨h1.1, fun m hm' => ?_⟩
    obtain ⟨x, hx, rfl⟩ := List.mem_map.mp hm'
    exact h1.2 x hx
  have hf : Fold (crashed s) (s.rows.filter (fun r => !r.acked)) := by
    refine ⟨⟨hrow, ?_, ?_, ?_, ?_, hc.known, ?_, ?_⟩, ?_, ?_, ?_⟩
    · intro t ht; simp [crashed] at ht
    · intro t ht; simp [crashed] at ht
    · intro m hm'
      obtain ⟨x, hx, rfl⟩ := List.mem_map.mp hm'
      obtain ⟨e1, e2, e3⟩ := hc.msg x hx
      exact ⟨⟨e1.2, e1.2⟩, e2, e3⟩
    · show (s.queue.map _).Pairwise _
      rw [List.pairwise_map]
      exact hc.order
    · intro t ht; simp [crashed] at ht
    · intro t ht; simp [crashed] at ht
    · intro m hm'
      obtain ⟨x, hx, rfl⟩ := List.mem_map.mp hm'
      rfl
    · intro r hr
      have hr := (List.mem_filter.mp hr).1
      exact ⟨hrow r hr, ⟨r, hr, rfl⟩, fun n hn => (hc.known _ n hn).2 r hr rfl⟩
    · intro r hr
      simpa using (List.mem_filter.mp hr).2
  refine ⟨(Fold.all l _ hf).core, ?_, ?_⟩
  · intro m hm' hs r hr e
    obtain ⟨x, hx, e1, e2⟩ := (fold_start l _ (crashed s)).2 r hr
    by_cases ha : r.acked = true
    · exact .inl ha
    · right
      have hx' : x ∈ s.rows.filter (fun r => !r.acked) := List.mem_filter.mpr ⟨hx, by rw [e2]; simpa using ha⟩
      obtain ⟨a, b, hab⟩ := List.append_of_mem hx'
      show ∃ t, (t ∈ ((s.rows.filter (fun r => !r.acked)).foldl (resumeOne l) (crashed s)).active ∨
        t ∈ ((s.rows.filter (fun r => !r.acked)).foldl (resumeOne l) (crashed s)).stopped) ∧ _
      rw [hab, fold_append, List.foldl_cons]
      have hxm : x.session = m.session := e1.trans e
      generalize a.foldl (resumeOne l) (crashed s) = s1
      by_cases h1 : s1.queue.any (fun m => m.stop && m.id == x.txId) = true
      · refine ⟨{ x.tx with finished := true }, .inr (fold_stopped l b _ _ ?_), hxm⟩
        unfold resumeOne; rw [if_pos h1]
        exact List.mem_append_right _ (List.mem_singleton.mpr rfl)
      · by_cases h2 : l.contains x.session = true
        · refine ⟨x.tx, .inl (fold_keeps l b _ _ ?_ (fun y hy => hl a x b hab (by simpa using h2) y hy)), hxm⟩
          unfold resumeOne; rw [if_neg h1, if_pos h2]
          exact List.mem_cons_self ..
        · refine ⟨{ x.tx with finished := true, stopMid := some s1.next }, .inr (fold_stopped l b _ _ ?_), hxm⟩
          unfold resumeOne; rw [if_neg h1, if_neg h2]
          exact List.mem_append_right _ (List.mem_singleton.mpr rfl)
  · have hpc : ∀ (b : List Row) (s : S), (b.foldl (resumeOne l) s).pc = s.pc := by
      intro b
      induction b with
      | nil => intro s; rfl
      | cons r b ih => intro s; rw [List.foldl_cons, ih]; unfold resumeOne; split <;> first | rfl | (split <;> rfl)
    unfold PcOk
    rw [show (Tx16.restart s l).pc = .idle from hpc _ _]
    trivial

theorem J.run (ops : List Op) : Sane ops → ResumesLast ops → J (run {} ops) := by
  induction ops using snoc_ind with
  | nil => intro _ _; exact J.nil
  | snoc ops op ih =>
    intro h1 h2
    have h := ih (fun pre c k r m post e => h1 pre c k r m (post ++ [op]) (by rw [e]; simp)) (fun pre l post e => h2 pre l (post ++ [op]) (by rw [e]; simp))
    rw [run_snoc]
    cases op with
    | startInsert c k r m => exact h.startInsert c k r m (h1 ops c k r m [] rfl).1 (h1 ops c k r m [] rfl).2
    | startQueue => exact h.startQueue
    | stopQueue c v => exact h.stopQueue c v
    | stopMark => exact h.stopMark
    | stopStore => exact h.stopStore
    | sample c v => exact h.sample c v
    | drop => exact h.drop
    | retry =>
      simp only [step, retry]
      split
      · exact h
      · rename_i m q hq
        split
        · rename_i hm; exact h.retryStop hq hm _ _
        · rename_i hm; exact h.retryStart hq (by simpa using hm)
    | deliver n =>
      simp only [step, deliver]
      split
      · exact h
      · rename_i m q hq
        split
        · rename_i hm; exact h.deliverStop hq hm _ _
        · rename_i hm; exact h.deliverStart hq (by simpa using hm) n
    | crash l => exact h.restart l (h2 ops l [] rfl)

/-! ## C118 -/

/-- C118: a running transaction has the id the CSMS has assigned to it, whenever that was answered and however often the station restarted.  So the CSMS can stop
it with this id. -/
theorem C118_assigned (ops : List Op) (h1 : Sane ops) (h2 : ResumesLast ops) (t : Tx) (ht : t ∈ (run {} ops).active) (n : Int)
    (ha : .assigned t.session n ∈ (run {} ops).log) : t.txId = some n := (J.run ops h1 h2).1.act t ht n ha

/-- A history with an answer during `stop_transaction`, and a crash while StopTransaction.req waits with an id that the CSMS did not assign: connector 1 has an
offline transaction, connector 2 one that goes on. -/
def rough : List Op :=
  [.startInsert 1 10 (-5) 0, .startQueue, .startInsert 2 20 (-6) 0, .startQueue, .stopQueue 1 100, .deliver 77, .stopMark, .crash [20], .retry, .deliver 88]

theorem rough_resumes : ResumesLast rough := by
  intro pre l post e
  have hlen : pre.length = 7 := by
    have h2 : rough[pre.length]? = some (Op.crash l) := by rw [e]; simp
    have h3 : ∀ i, i ≠ 7 → ∀ l', rough[i]? ≠ some (Op.crash l') := by
      intro i hi l' h
      have : i < rough.length := by
        by_cases hl : i < rough.length
        · exact hl
        · rw [List.getElem?_eq_none (by omega)] at h; simp at h
      have h10 : rough.length = 10 := rfl
      have : i = 0 ∨ i = 1 ∨ i = 2 ∨ i = 3 ∨ i = 4 ∨ i = 5 ∨ i = 6 ∨ i = 8 ∨ i = 9 := by omega
      rcases this with rfl | rfl | rfl | rfl | rfl | rfl | rfl | rfl | rfl <;> simp [rough] at h
    by_cases h7 : pre.length = 7
    · exact h7
    · exact absurd h2 (h3 _ h7 l)
  have hpre : pre = rough.take 7 := by rw [e, ← hlen]; simp
  rw [hpre]
  intro a r b hab hl x hx
  have hconn : ((run {} (rough.take 7)).rows.filter (fun r => !r.acked)).Pairwise (fun p q => p.conn ≠ q.conn) := by decide +kernel
  rw [hab] at hconn
  exact ((List.pairwise_cons.mp (List.pairwise_append.mp hconn).2.1).1 x hx).symm

example : Sane rough ∧ ResumesLast rough ∧ ¬ NoRace rough ∧ (run {} rough).active.map (fun t => (t.session, t.txId)) = [(20, some 88)] ∧
    Ev.assigned 20 88 ∈ (run {} rough).log :=
  ⟨sane_of (by decide +kernel), rough_resumes, fun h => h (rough.take 5) 77 (rough.drop 6) _ rfl rfl rfl _ _ _ rfl, by decide +kernel, by decide +kernel⟩

end Verif.Tx16
