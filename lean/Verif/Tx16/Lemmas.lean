import Verif.Tx16.Spec

namespace Verif.Tx16

set_option linter.constructorNameAsVariable false
set_option linter.unusedVariables false

/-- The id a message will be sent with. -/
def eff (s : S) (m : Msg) : Int := (get s.map m.mid).getD m.id

/-- Nothing refers to the session any more. -/
def Dead (s : S) (k : Nat) : Prop :=
  (∀ r ∈ s.rows, r.session = k → r.acked = true) ∧ (∀ t ∈ s.active, t.session ≠ k) ∧ (∀ t ∈ s.stopped, t.session ≠ k) ∧
  (∀ m ∈ s.queue, m.stop = true → m.session ≠ k) ∧ (∀ t mid v, s.pc = .starting t mid v → t.session ≠ k)

/-- Rows, ids and messages agree; `b` are rows that are still to be resumed. -/
structure Inv (s : S) (b : List Row) : Prop where
  rowsNodup : (s.rows.map (·.session)).Nodup
  freshQ : ∀ m ∈ s.queue, m.mid < s.next ∧ m.iid < s.next
  freshA : ∀ t ∈ s.active, (∀ k, t.startMid = some k → k < s.next) ∧ ∀ k, t.stopMid = some k → k < s.next
  freshS : ∀ t ∈ s.stopped, (∀ k, t.startMid = some k → k < s.next) ∧ ∀ k, t.stopMid = some k → k < s.next
  freshR : ∀ r ∈ s.rows, r.startMid < s.next ∧ ∀ k, r.stopMid = some k → k < s.next
  freshM : ∀ p ∈ s.map, p.1 < s.next
  midNodup : (s.queue.map (·.mid)).Nodup
  iidNodup : (s.queue.map (·.iid)).Nodup
  rowEx : ∀ m ∈ s.queue, ∃ r ∈ s.rows, r.session = m.session
  rowExA : ∀ t ∈ s.active, ∃ r ∈ s.rows, r.session = t.session
  rowExS : ∀ t ∈ s.stopped, ∃ r ∈ s.rows, r.session = t.session
  startA : ∀ m ∈ s.queue, m.stop = false → ∀ t ∈ s.active, (t.startMid = some m.mid ↔ t.session = m.session) ∧ t.stopMid ≠ some m.mid
  startS : ∀ m ∈ s.queue, m.stop = false → ∀ t ∈ s.stopped, (t.startMid = some m.mid ↔ t.session = m.session) ∧ t.stopMid ≠ some m.mid
  startR : ∀ m ∈ s.queue, m.stop = false → ∀ r ∈ s.rows, (r.startMid = m.iid ↔ r.session = m.session) ∧ r.stopMid ≠ some m.iid
  stopA : ∀ m ∈ s.queue, m.stop = true → ∀ t ∈ s.active, t.stopMid = some m.mid → t.session = m.session
  stopS : ∀ m ∈ s.queue, m.stop = true → ∀ t ∈ s.stopped, t.stopMid = some m.mid → t.session = m.session
  stopR : ∀ m ∈ s.queue, m.stop = true → ∀ r ∈ s.rows, r.stopMid = some m.iid → r.session = m.session
  actNodup : (s.active.map (·.session)).Nodup
  conNodup : (s.active.map (·.conn)).Nodup
  stoNodup : (s.stopped.map (·.session)).Nodup
  disj : ∀ t ∈ s.active, ∀ u ∈ s.stopped, t.session ≠ u.session
  known : ∀ m ∈ s.queue, m.stop = false → (∃ t ∈ s.active, t.session = m.session) ∨ (∃ t ∈ s.stopped, t.session = m.session) ∨
    Dead s m.session ∨ ∃ r ∈ b, r.session = m.session
  eff : ∀ m ∈ s.queue, m.stop = true → ∀ r ∈ s.rows, r.session = m.session → r.txId = eff s m
  actId : ∀ t ∈ s.active, ∀ r ∈ s.rows, r.session = t.session → r.txId = t.id
  actNoStop : ∀ t ∈ s.active, (∀ k mid v, s.pc ≠ .queued t.conn k mid v) → (∀ m ∈ s.queue, m.stop = true → m.session ≠ t.session) ∧
    ∀ x v, Ev.stopped t.session x v ∉ s.log
  pcQueued : ∀ c k mid v, s.pc = .queued c k mid v → mid < s.next ∧ (∃ t ∈ s.active, t.conn = c ∧ t.session = k) ∧
    (∀ m ∈ s.queue, m.mid = mid ∨ m.iid = mid → m.stop = true ∧ m.session = k)
  pcMarked : ∀ k mid v, s.pc = .marked k mid v → mid < s.next ∧ (∀ m ∈ s.queue, m.mid = mid ∨ m.iid = mid → m.stop = true ∧ m.session = k)
  pcStarting : ∀ t mid v, s.pc = .starting t mid v → mid < s.next ∧ t.txId = none ∧ t.stopMid = none ∧
    (∃ r ∈ s.rows, r.session = t.session) ∧
    (∀ r ∈ s.rows, (r.startMid = mid ↔ r.session = t.session) ∧ r.stopMid ≠ some mid ∧ (r.session = t.session → r.txId = t.internal)) ∧
    (∀ u ∈ s.active, u.session ≠ t.session ∧ u.conn ≠ t.conn ∧ u.startMid ≠ some mid ∧ u.stopMid ≠ some mid) ∧
    (∀ u ∈ s.stopped, u.session ≠ t.session ∧ u.startMid ≠ some mid ∧ u.stopMid ≠ some mid) ∧
    (∀ m ∈ s.queue, m.session ≠ t.session ∧ m.mid ≠ mid ∧ m.iid ≠ mid) ∧
    (∀ x, Ev.assigned t.session x ∉ s.log) ∧ (∀ x v, Ev.stopped t.session x v ∉ s.log)
  stopOnceQ : ((s.queue.filter (·.stop)).map (·.session)).Nodup
  stopOnceL : (stopsSeen s.log).Nodup
  stopOnce : ∀ m ∈ s.queue, m.stop = true → ∀ x v, Ev.stopped m.session x v ∉ s.log
  startOnceQ : ((s.queue.filter (fun m => !m.stop)).map (·.session)).Nodup
  startOnce : ∀ m ∈ s.queue, m.stop = false → ∀ x, Ev.assigned m.session x ∉ s.log
  ackd : ∀ k x v, Ev.stopped k x v ∈ s.log → ∀ r ∈ s.rows, r.session = k → r.acked = true
  logEx : ∀ k x, Ev.assigned k x ∈ s.log → ∃ r ∈ s.rows, r.session = k
  logEx' : ∀ k x v, Ev.stopped k x v ∈ s.log → ∃ r ∈ s.rows, r.session = k
  asg : ∀ k n, Ev.assigned k n ∈ s.log → (∀ r ∈ s.rows, r.session = k → r.txId = n) ∨ Dead s k
  done : ∀ k x v n, Ev.stopped k x v ∈ s.log → Ev.assigned k n ∈ s.log → x = n
  fifo : s.queue.Pairwise (fun m m' => m.stop = true → m'.stop = false → m'.session ≠ m.session)
  fifoL : ∀ m ∈ s.queue, m.stop = false → ∀ x v, Ev.stopped m.session x v ∉ s.log
  marked : ∀ m ∈ s.queue, ∀ m' ∈ s.queue, m.stop = true → m'.stop = false → m.session = m'.session →
    (∃ c v, s.pc = .queued c m.session m.mid v) ∨ ∃ t ∈ s.stopped, t.finished = true ∧ t.stopMid = some m.mid ∧ t.session = m.session

theorem inv_init : Inv {} [] := by
  constructor <;> simp [stopsSeen]

theorem inj_of_nodup {f : α → Nat} {l : List α} (h : (l.map f).Nodup) : ∀ a ∈ l, ∀ b ∈ l, f a = f b → a = b := by
  induction l with
  | nil => intro a ha; simp at ha
  | cons x l ih =>
    simp only [List.map_cons, List.nodup_cons, List.mem_map, not_exists, not_and] at h
    intro a ha b hb hab
    rcases List.mem_cons.mp ha with rfl | ha' <;> rcases List.mem_cons.mp hb with rfl | hb'
    · rfl
    · exact absurd hab.symm (h.1 b hb')
    · exact absurd hab (h.1 a ha')
    · exact ih h.2 a ha' b hb' hab

theorem filter_conn {l : List Tx} (h : (l.map (·.conn)).Nodup) {t : Tx} {c : Nat} (ht : t ∈ l) (hc : t.conn = c) :
    l.filter (fun t => t.conn == c) = [t] := by
  induction l with
  | nil => simp at ht
  | cons a l ih =>
    simp only [List.map_cons, List.nodup_cons] at h
    rcases List.mem_cons.mp ht with rfl | h'
    · rw [List.filter_cons_of_pos (by simpa using hc)]
      rw [List.filter_eq_nil_iff.mpr]
      intro u hu hcu
      apply h.1
      simp only [beq_iff_eq] at hcu
      rw [hc, ← hcu]; exact List.mem_map_of_mem hu
    · rw [List.filter_cons_of_neg, ih h.2 h']
      intro hca
      apply h.1
      simp only [beq_iff_eq] at hca
      rw [hca, ← hc]; exact List.mem_map_of_mem h'

theorem map_updateRow (l : List Row) (k : Nat) (f : Row → Row) (hf : ∀ r, (f r).session = r.session) :
    (updateRow l k f).map (·.session) = l.map (·.session) := by
  unfold updateRow
  rw [List.map_map]
  apply List.map_congr_left
  intro r _
  simp only [Function.comp]
  split
  · exact hf r
  · rfl

theorem mem_updateRow {l : List Row} {k : Nat} {f : Row → Row} {r : Row} :
    r ∈ updateRow l k f ↔ ∃ r0 ∈ l, r = if r0.session = k then f r0 else r0 := by
  unfold updateRow
  simp only [List.mem_map]
  exact ⟨fun ⟨a, h1, h2⟩ => ⟨a, h1, h2.symm⟩, fun ⟨a, h1, h2⟩ => ⟨a, h1, h2.symm⟩⟩

/-- The rows after the end of a transaction was stored. -/
theorem mem_ended (l : List Row) (k mid : Nat) (v : Int) :
    (∀ r ∈ updateRow l k (ended mid v), ∃ r0 ∈ l, r.session = r0.session ∧ r.txId = r0.txId ∧ r.startMid = r0.startMid ∧ r.acked = r0.acked ∧
      r.conn = r0.conn ∧ (r.stopMid = r0.stopMid ∨ r.stopMid = some mid ∧ r.session = k)) ∧
    ∀ r0 ∈ l, ∃ r ∈ updateRow l k (ended mid v), r.session = r0.session := by
  constructor
  · intro r hr
    obtain ⟨r0, h0, rfl⟩ := mem_updateRow.mp hr
    refine ⟨r0, h0, ?_⟩
    split
    · rename_i h; exact ⟨rfl, rfl, rfl, rfl, rfl, .inr ⟨rfl, h⟩⟩
    · exact ⟨rfl, rfl, rfl, rfl, rfl, .inl rfl⟩
  · intro r0 h0
    refine ⟨_, mem_updateRow.mpr ⟨r0, h0, rfl⟩, ?_⟩
    split <;> rfl

theorem mem_sampled (l : List Row) (k : Nat) (v : Int) :
    (∀ r ∈ updateRow l k (fun r => { r with meterLast := v }), ∃ r0 ∈ l, r.session = r0.session ∧ r.txId = r0.txId ∧ r.startMid = r0.startMid ∧
      r.acked = r0.acked ∧ r.conn = r0.conn ∧ r.stopMid = r0.stopMid) ∧
    ∀ r0 ∈ l, ∃ r ∈ updateRow l k (fun r => { r with meterLast := v }), r.session = r0.session := by
  constructor
  · intro r hr
    obtain ⟨r0, h0, rfl⟩ := mem_updateRow.mp hr
    refine ⟨r0, h0, ?_⟩
    split <;> exact ⟨rfl, rfl, rfl, rfl, rfl, rfl⟩
  · intro r0 h0
    refine ⟨_, mem_updateRow.mpr ⟨r0, h0, rfl⟩, ?_⟩
    split <;> rfl

theorem get_filter {k x : Nat} (l : List (Nat × Int)) (h : x ≠ k) : get (l.filter (fun p => p.1 != k)) x = get l x := by
  unfold get
  congr 1
  induction l with
  | nil => rfl
  | cons p l ih =>
    by_cases hp : p.1 = k
    · rw [List.filter_cons_of_neg (by simpa using hp), ih, List.find?_cons_of_neg]
      simp only [beq_iff_eq]; rw [hp]; exact fun e => h e.symm
    · rw [List.filter_cons_of_pos (by simpa using hp)]
      by_cases hx : p.1 = x
      · rw [List.find?_cons_of_pos (by simpa using hx), List.find?_cons_of_pos (by simpa using hx)]
      · rw [List.find?_cons_of_neg (by simpa using hx), List.find?_cons_of_neg (by simpa using hx), ih]

theorem map_updateTx {β : Type} (g : Tx → β) (l : List Tx) (k : Nat) (f : Tx → Tx) (hf : ∀ t, g (f t) = g t) :
    (updateTx l k f).map g = l.map g := by
  unfold updateTx
  rw [List.map_map]
  apply List.map_congr_left
  intro r _
  simp only [Function.comp]
  split
  · exact hf r
  · rfl

theorem mem_updateTx {l : List Tx} {k : Nat} {f : Tx → Tx} {t : Tx} :
    t ∈ updateTx l k f ↔ ∃ u ∈ l, t = if u.session = k then f u else u := by
  unfold updateTx
  simp only [List.mem_map]
  exact ⟨fun ⟨a, h1, h2⟩ => ⟨a, h1, h2.symm⟩, fun ⟨a, h1, h2⟩ => ⟨a, h1, h2.symm⟩⟩

theorem mem_retried (l : List Tx) (k n : Nat) :
    (∀ t ∈ updateTx l k (fun t => { t with startMid := some n }), ∃ u ∈ l, t.session = u.session ∧ t.conn = u.conn ∧ t.internal = u.internal ∧ t.txId = u.txId ∧
      t.stopMid = u.stopMid ∧ t.finished = u.finished ∧ t.startMid = (if u.session = k then some n else u.startMid)) ∧
    ∀ u ∈ l, ∃ t ∈ updateTx l k (fun t => { t with startMid := some n }), t.session = u.session ∧ t.conn = u.conn ∧ t.stopMid = u.stopMid ∧
      t.finished = u.finished := by
  constructor
  · intro t ht
    obtain ⟨u, hu, rfl⟩ := mem_updateTx.mp ht
    refine ⟨u, hu, ?_⟩
    split <;> exact ⟨rfl, rfl, rfl, rfl, rfl, rfl, rfl⟩
  · intro u hu
    refine ⟨_, mem_updateTx.mpr ⟨u, hu, rfl⟩, ?_⟩
    split <;> exact ⟨rfl, rfl, rfl, rfl⟩

/-- The transaction found for an answer to StartTransaction.req is the right one. -/
theorem byMid_session {s : S} {b : List Row} (h : Inv s b) {m : Msg} (hm : m ∈ s.queue) (hs : m.stop = false) {t : Tx} (ht : byMid s m.mid = some t) :
    t.session = m.session ∧ (t ∈ s.active ∨ t ∈ s.stopped) := by
  have h1 := List.mem_of_find?_eq_some ht
  have h2 := List.find?_some ht
  simp only [List.mem_append] at h1
  simp only [Bool.or_eq_true, beq_iff_eq] at h2
  rcases h1 with h1 | h1
  · have := h.startA m hm hs t h1
    exact ⟨this.1.mp (h2.resolve_right this.2), .inl h1⟩
  · have := h.startS m hm hs t h1
    exact ⟨this.1.mp (h2.resolve_right this.2), .inr h1⟩

theorem byMid_none {s : S} {b : List Row} (h : Inv s b) {m : Msg} (hm : m ∈ s.queue) (hs : m.stop = false) (ht : byMid s m.mid = none) :
    (∀ t ∈ s.active, t.session ≠ m.session) ∧ ∀ t ∈ s.stopped, t.session ≠ m.session := by
  have h1 := List.find?_eq_none.mp ht
  simp only [List.mem_append, Bool.or_eq_true, beq_iff_eq, not_or] at h1
  exact ⟨fun t ht e => (h1 t (.inl ht)).1 ((h.startA m hm hs t ht).1.mpr e), fun t ht e => (h1 t (.inr ht)).1 ((h.startS m hm hs t ht).1.mpr e)⟩

theorem updateTx_none {l : List Tx} {k : Nat} {f : Tx → Tx} (h : ∀ t ∈ l, t.session ≠ k) : updateTx l k f = l := by
  unfold updateTx
  conv => rhs; rw [← List.map_id l]
  apply List.map_congr_left
  intro t ht
  simp [h t ht]

theorem renumber_active {s : S} {b : List Row} (h : Inv s b) {m : Msg} (hm : m ∈ s.queue) (hs : m.stop = false) :
    renumber s m.mid s.active = updateTx s.active m.session (fun t => { t with startMid := some s.next }) := by
  unfold renumber
  cases ht : byMid s m.mid with
  | none => exact (updateTx_none (byMid_none h hm hs ht).1).symm
  | some t => simp only [(byMid_session h hm hs ht).1]

theorem renumber_stopped {s : S} {b : List Row} (h : Inv s b) {m : Msg} (hm : m ∈ s.queue) (hs : m.stop = false) :
    renumber s m.mid s.stopped = updateTx s.stopped m.session (fun t => { t with startMid := some s.next }) := by
  unfold renumber
  cases ht : byMid s m.mid with
  | none => exact (updateTx_none (byMid_none h hm hs ht).2).symm
  | some t => simp only [(byMid_session h hm hs ht).1]

theorem map_ack (l : List Row) (id : Int) : (ack l id).map (·.session) = l.map (·.session) := by
  unfold ack
  rw [List.map_map]
  apply List.map_congr_left
  intro r _
  simp only [Function.comp]
  split <;> rfl

theorem mem_ack (l : List Row) (id : Int) :
    (∀ r ∈ ack l id, ∃ r0 ∈ l, r.session = r0.session ∧ r.txId = r0.txId ∧ r.startMid = r0.startMid ∧ r.conn = r0.conn ∧ r.stopMid = r0.stopMid ∧
      (r.acked = r0.acked ∨ r.acked = true) ∧ (r0.txId = id → r.acked = true)) ∧
    ∀ r0 ∈ l, ∃ r ∈ ack l id, r.session = r0.session := by
  unfold ack
  simp only [List.mem_map]
  constructor
  · rintro r ⟨r0, h0, rfl⟩
    refine ⟨r0, h0, ?_⟩
    split
    · exact ⟨rfl, rfl, rfl, rfl, rfl, .inr rfl, fun _ => rfl⟩
    · rename_i h; exact ⟨rfl, rfl, rfl, rfl, rfl, .inl rfl, fun h' => absurd h' h⟩
  · intro r0 h0
    refine ⟨_, ⟨r0, h0, rfl⟩, ?_⟩
    split <;> rfl

theorem mem_assigned (l : List Tx) (k : Nat) (n : Int) :
    (∀ t ∈ updateTx l k (fun t => { t with txId := some n }), ∃ u ∈ l, t.session = u.session ∧ t.conn = u.conn ∧ t.internal = u.internal ∧
      t.startMid = u.startMid ∧ t.stopMid = u.stopMid ∧ t.finished = u.finished ∧ t.txId = (if u.session = k then some n else u.txId)) ∧
    ∀ u ∈ l, ∃ t ∈ updateTx l k (fun t => { t with txId := some n }), t.session = u.session ∧ t.conn = u.conn ∧ t.stopMid = u.stopMid ∧
      t.finished = u.finished := by
  constructor
  · intro t ht
    obtain ⟨u, hu, rfl⟩ := mem_updateTx.mp ht
    refine ⟨u, hu, ?_⟩
    split <;> exact ⟨rfl, rfl, rfl, rfl, rfl, rfl, rfl⟩
  · intro u hu
    refine ⟨_, mem_updateTx.mpr ⟨u, hu, rfl⟩, ?_⟩
    split <;> exact ⟨rfl, rfl, rfl, rfl⟩

theorem mem_renamed (l : List Row) (k : Nat) (n : Int) :
    (∀ r ∈ updateRow l k (fun r => { r with txId := n }), ∃ r0 ∈ l, r.session = r0.session ∧ r.txId = (if r0.session = k then n else r0.txId) ∧
      r.startMid = r0.startMid ∧ r.acked = r0.acked ∧ r.conn = r0.conn ∧ r.stopMid = r0.stopMid) ∧
    ∀ r0 ∈ l, ∃ r ∈ updateRow l k (fun r => { r with txId := n }), r.session = r0.session := by
  constructor
  · intro r hr
    obtain ⟨r0, h0, rfl⟩ := mem_updateRow.mp hr
    refine ⟨r0, h0, ?_⟩
    split <;> exact ⟨rfl, rfl, rfl, rfl, rfl, rfl⟩
  · intro r0 h0
    refine ⟨_, mem_updateRow.mpr ⟨r0, h0, rfl⟩, ?_⟩
    split <;> rfl

theorem stopsSeen_assigned (l : List Ev) (k : Nat) (n : Int) : stopsSeen (l ++ [.assigned k n]) = stopsSeen l := by
  simp [stopsSeen]

theorem stopsSeen_stopped (l : List Ev) (k : Nat) (x v : Int) : stopsSeen (l ++ [.stopped k x v]) = stopsSeen l ++ [k] := by
  simp [stopsSeen]

theorem mem_stopsSeen (l : List Ev) (k : Nat) : k ∈ stopsSeen l ↔ ∃ x v, Ev.stopped k x v ∈ l := by
  unfold stopsSeen
  rw [List.mem_filterMap]
  constructor
  · rintro ⟨e, he, h⟩
    cases e with
    | assigned => simp at h
    | stopped k' x v => simp only [Option.some.injEq] at h; subst h; exact ⟨x, v, he⟩
  · rintro ⟨x, v, h⟩
    exact ⟨_, h, rfl⟩

end Verif.Tx16
