import Verif.Tx16.Lemmas

/-! A restart keeps the invariant. -/

namespace Verif.Tx16

set_option linter.unusedVariables false
set_option linter.constructorNameAsVariable false

/-- During the restart: the rows `b` are still to be resumed. -/
structure Resuming (s : S) (b : List Row) : Prop where
  map : s.map = []
  pc : s.pc = .idle
  nodup : (b.map (·.session)).Nodup
  row : ∀ r ∈ b, r ∈ s.rows ∧ r.acked = false
  act : ∀ r ∈ b, ∀ t ∈ s.active, t.session ≠ r.session ∧ t.conn ≠ r.conn
  mid : ∀ m ∈ s.queue, m.mid = m.iid
  sto : ∀ r ∈ b, ∀ t ∈ s.stopped, t.session ≠ r.session

theorem Inv.crashed {s : S} (h : Inv s []) (hc : ∀ m ∈ s.queue, m.stop = true → Ev.assigned m.session m.id ∈ s.log) :
    Inv (crashed s) (s.rows.filter (fun r => !r.acked)) := by
  unfold Tx16.crashed
  have hq1 : ∀ m ∈ s.queue.map (fun m => { m with mid := m.iid }), m.mid = m.iid ∧ ∃ m0 ∈ s.queue, m.iid = m0.iid ∧ m.session = m0.session ∧ m.stop = m0.stop ∧
      m.id = m0.id := by
    intro m hm
    obtain ⟨m0, h0, rfl⟩ := List.mem_map.mp hm
    exact ⟨rfl, m0, h0, rfl, rfl, rfl, rfl⟩
  have hi : ((s.queue.map (fun m => { m with mid := m.iid })).map (·.iid)) = s.queue.map (·.iid) := by simp [Function.comp_def]
  have hi' : ((s.queue.map (fun m => { m with mid := m.iid })).map (·.mid)) = s.queue.map (·.iid) := by simp [Function.comp_def]
  have hs1 : ((s.queue.map (fun m => { m with mid := m.iid })).filter (·.stop)).map (·.session) = (s.queue.filter (·.stop)).map (·.session) := by
    rw [List.filter_map, List.map_map]; rfl
  have hs2 : ((s.queue.map (fun m => { m with mid := m.iid })).filter (fun m => !m.stop)).map (·.session) =
      (s.queue.filter (fun m => !m.stop)).map (·.session) := by
    rw [List.filter_map, List.map_map]; rfl
  have hp : (s.queue.map (fun m => { m with mid := m.iid })).Pairwise (fun m m' => m.stop = true → m'.stop = false → m'.session ≠ m.session) := by
    rw [List.pairwise_map]; exact h.fifo
  have hss : ∀ m ∈ s.queue, m.stop = false → ∀ m' ∈ s.queue, m'.stop = true → m'.session ≠ m.session := by
    intro m hm hms m' hm' hms' e
    exact h.startOnce m hm hms m'.id (e ▸ hc m' hm' hms')
  have hdead : ∀ k, Dead s k → ∀ q, (∀ m ∈ q, ∃ m0 ∈ s.queue, m.session = m0.session ∧ m.stop = m0.stop) →
      Dead { s with active := [], stopped := [], map := [], pc := .idle, queue := q } k := by
    intro k hd q hq
    refine ⟨hd.1, by simp, by simp, ?_, by simp⟩
    intro m hm hms e
    obtain ⟨m0, h0, e1, e2⟩ := hq m hm
    exact hd.2.2.2.1 m0 h0 (by rw [← e2]; exact hms) (by rw [← e1]; exact e)
  generalize s.queue.map (fun m => { m with mid := m.iid }) = q at *
  have hq2 : ∀ m ∈ q, ∃ m0 ∈ s.queue, m.session = m0.session ∧ m.stop = m0.stop := by
    intro m hm; obtain ⟨_, m0, h0, _, e1, e2, _⟩ := hq1 m hm; exact ⟨m0, h0, e1, e2⟩
  constructor
  case rowsNodup => have h_0 := h.rowsNodup; clear h; grind
  case freshQ => have h_0 := h.freshQ; clear h hdead; grind
  case freshA => have h_0 := h.freshA; clear h; grind
  case freshS => have h_0 := h.freshS; clear h; grind
  case freshR => have h_0 := h.freshR; clear h; grind
  case freshM => have h_0 := h.freshM; clear h; grind
  case midNodup => simp only []; rw [hi']; exact h.iidNodup
  case iidNodup => simp only []; rw [hi]; exact h.iidNodup
  case rowEx => have h_0 := h.rowEx; clear h; grind
  case rowExA => have h_0 := h.rowExA; clear h; grind
  case rowExS => have h_0 := h.rowExS; clear h; grind
  case startA => have h_0 := h.startA; clear h; grind
  case startS => have h_0 := h.startS; clear h; grind
  case startR => have h_0 := h.startR; clear h; grind
  case stopA => have h_0 := h.stopA; clear h; grind
  case stopS => have h_0 := h.stopS; clear h; grind
  case stopR => have h_0 := h.stopR; clear h; grind
  case actNodup => have h_0 := h.actNodup; clear h; grind
  case conNodup => have h_0 := h.conNodup; clear h; grind
  case stoNodup => have h_0 := h.stoNodup; clear h; grind
  case disj => have h_0 := h.disj; clear h; grind
  case known => 
    intro m hm hs
    obtain ⟨_, m0, h0, _, e1, e2, _⟩ := hq1 m hm
    obtain ⟨r, hr, he⟩ := h.rowEx m0 h0
    by_cases ha : r.acked = true
    · refine .inr (.inr (.inl ⟨?_, by simp, by simp, ?_, by simp⟩))
      · intro r' hr' e'
        have : r' = r := inj_of_nodup h.rowsNodup r' hr' r hr (by rw [e', he, e1])
        rw [this]; exact ha
      · intro m' hm' hms' e
        obtain ⟨m1, h1, f1, f2⟩ := hq2 m' hm'
        exact hss m0 h0 (by rw [← e2]; exact hs) m1 h1 (by rw [← f2]; exact hms') (by rw [← f1, e, e1])
    · exact .inr (.inr (.inr ⟨r, List.mem_filter.mpr ⟨hr, by simpa using ha⟩, by rw [he, e1]⟩))
  case eff => 
    intro m hm hs r hr he
    obtain ⟨_, m0, h0, _, e1, e2, e3⟩ := hq1 m hm
    have hs0 : m0.stop = true := by rw [← e2]; exact hs
    have hl := hc m0 h0 hs0
    show r.txId = ((get [] m.mid).getD m.id)
    rw [show get [] m.mid = none from rfl, Option.getD_none, e3]
    rcases h.asg _ _ hl with h1 | h1
    · exact h1 r hr (by rw [he, e1])
    · exact absurd rfl (h1.2.2.2.1 m0 h0 hs0)
  case actId => have h_0 := h.actId; clear h; grind
  case actNoStop => have h_0 := h.actNoStop; clear h; grind
  case pcQueued => have h_0 := h.pcQueued; clear h; grind
  case pcMarked => have h_0 := h.pcMarked; clear h; grind
  case pcStarting => have h_0 := h.pcStarting; clear h; grind
  case stopOnceQ => simp only []; rw [hs1]; exact h.stopOnceQ
  case stopOnceL => have h_0 := h.stopOnceL; clear h; grind
  case stopOnce => have h_0 := h.stopOnce; clear h; grind
  case startOnceQ => simp only []; rw [hs2]; exact h.startOnceQ
  case startOnce => have h_0 := h.startOnce; clear h; grind
  case ackd => have h_0 := h.ackd; clear h; grind
  case logEx => have h_0 := h.logEx; clear h; grind
  case logEx' => have h_0 := h.logEx'; clear h; grind
  case asg => 
    intro k n hk
    rcases h.asg k n hk with h1 | h1
    · exact .inl h1
    · exact .inr (hdead k h1 q hq2)
  case done => have h_0 := h.done; clear h; grind
  case fifo => exact hp
  case fifoL => have h_0 := h.fifoL; clear h; grind
  case marked => 
    intro m hm m' hm' hs hs' e
    obtain ⟨m0, h0, e1, e2⟩ := hq2 m hm
    obtain ⟨m1, h1, f1, f2⟩ := hq2 m' hm'
    exact absurd (by rw [← e1, e, f1]) (hss m1 h1 (by rw [← f2]; exact hs') m0 h0 (by rw [← e2]; exact hs))

theorem Inv.resumeFound {s : S} {r : Row} {b : List Row} (h : Inv s (r :: b)) (hr : Resuming s (r :: b)) :
    Inv { s with stopped := s.stopped ++ [{ r.tx with finished := true }] } b := by
  obtain ⟨r1, r2, r3, r4, r5, r7, r6⟩ := hr
  obtain ⟨hrr, hra⟩ := r4 r (by simp)
  have hin := inj_of_nodup h.rowsNodup
  have r5' := r5 r (by simp)
  have r6' := r6 r (by simp)
  constructor
  case rowsNodup => have h_0 := h.rowsNodup; clear h; simp only [Dead, Tx16.eff, Tx.id, Row.tx] at *; grind
  case freshQ => have h_0 := h.freshQ; clear h; simp only [Dead, Tx16.eff, Tx.id, Row.tx] at *; grind
  case freshA => have h_0 := h.freshA; clear h; simp only [Dead, Tx16.eff, Tx.id, Row.tx] at *; grind
  case freshS => have h_0 := h.freshS; have h_1 := h.freshR; clear h; simp only [Dead, Tx16.eff, Tx.id, Row.tx] at *; grind
  case freshR => have h_0 := h.freshR; clear h; simp only [Dead, Tx16.eff, Tx.id, Row.tx] at *; grind
  case freshM => have h_0 := h.freshM; clear h; simp only [Dead, Tx16.eff, Tx.id, Row.tx] at *; grind
  case midNodup => have h_0 := h.midNodup; clear h; simp only [Dead, Tx16.eff, Tx.id, Row.tx] at *; grind
  case iidNodup => have h_0 := h.iidNodup; clear h; simp only [Dead, Tx16.eff, Tx.id, Row.tx] at *; grind
  case rowEx => have h_0 := h.rowEx; clear h; simp only [Dead, Tx16.eff, Tx.id, Row.tx] at *; grind
  case rowExA => have h_0 := h.rowExA; clear h; simp only [Dead, Tx16.eff, Tx.id, Row.tx] at *; grind
  case rowExS => have h_0 := h.rowExS; clear h; simp only [Dead, Tx16.eff, Tx.id, Row.tx] at *; grind
  case startA => have h_0 := h.startA; clear h; simp only [Dead, Tx16.eff, Tx.id, Row.tx] at *; grind
  case startS => have h_0 := h.startS; have h_1 := h.startR; clear h; simp only [Dead, Tx16.eff, Tx.id, Row.tx] at *; grind
  case startR => have h_0 := h.startR; clear h; simp only [Dead, Tx16.eff, Tx.id, Row.tx] at *; grind
  case stopA => have h_0 := h.stopA; clear h; simp only [Dead, Tx16.eff, Tx.id, Row.tx] at *; grind
  case stopS => have h_0 := h.stopS; have h_1 := h.stopR; clear h; simp only [Dead, Tx16.eff, Tx.id, Row.tx] at *; grind
  case stopR => have h_0 := h.stopR; clear h; simp only [Dead, Tx16.eff, Tx.id, Row.tx] at *; grind
  case actNodup => have h_0 := h.actNodup; clear h; simp only [Dead, Tx16.eff, Tx.id, Row.tx] at *; grind
  case conNodup => have h_0 := h.conNodup; clear h; simp only [Dead, Tx16.eff, Tx.id, Row.tx] at *; grind
  case stoNodup => have h_0 := h.stoNodup; clear h; simp only [Dead, Tx16.eff, Tx.id, Row.tx] at *; grind
  case disj => have h_0 := h.disj; clear h; simp only [Dead, Tx16.eff, Tx.id, Row.tx] at *; grind
  case known => 
    intro m hm hs
    rcases h.known m hm hs with ⟨u, hu, he⟩ | ⟨u, hu, he⟩ | hd | ⟨x, hx, he⟩
    · exact .inl ⟨u, by simp [hu], he⟩
    · exact .inr (.inl ⟨u, by simp [hu], he⟩)
    · have hne : r.session ≠ m.session := fun e => by
        have := hd.1 r hrr e; rw [hra] at this; simp at this
      obtain ⟨d1, d2, d3, d4, d5⟩ := hd
      exact .inr (.inr (.inl ⟨d1, by clear h; grind [Row.tx], by clear h; grind [Row.tx], d4, d5⟩))
    · rcases List.mem_cons.mp hx with rfl | hx
      · exact .inr (.inl ⟨_, by simp; exact .inr rfl, he⟩)
      · exact .inr (.inr (.inr ⟨x, hx, he⟩))
  case eff => have h_0 := h.eff; clear h; simp only [Dead, Tx16.eff, Tx.id, Row.tx] at *; grind
  case actId => have h_0 := h.actId; clear h; simp only [Dead, Tx16.eff, Tx.id, Row.tx] at *; grind
  case actNoStop => have h_0 := h.actNoStop; clear h; simp only [Dead, Tx16.eff, Tx.id, Row.tx] at *; grind
  case pcQueued => have h_0 := h.pcQueued; clear h; simp only [Dead, Tx16.eff, Tx.id, Row.tx] at *; grind
  case pcMarked => have h_0 := h.pcMarked; clear h; simp only [Dead, Tx16.eff, Tx.id, Row.tx] at *; grind
  case pcStarting => have h_0 := h.pcStarting; clear h; simp only [Dead, Tx16.eff, Tx.id, Row.tx] at *; grind
  case stopOnceQ => have h_0 := h.stopOnceQ; clear h; simp only [Dead, Tx16.eff, Tx.id, Row.tx] at *; grind
  case stopOnceL => have h_0 := h.stopOnceL; clear h; simp only [Dead, Tx16.eff, Tx.id, Row.tx] at *; grind
  case stopOnce => have h_0 := h.stopOnce; clear h; simp only [Dead, Tx16.eff, Tx.id, Row.tx] at *; grind
  case startOnceQ => have h_0 := h.startOnceQ; clear h; simp only [Dead, Tx16.eff, Tx.id, Row.tx] at *; grind
  case startOnce => have h_0 := h.startOnce; clear h; simp only [Dead, Tx16.eff, Tx.id, Row.tx] at *; grind
  case ackd => have h_0 := h.ackd; clear h; simp only [Dead, Tx16.eff, Tx.id, Row.tx] at *; grind
  case logEx => have h_0 := h.logEx; clear h; simp only [Dead, Tx16.eff, Tx.id, Row.tx] at *; grind
  case logEx' => have h_0 := h.logEx'; clear h; simp only [Dead, Tx16.eff, Tx.id, Row.tx] at *; grind
  case asg => have h_0 := h.asg; clear h; simp only [Dead, Tx16.eff, Tx.id, Row.tx] at *; grind
  case done => have h_0 := h.done; clear h; simp only [Dead, Tx16.eff, Tx.id, Row.tx] at *; grind
  case fifo => have h_0 := h.fifo; clear h; simp only [Dead, Tx16.eff, Tx.id, Row.tx] at *; grind
  case fifoL => have h_0 := h.fifoL; clear h; simp only [Dead, Tx16.eff, Tx.id, Row.tx] at *; grind
  case marked => have h_0 := h.marked; clear h; simp only [Dead, Tx16.eff, Tx.id, Row.tx] at *; grind

theorem Inv.resumeActive {s : S} {r : Row} {b : List Row} (h : Inv s (r :: b)) (hr : Resuming s (r :: b))
    (hq : ∀ m ∈ s.queue, m.stop = true → m.id ≠ r.txId) : Inv { s with active := r.tx :: s.active } b := by
  obtain ⟨r1, r2, r3, r4, r5, r7, r6⟩ := hr
  obtain ⟨hrr, hra⟩ := r4 r (by simp)
  have hin := inj_of_nodup h.rowsNodup
  have r5' := r5 r (by simp)
  have r6' := r6 r (by simp)
  have hq2 : ∀ m ∈ s.queue, m.stop = true → m.session ≠ r.session := by
    intro m hm hs e
    have := h.eff m hm hs r hrr e.symm
    unfold Tx16.eff at this
    rw [r1, show get [] m.mid = none from rfl, Option.getD_none] at this
    exact hq m hm hs this.symm
  have hq3 : ∀ x v, Ev.stopped r.session x v ∉ s.log := by
    intro x v hx
    have := h.ackd _ _ _ hx r hrr rfl
    rw [hra] at this; simp at this
  constructor
  case rowsNodup => have h_0 := h.rowsNodup; clear h; simp only [Dead, Tx16.eff, Tx.id, Row.tx] at *; grind
  case freshQ => have h_0 := h.freshQ; clear h; simp only [Dead, Tx16.eff, Tx.id, Row.tx] at *; grind
  case freshA => have h_0 := h.freshA; have h_1 := h.freshR; clear h; simp only [Dead, Tx16.eff, Tx.id, Row.tx] at *; grind
  case freshS => have h_0 := h.freshS; clear h; simp only [Dead, Tx16.eff, Tx.id, Row.tx] at *; grind
  case freshR => have h_0 := h.freshR; clear h; simp only [Dead, Tx16.eff, Tx.id, Row.tx] at *; grind
  case freshM => have h_0 := h.freshM; clear h; simp only [Dead, Tx16.eff, Tx.id, Row.tx] at *; grind
  case midNodup => have h_0 := h.midNodup; clear h; simp only [Dead, Tx16.eff, Tx.id, Row.tx] at *; grind
  case iidNodup => have h_0 := h.iidNodup; clear h; simp only [Dead, Tx16.eff, Tx.id, Row.tx] at *; grind
  case rowEx => have h_0 := h.rowEx; clear h; simp only [Dead, Tx16.eff, Tx.id, Row.tx] at *; grind
  case rowExA => have h_0 := h.rowExA; clear h; simp only [Dead, Tx16.eff, Tx.id, Row.tx] at *; grind
  case rowExS => have h_0 := h.rowExS; clear h; simp only [Dead, Tx16.eff, Tx.id, Row.tx] at *; grind
  case startA => have h_0 := h.startA; have h_1 := h.startR; clear h; simp only [Dead, Tx16.eff, Tx.id, Row.tx] at *; grind
  case startS => have h_0 := h.startS; clear h; simp only [Dead, Tx16.eff, Tx.id, Row.tx] at *; grind
  case startR => have h_0 := h.startR; clear h; simp only [Dead, Tx16.eff, Tx.id, Row.tx] at *; grind
  case stopA => have h_0 := h.stopA; have h_1 := h.stopR; clear h; simp only [Dead, Tx16.eff, Tx.id, Row.tx] at *; grind
  case stopS => have h_0 := h.stopS; clear h; simp only [Dead, Tx16.eff, Tx.id, Row.tx] at *; grind
  case stopR => have h_0 := h.stopR; clear h; simp only [Dead, Tx16.eff, Tx.id, Row.tx] at *; grind
  case actNodup => have h_0 := h.actNodup; clear h; simp only [Dead, Tx16.eff, Tx.id, Row.tx] at *; grind
  case conNodup => have h_0 := h.conNodup; clear h; simp only [Dead, Tx16.eff, Tx.id, Row.tx] at *; grind
  case stoNodup => have h_0 := h.stoNodup; clear h; simp only [Dead, Tx16.eff, Tx.id, Row.tx] at *; grind
  case disj => have h_0 := h.disj; clear h; simp only [Dead, Tx16.eff, Tx.id, Row.tx] at *; grind
  case known => 
    intro m hm hs
    rcases h.known m hm hs with ⟨u, hu, he⟩ | ⟨u, hu, he⟩ | hd | ⟨x, hx, he⟩
    · exact .inl ⟨u, by simp [hu], he⟩
    · exact .inr (.inl ⟨u, by simp [hu], he⟩)
    · have hne : r.session ≠ m.session := fun e => by
        have := hd.1 r hrr e; rw [hra] at this; simp at this
      obtain ⟨d1, d2, d3, d4, d5⟩ := hd
      exact .inr (.inr (.inl ⟨d1, by clear h; grind [Row.tx], by clear h; grind [Row.tx], d4, d5⟩))
    · rcases List.mem_cons.mp hx with rfl | hx
      · exact .inl ⟨_, by simp; exact .inl rfl, he⟩
      · exact .inr (.inr (.inr ⟨x, hx, he⟩))
  case eff => have h_0 := h.eff; clear h; simp only [Dead, Tx16.eff, Tx.id, Row.tx] at *; grind
  case actId => have h_0 := h.actId; clear h; simp only [Dead, Tx16.eff, Tx.id, Row.tx] at *; grind
  case actNoStop => have h_0 := h.actNoStop; clear h; simp only [Dead, Tx16.eff, Tx.id, Row.tx] at *; grind
  case pcQueued => have h_0 := h.pcQueued; clear h; simp only [Dead, Tx16.eff, Tx.id, Row.tx] at *; grind
  case pcMarked => have h_0 := h.pcMarked; clear h; simp only [Dead, Tx16.eff, Tx.id, Row.tx] at *; grind
  case pcStarting => have h_0 := h.pcStarting; clear h; simp only [Dead, Tx16.eff, Tx.id, Row.tx] at *; grind
  case stopOnceQ => have h_0 := h.stopOnceQ; clear h; simp only [Dead, Tx16.eff, Tx.id, Row.tx] at *; grind
  case stopOnceL => have h_0 := h.stopOnceL; clear h; simp only [Dead, Tx16.eff, Tx.id, Row.tx] at *; grind
  case stopOnce => have h_0 := h.stopOnce; clear h; simp only [Dead, Tx16.eff, Tx.id, Row.tx] at *; grind
  case startOnceQ => have h_0 := h.startOnceQ; clear h; simp only [Dead, Tx16.eff, Tx.id, Row.tx] at *; grind
  case startOnce => have h_0 := h.startOnce; clear h; simp only [Dead, Tx16.eff, Tx.id, Row.tx] at *; grind
  case ackd => have h_0 := h.ackd; clear h; simp only [Dead, Tx16.eff, Tx.id, Row.tx] at *; grind
  case logEx => have h_0 := h.logEx; clear h; simp only [Dead, Tx16.eff, Tx.id, Row.tx] at *; grind
  case logEx' => have h_0 := h.logEx'; clear h; simp only [Dead, Tx16.eff, Tx.id, Row.tx] at *; grind
  case asg => have h_0 := h.asg; clear h; simp only [Dead, Tx16.eff, Tx.id, Row.tx] at *; grind
  case done => have h_0 := h.done; clear h; simp only [Dead, Tx16.eff, Tx.id, Row.tx] at *; grind
  case fifo => have h_0 := h.fifo; clear h; simp only [Dead, Tx16.eff, Tx.id, Row.tx] at *; grind
  case fifoL => have h_0 := h.fifoL; clear h; simp only [Dead, Tx16.eff, Tx.id, Row.tx] at *; grind
  case marked => have h_0 := h.marked; clear h; simp only [Dead, Tx16.eff, Tx.id, Row.tx] at *; grind

theorem Inv.resumeStop {s : S} {r : Row} {b : List Row} (h : Inv s (r :: b)) (hr : Resuming s (r :: b)) (v : Int)
    (hq : ∀ m ∈ s.queue, m.stop = true → m.id ≠ r.txId) :
    Inv { s with
      queue := s.queue ++ [{ mid := s.next, iid := s.next, session := r.session, stop := true, id := r.txId, meter := v }]
      stopped := s.stopped ++ [{ r.tx with finished := true, stopMid := some s.next }]
      rows := updateRow s.rows r.session (ended s.next v)
      next := s.next + 1 } b := by
  obtain ⟨r1, r2, r3, r4, r5, r7, r6⟩ := hr
  obtain ⟨hrr, hra⟩ := r4 r (by simp)
  have hin := inj_of_nodup h.rowsNodup
  have r5' := r5 r (by simp)
  have r6' := r6 r (by simp)
  have hq2 : ∀ m ∈ s.queue, m.stop = true → m.session ≠ r.session := by
    intro m hm hs e
    have := h.eff m hm hs r hrr e.symm
    unfold Tx16.eff at this
    rw [r1, show get [] m.mid = none from rfl, Option.getD_none] at this
    exact hq m hm hs this.symm
  have hq3 : ∀ x v, Ev.stopped r.session x v ∉ s.log := by
    intro x v hx
    have := h.ackd _ _ _ hx r hrr rfl
    rw [hra] at this; simp at this
  have hg : get s.map s.next = none := by rw [r1]; rfl
  have hm := mem_ended s.rows r.session s.next v
  have hs : (updateRow s.rows r.session (ended s.next v)).map (·.session) = s.rows.map (·.session) := map_updateRow _ _ _ (fun _ => rfl)
  generalize updateRow s.rows r.session (ended s.next v) = rows at *
  constructor
  case rowsNodup => have h_0 := h.rowsNodup; clear h; simp only [Dead, Tx16.eff, Tx.id, Row.tx] at *; grind
  case freshQ => have h_0 := h.freshQ; clear h; simp only [Dead, Tx16.eff, Tx.id, Row.tx] at *; grind
  case freshA => have h_0 := h.freshA; clear h; simp only [Dead, Tx16.eff, Tx.id, Row.tx] at *; grind
  case freshS => have h_0 := h.freshS; have h_1 := h.freshR; clear h; simp only [Dead, Tx16.eff, Tx.id, Row.tx] at *; grind
  case freshR => have h_0 := h.freshR; clear h; simp only [Dead, Tx16.eff, Tx.id, Row.tx] at *; grind
  case freshM => have h_0 := h.freshM; clear h; simp only [Dead, Tx16.eff, Tx.id, Row.tx] at *; grind
  case midNodup => have h_0 := h.midNodup; have h_1 := h.freshQ; clear h; simp only [Dead, Tx16.eff, Tx.id, Row.tx] at *; grind
  case iidNodup => have h_0 := h.iidNodup; have h_1 := h.freshQ; clear h; simp only [Dead, Tx16.eff, Tx.id, Row.tx] at *; grind
  case rowEx => have h_0 := h.rowEx; clear h; simp only [Dead, Tx16.eff, Tx.id, Row.tx] at *; grind
  case rowExA => have h_0 := h.rowExA; clear h; simp only [Dead, Tx16.eff, Tx.id, Row.tx] at *; grind
  case rowExS => have h_0 := h.rowExS; clear h; simp only [Dead, Tx16.eff, Tx.id, Row.tx] at *; grind
  case startA => have h_0 := h.startA; clear h; simp only [Dead, Tx16.eff, Tx.id, Row.tx] at *; grind
  case startS => 
    intro m hm' hs' t ht
    simp only [List.mem_append, List.mem_singleton] at hm' ht
    rcases hm' with hm' | rfl
    · rcases ht with ht | rfl
      · exact h.startS m hm' hs' t ht
      · have h1 := h.startR m hm' hs' r hrr
        have h2 := h.freshQ m hm'
        have h3 := r7 m hm'
        simp only [Row.tx, Option.some.injEq]
        rw [h3]
        exact ⟨h1.1, by intro e; simp only [Option.some.injEq] at e; omega⟩
    · simp at hs'
  case startR => have h_0 := h.startR; have h_1 := h.freshQ; clear h; simp only [Dead, Tx16.eff, Tx.id, Row.tx] at *; grind
  case stopA => have h_0 := h.stopA; have h_1 := h.freshA; clear h; simp only [Dead, Tx16.eff, Tx.id, Row.tx] at *; grind
  case stopS => 
    intro m hm' hs' t ht he
    simp only [List.mem_append, List.mem_singleton] at hm' ht
    rcases hm' with hm' | rfl
    · rcases ht with ht | rfl
      · exact h.stopS m hm' hs' t ht he
      · have h2 := h.freshQ m hm'
        simp only [Option.some.injEq] at he
        omega
    · rcases ht with ht | rfl
      · have := (h.freshS t ht).2 _ he; simp at this
      · rfl
  case stopR => have h_0 := h.stopR; have h_1 := h.freshR; have h_2 := h.freshQ; clear h; simp only [Dead, Tx16.eff, Tx.id, Row.tx] at *; grind
  case actNodup => have h_0 := h.actNodup; clear h; simp only [Dead, Tx16.eff, Tx.id, Row.tx] at *; grind
  case conNodup => have h_0 := h.conNodup; clear h; simp only [Dead, Tx16.eff, Tx.id, Row.tx] at *; grind
  case stoNodup => have h_0 := h.stoNodup; clear h; simp only [Dead, Tx16.eff, Tx.id, Row.tx] at *; grind
  case disj => have h_0 := h.disj; clear h; simp only [Dead, Tx16.eff, Tx.id, Row.tx] at *; grind
  case known => 
    intro m hm' hs'
    simp only [List.mem_append, List.mem_singleton] at hm'
    rcases hm' with hm' | rfl
    · rcases h.known m hm' hs' with ⟨u, hu, he⟩ | ⟨u, hu, he⟩ | hd | ⟨x, hx, he⟩
      · exact .inl ⟨u, hu, he⟩
      · exact .inr (.inl ⟨u, by simp [hu], he⟩)
      · have hne : r.session ≠ m.session := fun e => by
          have := hd.1 r hrr e; rw [hra] at this; simp at this
        obtain ⟨d1, d2, d3, d4, d5⟩ := hd
        exact .inr (.inr (.inl ⟨by clear h; grind, by clear h; grind [Row.tx], by clear h; grind [Row.tx], by clear h; grind, d5⟩))
      · rcases List.mem_cons.mp hx with rfl | hx
        · exact .inr (.inl ⟨_, by simp; exact .inr rfl, he⟩)
        · exact .inr (.inr (.inr ⟨x, hx, he⟩))
    · simp at hs'
  case eff => have h_0 := h.eff; clear h; simp only [Dead, Tx16.eff, Tx.id, Row.tx] at *; grind
  case actId => have h_0 := h.actId; clear h; simp only [Dead, Tx16.eff, Tx.id, Row.tx] at *; grind
  case actNoStop => have h_0 := h.actNoStop; clear h; simp only [Dead, Tx16.eff, Tx.id, Row.tx] at *; grind
  case pcQueued => have h_0 := h.pcQueued; clear h; simp only [Dead, Tx16.eff, Tx.id, Row.tx] at *; grind
  case pcMarked => have h_0 := h.pcMarked; clear h; simp only [Dead, Tx16.eff, Tx.id, Row.tx] at *; grind
  case pcStarting => intro u mid w hu; rw [r2] at hu; simp at hu
  case stopOnceQ => have h_0 := h.stopOnceQ; clear h; simp only [Dead, Tx16.eff, Tx.id, Row.tx] at *; grind
  case stopOnceL => have h_0 := h.stopOnceL; clear h; simp only [Dead, Tx16.eff, Tx.id, Row.tx] at *; grind
  case stopOnce => have h_0 := h.stopOnce; clear h; simp only [Dead, Tx16.eff, Tx.id, Row.tx] at *; grind
  case startOnceQ => have h_0 := h.startOnceQ; clear h; simp only [Dead, Tx16.eff, Tx.id, Row.tx] at *; grind
  case startOnce => have h_0 := h.startOnce; clear h; simp only [Dead, Tx16.eff, Tx.id, Row.tx] at *; grind
  case ackd => have h_0 := h.ackd; clear h; simp only [Dead, Tx16.eff, Tx.id, Row.tx] at *; grind
  case logEx => have h_0 := h.logEx; clear h; simp only [Dead, Tx16.eff, Tx.id, Row.tx] at *; grind
  case logEx' => have h_0 := h.logEx'; clear h; simp only [Dead, Tx16.eff, Tx.id, Row.tx] at *; grind
  case asg => have h_0 := h.asg; clear h; simp only [Dead, Tx16.eff, Tx.id, Row.tx] at *; grind
  case done => have h_0 := h.done; clear h; simp only [Dead, Tx16.eff, Tx.id, Row.tx] at *; grind
  case fifo => have h_0 := h.fifo; clear h; simp only [Dead, Tx16.eff, Tx.id, Row.tx] at *; grind
  case fifoL => have h_0 := h.fifoL; clear h; simp only [Dead, Tx16.eff, Tx.id, Row.tx] at *; grind
  case marked => 
    intro m hm1 m' hm2 hs1 hs2 he
    simp only [List.mem_append, List.mem_singleton] at hm1 hm2
    rcases hm2 with hm2 | rfl
    · rcases hm1 with hm1 | rfl
      · rcases h.marked m hm1 m' hm2 hs1 hs2 he with ⟨c, w, e⟩ | ⟨t, ht, e⟩
        · rw [r2] at e; simp at e
        · exact .inr ⟨t, by simp [ht], e⟩
      · exact .inr ⟨_, by simp; exact .inr rfl, rfl, rfl, rfl⟩
    · simp at hs2

theorem filter_other {l : List Tx} {c : Nat} (h : ∀ t ∈ l, t.conn ≠ c) : l.filter (fun t => t.conn != c) = l :=
  List.filter_eq_self.mpr (fun t ht => by simpa using h t ht)

theorem Resuming.tail {s : S} {r : Row} {b : List Row} (h : Resuming s (r :: b)) : Resuming s b := by
  refine ⟨h.map, h.pc, ?_, fun x hx => h.row x (by simp [hx]), fun x hx => h.act x (by simp [hx]), h.mid, fun x hx => h.sto x (by simp [hx])⟩
  have := h.nodup; simp only [List.map_cons, List.nodup_cons] at this; exact this.2

theorem resumeOne_inv {s : S} {r : Row} {b : List Row} (l : List Nat) (h : Inv s (r :: b)) (hr : Resuming s (r :: b))
    (hl : r.session ∈ l → ∀ x ∈ b, x.conn ≠ r.conn) : Inv (resumeOne l s r) b ∧ Resuming (resumeOne l s r) b := by
  have hnd := hr.nodup
  simp only [List.map_cons, List.nodup_cons, List.mem_map, not_exists, not_and] at hnd
  have hf := filter_other (fun t ht => (hr.act r (by simp) t ht).2)
  unfold resumeOne
  split
  · rw [hf]
    refine ⟨h.resumeFound hr, ?_⟩
    obtain ⟨r1, r2, r3, r4, r5, r7, r6⟩ := hr.tail
    refine ⟨r1, r2, r3, r4, r5, r7, ?_⟩
    intro x hx t ht
    simp only [List.mem_append, List.mem_singleton] at ht
    rcases ht with ht | rfl
    · exact r6 x hx t ht
    · exact fun e => hnd.1 x hx e.symm
  · rename_i hq
    have hq' : ∀ m ∈ s.queue, m.stop = true → m.id ≠ r.txId := by
      intro m hm hs he; apply hq; simp only [List.any_eq_true, Bool.and_eq_true, beq_iff_eq]; exact ⟨m, hm, hs, he⟩
    split
    · rename_i hc
      have ha : addActive s.active r.tx = r.tx :: s.active := by
        unfold addActive; rw [show r.tx.conn = r.conn from rfl, hf]
      rw [ha]
      refine ⟨h.resumeActive hr hq', ?_⟩
      obtain ⟨r1, r2, r3, r4, r5, r7, r6⟩ := hr.tail
      refine ⟨r1, r2, r3, r4, ?_, r7, r6⟩
      intro x hx t ht
      rcases List.mem_cons.mp ht with rfl | ht
      · exact ⟨fun e => hnd.1 x hx e.symm, fun e => hl (by simpa using hc) x hx e.symm⟩
      · exact r5 x hx t ht
    · rw [hf]
      refine ⟨h.resumeStop hr _ hq', ?_⟩
      obtain ⟨r1, r2, r3, r4, r5, r7, r6⟩ := hr.tail
      refine ⟨r1, r2, r3, ?_, r5, ?_, ?_⟩
      · intro x hx
        refine ⟨mem_updateRow.mpr ⟨x, (r4 x hx).1, ?_⟩, (r4 x hx).2⟩
        rw [if_neg (hnd.1 x hx)]
      · intro m hm
        simp only [List.mem_append, List.mem_singleton] at hm
        rcases hm with hm | rfl
        · exact r7 m hm
        · rfl
      · intro x hx t ht
        simp only [List.mem_append, List.mem_singleton] at ht
        rcases ht with ht | rfl
        · exact r6 x hx t ht
        · exact fun e => hnd.1 x hx e.symm

theorem resumeAll_inv (l : List Nat) (b : List Row) : ∀ {s : S}, Inv s b → Resuming s b →
    (∀ p r q, b = p ++ r :: q → r.session ∈ l → ∀ x ∈ q, x.conn ≠ r.conn) → Inv (b.foldl (resumeOne l) s) [] := by
  induction b with
  | nil => intro s h _ _; exact h
  | cons r b ih =>
    intro s h hr hl
    obtain ⟨h1, h2⟩ := resumeOne_inv l h hr (hl [] r b rfl)
    exact ih h1 h2 (fun p x q e => hl (r :: p) x q (by rw [e]; rfl))

theorem Inv.restart {s : S} (h : Inv s []) (l : List Nat) (hc : ∀ m ∈ s.queue, m.stop = true → Ev.assigned m.session m.id ∈ s.log)
    (hl : ∀ p r q, s.rows.filter (fun r => !r.acked) = p ++ r :: q → r.session ∈ l → ∀ x ∈ q, x.conn ≠ r.conn) : Inv (restart s l) [] := by
  unfold Tx16.restart
  refine resumeAll_inv l _ (h.crashed hc) ⟨rfl, rfl, ?_, ?_, by simp [Tx16.crashed], ?_, by simp [Tx16.crashed]⟩ hl
  · exact h.rowsNodup.sublist (List.filter_sublist.map _)
  · intro r hr
    obtain ⟨h1, h2⟩ := List.mem_filter.mp hr
    exact ⟨h1, by simpa using h2⟩
  · intro m hm
    obtain ⟨m0, _, rfl⟩ := List.mem_map.mp hm
    rfl

end Verif.Tx16
