import Verif.Tx16.Lemmas

/-! The handling of an answer keeps the invariant. -/

namespace Verif.Tx16

set_option linter.unusedVariables false
set_option linter.constructorNameAsVariable false

theorem Inv.deliverStop {s : S} (h : Inv s []) {m : Msg} {q : List Msg} (hq : s.queue = m :: q) (hm : m.stop = true) :
    Inv (stopConf { s with
      queue := q
      map := s.map.filter (fun p => p.1 != m.mid)
      log := s.log ++ [.stopped m.session ((get s.map m.mid).getD m.id) m.meter] } m.mid ((get s.map m.mid).getD m.id)) [] := by
  unfold stopConf
  have hr := mem_ack s.rows ((get s.map m.mid).getD m.id)
  have hr1 : (ack s.rows ((get s.map m.mid).getD m.id)).map (·.session) = s.rows.map (·.session) := map_ack _ _
  have he := h.eff m (by rw [hq]; simp) hm
  have hx : ∀ r ∈ s.rows, r.session = m.session → r.txId = (get s.map m.mid).getD m.id := he
  clear he
  have hg2 : ∀ x ∈ q, get (s.map.filter (fun p => p.1 != m.mid)) x.mid = get s.map x.mid := by
    intro x hx
    have := h.midNodup; rw [hq] at this; simp only [List.map_cons, List.nodup_cons, List.mem_map, not_exists, not_and] at this
    exact get_filter _ (this.1 x hx)
  have hso : ∀ m' ∈ q, m'.stop = true → m'.session ≠ m.session := by
    have := h.stopOnceQ
    rw [hq, List.filter_cons_of_pos (by simpa using hm), List.map_cons, List.nodup_cons] at this
    intro m' h1 h2 h3
    exact this.1 (by rw [← h3]; exact List.mem_map_of_mem (List.mem_filter.mpr ⟨h1, by simpa using h2⟩))
  have hsm : ∀ x ∈ q, x.mid ≠ m.mid := by
    have := h.midNodup; rw [hq] at this; simp only [List.map_cons, List.nodup_cons, List.mem_map, not_exists, not_and] at this
    exact this.1
  generalize (get s.map m.mid).getD m.id = id at *
  generalize ack s.rows id = rows at *
  constructor
  case rowsNodup => have h_0 := h.rowsNodup; clear h; simp only [Dead, Tx16.eff, Tx.id] at *; rw [hq] at *; simp only [List.forall_mem_cons, List.pairwise_cons, List.map_cons, List.nodup_cons] at *; grind
  case freshQ => have h_0 := h.freshQ; clear h; simp only [Dead, Tx16.eff, Tx.id] at *; rw [hq] at *; simp only [List.forall_mem_cons, List.pairwise_cons, List.map_cons, List.nodup_cons] at *; grind
  case freshA => have h_0 := h.freshA; clear h; simp only [Dead, Tx16.eff, Tx.id] at *; rw [hq] at *; simp only [List.forall_mem_cons, List.pairwise_cons, List.map_cons, List.nodup_cons] at *; grind
  case freshS => have h_0 := h.freshS; clear h; simp only [Dead, Tx16.eff, Tx.id] at *; rw [hq] at *; simp only [List.forall_mem_cons, List.pairwise_cons, List.map_cons, List.nodup_cons] at *; grind
  case freshR => have h_0 := h.freshR; clear h; simp only [Dead, Tx16.eff, Tx.id] at *; rw [hq] at *; simp only [List.forall_mem_cons, List.pairwise_cons, List.map_cons, List.nodup_cons] at *; grind
  case freshM => have h_0 := h.freshM; clear h; simp only [Dead, Tx16.eff, Tx.id] at *; rw [hq] at *; simp only [List.forall_mem_cons, List.pairwise_cons, List.map_cons, List.nodup_cons] at *; grind
  case midNodup => have h_0 := h.midNodup; clear h; simp only [Dead, Tx16.eff, Tx.id] at *; rw [hq] at *; simp only [List.forall_mem_cons, List.pairwise_cons, List.map_cons, List.nodup_cons] at *; grind
  case iidNodup => have h_0 := h.iidNodup; clear h; simp only [Dead, Tx16.eff, Tx.id] at *; rw [hq] at *; simp only [List.forall_mem_cons, List.pairwise_cons, List.map_cons, List.nodup_cons] at *; grind
  case rowEx => have h_0 := h.rowEx; clear h; simp only [Dead, Tx16.eff, Tx.id] at *; rw [hq] at *; simp only [List.forall_mem_cons, List.pairwise_cons, List.map_cons, List.nodup_cons] at *; grind
  case rowExA => have h_0 := h.rowExA; clear h; simp only [Dead, Tx16.eff, Tx.id] at *; rw [hq] at *; simp only [List.forall_mem_cons, List.pairwise_cons, List.map_cons, List.nodup_cons] at *; grind
  case rowExS => have h_0 := h.rowExS; clear h; simp only [Dead, Tx16.eff, Tx.id] at *; rw [hq] at *; simp only [List.forall_mem_cons, List.pairwise_cons, List.map_cons, List.nodup_cons] at *; grind
  case startA => have h_0 := h.startA; clear h; simp only [Dead, Tx16.eff, Tx.id] at *; rw [hq] at *; simp only [List.forall_mem_cons, List.pairwise_cons, List.map_cons, List.nodup_cons] at *; grind
  case startS => have h_0 := h.startS; clear h; simp only [Dead, Tx16.eff, Tx.id] at *; rw [hq] at *; simp only [List.forall_mem_cons, List.pairwise_cons, List.map_cons, List.nodup_cons] at *; grind
  case startR => have h_0 := h.startR; clear h; simp only [Dead, Tx16.eff, Tx.id] at *; rw [hq] at *; simp only [List.forall_mem_cons, List.pairwise_cons, List.map_cons, List.nodup_cons] at *; grind
  case stopA => have h_0 := h.stopA; clear h; simp only [Dead, Tx16.eff, Tx.id] at *; rw [hq] at *; simp only [List.forall_mem_cons, List.pairwise_cons, List.map_cons, List.nodup_cons] at *; grind
  case stopS => have h_0 := h.stopS; clear h; simp only [Dead, Tx16.eff, Tx.id] at *; rw [hq] at *; simp only [List.forall_mem_cons, List.pairwise_cons, List.map_cons, List.nodup_cons] at *; grind
  case stopR => have h_0 := h.stopR; clear h; simp only [Dead, Tx16.eff, Tx.id] at *; rw [hq] at *; simp only [List.forall_mem_cons, List.pairwise_cons, List.map_cons, List.nodup_cons] at *; grind
  case actNodup => have h_0 := h.actNodup; clear h; simp only [Dead, Tx16.eff, Tx.id] at *; rw [hq] at *; simp only [List.forall_mem_cons, List.pairwise_cons, List.map_cons, List.nodup_cons] at *; grind
  case conNodup => have h_0 := h.conNodup; clear h; simp only [Dead, Tx16.eff, Tx.id] at *; rw [hq] at *; simp only [List.forall_mem_cons, List.pairwise_cons, List.map_cons, List.nodup_cons] at *; grind
  case stoNodup => have h_0 := h.stoNodup; clear h; simp only [Dead, Tx16.eff, Tx.id] at *; rw [hq] at *; simp only [List.forall_mem_cons, List.pairwise_cons, List.map_cons, List.nodup_cons] at *; grind
  case disj => have h_0 := h.disj; clear h; simp only [Dead, Tx16.eff, Tx.id] at *; rw [hq] at *; simp only [List.forall_mem_cons, List.pairwise_cons, List.map_cons, List.nodup_cons] at *; grind
  case known => have h_0 := h.known; have h_1 := h.stopS; have h_2 := h.fifo; clear h; simp only [Dead, Tx16.eff, Tx.id] at *; rw [hq] at *; simp only [List.forall_mem_cons, List.pairwise_cons, List.map_cons, List.nodup_cons] at *; grind
  case eff => have h_0 := h.eff; clear h; simp only [Dead, Tx16.eff, Tx.id] at *; rw [hq] at *; simp only [List.forall_mem_cons, List.pairwise_cons, List.map_cons, List.nodup_cons] at *; grind
  case actId => have h_0 := h.actId; clear h; simp only [Dead, Tx16.eff, Tx.id] at *; rw [hq] at *; simp only [List.forall_mem_cons, List.pairwise_cons, List.map_cons, List.nodup_cons] at *; grind
  case actNoStop => have h_0 := h.actNoStop; have h_1 := h.stopOnce; have h_2 := h.pcQueued; clear h; simp only [Dead, Tx16.eff, Tx.id] at *; rw [hq] at *; simp only [List.forall_mem_cons, List.pairwise_cons, List.map_cons, List.nodup_cons] at *; grind
  case pcQueued => have h_0 := h.pcQueued; clear h; simp only [Dead, Tx16.eff, Tx.id] at *; rw [hq] at *; simp only [List.forall_mem_cons, List.pairwise_cons, List.map_cons, List.nodup_cons] at *; grind
  case pcMarked => have h_0 := h.pcMarked; clear h; simp only [Dead, Tx16.eff, Tx.id] at *; rw [hq] at *; simp only [List.forall_mem_cons, List.pairwise_cons, List.map_cons, List.nodup_cons] at *; grind
  case pcStarting => have h_0 := h.pcStarting; clear h; simp only [Dead, Tx16.eff, Tx.id] at *; rw [hq] at *; simp only [List.forall_mem_cons, List.pairwise_cons, List.map_cons, List.nodup_cons] at *; grind
  case stopOnceQ => have h_0 := h.stopOnceQ; clear h; simp only [Dead, Tx16.eff, Tx.id] at *; rw [hq] at *; simp only [List.forall_mem_cons, List.pairwise_cons, List.map_cons, List.nodup_cons] at *; grind
  case stopOnceL => 
    rw [stopsSeen_stopped, List.nodup_append]
    refine ⟨h.stopOnceL, by simp, ?_⟩
    intro a ha b hb e
    simp only [List.mem_singleton] at hb
    rw [e, hb] at ha
    obtain ⟨x, v, hx⟩ := (mem_stopsSeen _ _).mp ha
    exact h.stopOnce m (by rw [hq]; simp) hm x v hx
  case stopOnce => have h_0 := h.stopOnce; clear h; simp only [Dead, Tx16.eff, Tx.id] at *; rw [hq] at *; simp only [List.forall_mem_cons, List.pairwise_cons, List.map_cons, List.nodup_cons] at *; grind
  case startOnceQ => have h_0 := h.startOnceQ; clear h; simp only [Dead, Tx16.eff, Tx.id] at *; rw [hq] at *; simp only [List.forall_mem_cons, List.pairwise_cons, List.map_cons, List.nodup_cons] at *; grind
  case startOnce => have h_0 := h.startOnce; clear h; simp only [Dead, Tx16.eff, Tx.id] at *; rw [hq] at *; simp only [List.forall_mem_cons, List.pairwise_cons, List.map_cons, List.nodup_cons] at *; grind
  case ackd => have h_0 := h.ackd; clear h; simp only [Dead, Tx16.eff, Tx.id] at *; rw [hq] at *; simp only [List.forall_mem_cons, List.pairwise_cons, List.map_cons, List.nodup_cons] at *; grind
  case logEx => have h_0 := h.logEx; clear h; simp only [Dead, Tx16.eff, Tx.id] at *; rw [hq] at *; simp only [List.forall_mem_cons, List.pairwise_cons, List.map_cons, List.nodup_cons] at *; grind
  case logEx' => have h_0 := h.logEx'; have h_1 := h.rowEx; clear h; simp only [Dead, Tx16.eff, Tx.id] at *; rw [hq] at *; simp only [List.forall_mem_cons, List.pairwise_cons, List.map_cons, List.nodup_cons] at *; grind
  case asg => have h_0 := h.asg; have h_1 := h.actNoStop; clear h; simp only [Dead, Tx16.eff, Tx.id] at *; rw [hq] at *; simp only [List.forall_mem_cons, List.pairwise_cons, List.map_cons, List.nodup_cons] at *; grind
  case done => have h_0 := h.done; have h_1 := h.asg; have h_2 := h.rowEx; clear h; simp only [Dead, Tx16.eff, Tx.id] at *; rw [hq] at *; simp only [List.forall_mem_cons, List.pairwise_cons, List.map_cons, List.nodup_cons] at *; grind
  case fifo => have h_0 := h.fifo; clear h; simp only [Dead, Tx16.eff, Tx.id] at *; rw [hq] at *; simp only [List.forall_mem_cons, List.pairwise_cons, List.map_cons, List.nodup_cons] at *; grind
  case fifoL => have h_0 := h.fifoL; have h_1 := h.fifo; clear h; simp only [Dead, Tx16.eff, Tx.id] at *; rw [hq] at *; simp only [List.forall_mem_cons, List.pairwise_cons, List.map_cons, List.nodup_cons] at *; grind
  case marked => have h_0 := h.marked; clear h; simp only [Dead, Tx16.eff, Tx.id] at *; rw [hq] at *; simp only [List.forall_mem_cons, List.pairwise_cons, List.map_cons, List.nodup_cons] at *; grind

theorem Inv.deliverStart {s : S} (h : Inv s []) {m : Msg} {q : List Msg} (hq : s.queue = m :: q) (hm : m.stop = false) (n : Int)
    (hrace : ∀ c mid v, s.pc ≠ .queued c m.session mid v) :
    Inv (startConf { s with queue := q, log := s.log ++ [.assigned m.session n] } m.mid n) [] := by
  have hmq : m ∈ s.queue := by rw [hq]; simp
  have hb : byMid { s with queue := q, log := s.log ++ [.assigned m.session n] } m.mid = byMid s m.mid := rfl
  have hso : ∀ m' ∈ q, m'.stop = false → m'.session ≠ m.session := by
    have := h.startOnceQ
    rw [hq, List.filter_cons_of_pos (by simpa using hm), List.map_cons, List.nodup_cons] at this
    intro m' h1 h2 h3
    exact this.1 (by rw [← h3]; exact List.mem_map_of_mem (List.mem_filter.mpr ⟨h1, by simpa using h2⟩))
  have hno : ∀ x, Ev.assigned m.session x ∉ s.log := h.startOnce m hmq hm
  have hns : ∀ x v, Ev.stopped m.session x v ∉ s.log := h.fifoL m hmq hm
  unfold startConf
  rw [hb]
  cases ht : byMid s m.mid with
  | none =>
    have hd : Dead s m.session := by
      rcases h.known m hmq hm with ⟨u, hu, e⟩ | ⟨u, hu, e⟩ | hd | ⟨r, hr, _⟩
      · exact absurd e ((byMid_none h hmq hm ht).1 u hu)
      · exact absurd e ((byMid_none h hmq hm ht).2 u hu)
      · exact hd
      · simp at hr
    constructor
    case rowsNodup => have h_0 := h.rowsNodup; clear h; simp only [Dead, Tx16.eff, Tx.id] at *; rw [hq] at *; simp only [List.forall_mem_cons, List.pairwise_cons, List.map_cons, List.nodup_cons] at *; grind
    case freshQ => have h_0 := h.freshQ; clear h; simp only [Dead, Tx16.eff, Tx.id] at *; rw [hq] at *; simp only [List.forall_mem_cons, List.pairwise_cons, List.map_cons, List.nodup_cons] at *; grind
    case freshA => have h_0 := h.freshA; clear h; simp only [Dead, Tx16.eff, Tx.id] at *; rw [hq] at *; simp only [List.forall_mem_cons, List.pairwise_cons, List.map_cons, List.nodup_cons] at *; grind
    case freshS => have h_0 := h.freshS; clear h; simp only [Dead, Tx16.eff, Tx.id] at *; rw [hq] at *; simp only [List.forall_mem_cons, List.pairwise_cons, List.map_cons, List.nodup_cons] at *; grind
    case freshR => have h_0 := h.freshR; clear h; simp only [Dead, Tx16.eff, Tx.id] at *; rw [hq] at *; simp only [List.forall_mem_cons, List.pairwise_cons, List.map_cons, List.nodup_cons] at *; grind
    case freshM => have h_0 := h.freshM; clear h; simp only [Dead, Tx16.eff, Tx.id] at *; rw [hq] at *; simp only [List.forall_mem_cons, List.pairwise_cons, List.map_cons, List.nodup_cons] at *; grind
    case midNodup => have h_0 := h.midNodup; clear h; simp only [Dead, Tx16.eff, Tx.id] at *; rw [hq] at *; simp only [List.forall_mem_cons, List.pairwise_cons, List.map_cons, List.nodup_cons] at *; grind
    case iidNodup => have h_0 := h.iidNodup; clear h; simp only [Dead, Tx16.eff, Tx.id] at *; rw [hq] at *; simp only [List.forall_mem_cons, List.pairwise_cons, List.map_cons, List.nodup_cons] at *; grind
    case rowEx => have h_0 := h.rowEx; clear h; simp only [Dead, Tx16.eff, Tx.id] at *; rw [hq] at *; simp only [List.forall_mem_cons, List.pairwise_cons, List.map_cons, List.nodup_cons] at *; grind
    case rowExA => have h_0 := h.rowExA; clear h; simp only [Dead, Tx16.eff, Tx.id] at *; rw [hq] at *; simp only [List.forall_mem_cons, List.pairwise_cons, List.map_cons, List.nodup_cons] at *; grind
    case rowExS => have h_0 := h.rowExS; clear h; simp only [Dead, Tx16.eff, Tx.id] at *; rw [hq] at *; simp only [List.forall_mem_cons, List.pairwise_cons, List.map_cons, List.nodup_cons] at *; grind
    case startA => have h_0 := h.startA; clear h; simp only [Dead, Tx16.eff, Tx.id] at *; rw [hq] at *; simp only [List.forall_mem_cons, List.pairwise_cons, List.map_cons, List.nodup_cons] at *; grind
    case startS => have h_0 := h.startS; clear h; simp only [Dead, Tx16.eff, Tx.id] at *; rw [hq] at *; simp only [List.forall_mem_cons, List.pairwise_cons, List.map_cons, List.nodup_cons] at *; grind
    case startR => have h_0 := h.startR; clear h; simp only [Dead, Tx16.eff, Tx.id] at *; rw [hq] at *; simp only [List.forall_mem_cons, List.pairwise_cons, List.map_cons, List.nodup_cons] at *; grind
    case stopA => have h_0 := h.stopA; clear h; simp only [Dead, Tx16.eff, Tx.id] at *; rw [hq] at *; simp only [List.forall_mem_cons, List.pairwise_cons, List.map_cons, List.nodup_cons] at *; grind
    case stopS => have h_0 := h.stopS; clear h; simp only [Dead, Tx16.eff, Tx.id] at *; rw [hq] at *; simp only [List.forall_mem_cons, List.pairwise_cons, List.map_cons, List.nodup_cons] at *; grind
    case stopR => have h_0 := h.stopR; clear h; simp only [Dead, Tx16.eff, Tx.id] at *; rw [hq] at *; simp only [List.forall_mem_cons, List.pairwise_cons, List.map_cons, List.nodup_cons] at *; grind
    case actNodup => have h_0 := h.actNodup; clear h; simp only [Dead, Tx16.eff, Tx.id] at *; rw [hq] at *; simp only [List.forall_mem_cons, List.pairwise_cons, List.map_cons, List.nodup_cons] at *; grind
    case conNodup => have h_0 := h.conNodup; clear h; simp only [Dead, Tx16.eff, Tx.id] at *; rw [hq] at *; simp only [List.forall_mem_cons, List.pairwise_cons, List.map_cons, List.nodup_cons] at *; grind
    case stoNodup => have h_0 := h.stoNodup; clear h; simp only [Dead, Tx16.eff, Tx.id] at *; rw [hq] at *; simp only [List.forall_mem_cons, List.pairwise_cons, List.map_cons, List.nodup_cons] at *; grind
    case disj => have h_0 := h.disj; clear h; simp only [Dead, Tx16.eff, Tx.id] at *; rw [hq] at *; simp only [List.forall_mem_cons, List.pairwise_cons, List.map_cons, List.nodup_cons] at *; grind
    case known => have h_0 := h.known; clear h; simp only [Dead, Tx16.eff, Tx.id] at *; rw [hq] at *; simp only [List.forall_mem_cons, List.pairwise_cons, List.map_cons, List.nodup_cons] at *; grind
    case eff => have h_0 := h.eff; clear h; simp only [Dead, Tx16.eff, Tx.id] at *; rw [hq] at *; simp only [List.forall_mem_cons, List.pairwise_cons, List.map_cons, List.nodup_cons] at *; grind
    case actId => have h_0 := h.actId; clear h; simp only [Dead, Tx16.eff, Tx.id] at *; rw [hq] at *; simp only [List.forall_mem_cons, List.pairwise_cons, List.map_cons, List.nodup_cons] at *; grind
    case actNoStop => have h_0 := h.actNoStop; clear h; simp only [Dead, Tx16.eff, Tx.id] at *; rw [hq] at *; simp only [List.forall_mem_cons, List.pairwise_cons, List.map_cons, List.nodup_cons] at *; grind
    case pcQueued => have h_0 := h.pcQueued; clear h; simp only [Dead, Tx16.eff, Tx.id] at *; rw [hq] at *; simp only [List.forall_mem_cons, List.pairwise_cons, List.map_cons, List.nodup_cons] at *; grind
    case pcMarked => have h_0 := h.pcMarked; clear h; simp only [Dead, Tx16.eff, Tx.id] at *; rw [hq] at *; simp only [List.forall_mem_cons, List.pairwise_cons, List.map_cons, List.nodup_cons] at *; grind
    case pcStarting => have h_0 := h.pcStarting; clear h; simp only [Dead, Tx16.eff, Tx.id] at *; rw [hq] at *; simp only [List.forall_mem_cons, List.pairwise_cons, List.map_cons, List.nodup_cons] at *; grind
    case stopOnceQ => have h_0 := h.stopOnceQ; clear h; simp only [Dead, Tx16.eff, Tx.id] at *; rw [hq] at *; simp only [List.forall_mem_cons, List.pairwise_cons, List.map_cons, List.nodup_cons] at *; grind
    case stopOnceL => rw [stopsSeen_assigned]; exact h.stopOnceL
    case stopOnce => have h_0 := h.stopOnce; clear h; simp only [Dead, Tx16.eff, Tx.id] at *; rw [hq] at *; simp only [List.forall_mem_cons, List.pairwise_cons, List.map_cons, List.nodup_cons] at *; grind
    case startOnceQ => have h_0 := h.startOnceQ; clear h; simp only [Dead, Tx16.eff, Tx.id] at *; rw [hq] at *; simp only [List.forall_mem_cons, List.pairwise_cons, List.map_cons, List.nodup_cons] at *; grind
    case startOnce => have h_0 := h.startOnce; clear h; simp only [Dead, Tx16.eff, Tx.id] at *; rw [hq] at *; simp only [List.forall_mem_cons, List.pairwise_cons, List.map_cons, List.nodup_cons] at *; grind
    case ackd => have h_0 := h.ackd; clear h; simp only [Dead, Tx16.eff, Tx.id] at *; rw [hq] at *; simp only [List.forall_mem_cons, List.pairwise_cons, List.map_cons, List.nodup_cons] at *; grind
    case logEx => have h_0 := h.logEx; have h_1 := h.rowEx; clear h; simp only [Dead, Tx16.eff, Tx.id] at *; rw [hq] at *; simp only [List.forall_mem_cons, List.pairwise_cons, List.map_cons, List.nodup_cons] at *; grind
    case logEx' => have h_0 := h.logEx'; clear h; simp only [Dead, Tx16.eff, Tx.id] at *; rw [hq] at *; simp only [List.forall_mem_cons, List.pairwise_cons, List.map_cons, List.nodup_cons] at *; grind
    case asg => have h_0 := h.asg; clear h; simp only [Dead, Tx16.eff, Tx.id] at *; rw [hq] at *; simp only [List.forall_mem_cons, List.pairwise_cons, List.map_cons, List.nodup_cons] at *; grind
    case done => have h_0 := h.done; clear h; simp only [Dead, Tx16.eff, Tx.id] at *; rw [hq] at *; simp only [List.forall_mem_cons, List.pairwise_cons, List.map_cons, List.nodup_cons] at *; grind
    case fifo => have h_0 := h.fifo; clear h; simp only [Dead, Tx16.eff, Tx.id] at *; rw [hq] at *; simp only [List.forall_mem_cons, List.pairwise_cons, List.map_cons, List.nodup_cons] at *; grind
    case fifoL => have h_0 := h.fifoL; clear h; simp only [Dead, Tx16.eff, Tx.id] at *; rw [hq] at *; simp only [List.forall_mem_cons, List.pairwise_cons, List.map_cons, List.nodup_cons] at *; grind
    case marked => have h_0 := h.marked; clear h; simp only [Dead, Tx16.eff, Tx.id] at *; rw [hq] at *; simp only [List.forall_mem_cons, List.pairwise_cons, List.map_cons, List.nodup_cons] at *; grind
  | some t =>
    obtain ⟨hts, htm⟩ := byMid_session h hmq hm ht
    have hps : ∀ u mid v, s.pc = .starting u mid v → u.session ≠ m.session := fun u mid v hu e => ((h.pcStarting u mid v hu).2.2.2.2.2.2.2.1 m hmq).1 e.symm
    have hmk : ∀ x ∈ q, x.stop = true → x.session = m.session → t.finished = true ∧ t.stopMid = some x.mid := by
      intro x hx hxs he
      rcases h.marked x (by rw [hq]; simp [hx]) m hmq hxs hm he with ⟨c, v, e⟩ | ⟨u, hu, e1, e2, e3⟩
      · rw [he] at e; exact absurd e (hrace _ _ _)
      · have : t = u := by
          rcases htm with htm | htm
          · exact absurd (by rw [hts, e3, he]) (h.disj t htm u hu)
          · exact inj_of_nodup h.stoNodup t htm u hu (by rw [hts, e3, he])
        subst this; exact ⟨e1, e2⟩
    have hko : ∀ x ∈ q, x.stop = true → t.stopMid = some x.mid → x.session = m.session := by
      intro x hx hxs he
      rw [← hts]
      rcases htm with htm | htm
      · exact (h.stopA x (by rw [hq]; simp [hx]) hxs t htm he).symm
      · exact (h.stopS x (by rw [hq]; simp [hx]) hxs t htm he).symm
    have hfm : ∀ p ∈ register s.map t n, p.1 < s.next := by
      have h1 : ∀ k, t.stopMid = some k → k < s.next := by
        rcases htm with htm | htm
        · exact (h.freshA t htm).2
        · exact (h.freshS t htm).2
      have h2 := h.freshM
      unfold register; split <;> grind
    have hget : ∀ x ∈ q, x.stop = true → get (register s.map t n) x.mid = if x.session = m.session then some n else get s.map x.mid := by
      intro x hx hxs
      by_cases he : x.session = m.session
      · obtain ⟨e1, e2⟩ := hmk x hx hxs he
        simp [register, e1, e2, get, he]
      · have : t.stopMid ≠ some x.mid := fun e => he (hko x hx hxs e)
        rw [if_neg he]
        unfold register
        split
        · rename_i k _ hk
          unfold get
          rw [List.find?_cons_of_neg]
          simp only [beq_iff_eq]
          intro e; rw [e] at hk; exact this hk
        · rfl
    simp only [hts]
    generalize register s.map t n = map at *
    have ha := mem_assigned s.active m.session n
    have hs := mem_assigned s.stopped m.session n
    have hr := mem_renamed s.rows m.session n
    have ha1 : (updateTx s.active m.session (fun t => { t with txId := some n })).map (·.session) = s.active.map (·.session) :=
      map_updateTx _ _ _ _ (fun _ => rfl)
    have ha2 : (updateTx s.active m.session (fun t => { t with txId := some n })).map (·.conn) = s.active.map (·.conn) :=
      map_updateTx _ _ _ _ (fun _ => rfl)
    have hs1 : (updateTx s.stopped m.session (fun t => { t with txId := some n })).map (·.session) = s.stopped.map (·.session) :=
      map_updateTx _ _ _ _ (fun _ => rfl)
    have hr1 : (updateRow s.rows m.session (fun r => { r with txId := n })).map (·.session) = s.rows.map (·.session) :=
      map_updateRow _ _ _ (fun _ => rfl)
    generalize updateTx s.active m.session (fun t => { t with txId := some n }) = act at *
    generalize updateTx s.stopped m.session (fun t => { t with txId := some n }) = sto at *
    generalize updateRow s.rows m.session (fun r => { r with txId := n }) = rows at *
    constructor
    case rowsNodup => have h_0 := h.rowsNodup; clear h; simp only [Dead, Tx16.eff, Tx.id] at *; rw [hq] at *; simp only [List.forall_mem_cons, List.pairwise_cons, List.map_cons, List.nodup_cons] at *; grind
    case freshQ => have h_0 := h.freshQ; clear h; simp only [Dead, Tx16.eff, Tx.id] at *; rw [hq] at *; simp only [List.forall_mem_cons, List.pairwise_cons, List.map_cons, List.nodup_cons] at *; grind
    case freshA => have h_0 := h.freshA; clear h; simp only [Dead, Tx16.eff, Tx.id] at *; rw [hq] at *; simp only [List.forall_mem_cons, List.pairwise_cons, List.map_cons, List.nodup_cons] at *; grind
    case freshS => have h_0 := h.freshS; clear h; simp only [Dead, Tx16.eff, Tx.id] at *; rw [hq] at *; simp only [List.forall_mem_cons, List.pairwise_cons, List.map_cons, List.nodup_cons] at *; grind
    case freshR => have h_0 := h.freshR; clear h; simp only [Dead, Tx16.eff, Tx.id] at *; rw [hq] at *; simp only [List.forall_mem_cons, List.pairwise_cons, List.map_cons, List.nodup_cons] at *; grind
    case freshM => exact hfm
    case midNodup => have h_0 := h.midNodup; clear h; simp only [Dead, Tx16.eff, Tx.id] at *; rw [hq] at *; simp only [List.forall_mem_cons, List.pairwise_cons, List.map_cons, List.nodup_cons] at *; grind
    case iidNodup => have h_0 := h.iidNodup; clear h; simp only [Dead, Tx16.eff, Tx.id] at *; rw [hq] at *; simp only [List.forall_mem_cons, List.pairwise_cons, List.map_cons, List.nodup_cons] at *; grind
    case rowEx => have h_0 := h.rowEx; clear h; simp only [Dead, Tx16.eff, Tx.id] at *; rw [hq] at *; simp only [List.forall_mem_cons, List.pairwise_cons, List.map_cons, List.nodup_cons] at *; grind
    case rowExA => have h_0 := h.rowExA; clear h; simp only [Dead, Tx16.eff, Tx.id] at *; rw [hq] at *; simp only [List.forall_mem_cons, List.pairwise_cons, List.map_cons, List.nodup_cons] at *; grind
    case rowExS => have h_0 := h.rowExS; clear h; simp only [Dead, Tx16.eff, Tx.id] at *; rw [hq] at *; simp only [List.forall_mem_cons, List.pairwise_cons, List.map_cons, List.nodup_cons] at *; grind
    case startA => have h_0 := h.startA; clear h; simp only [Dead, Tx16.eff, Tx.id] at *; rw [hq] at *; simp only [List.forall_mem_cons, List.pairwise_cons, List.map_cons, List.nodup_cons] at *; grind
    case startS => have h_0 := h.startS; clear h; simp only [Dead, Tx16.eff, Tx.id] at *; rw [hq] at *; simp only [List.forall_mem_cons, List.pairwise_cons, List.map_cons, List.nodup_cons] at *; grind
    case startR => have h_0 := h.startR; clear h; simp only [Dead, Tx16.eff, Tx.id] at *; rw [hq] at *; simp only [List.forall_mem_cons, List.pairwise_cons, List.map_cons, List.nodup_cons] at *; grind
    case stopA => have h_0 := h.stopA; clear h; simp only [Dead, Tx16.eff, Tx.id] at *; rw [hq] at *; simp only [List.forall_mem_cons, List.pairwise_cons, List.map_cons, List.nodup_cons] at *; grind
    case stopS => have h_0 := h.stopS; clear h; simp only [Dead, Tx16.eff, Tx.id] at *; rw [hq] at *; simp only [List.forall_mem_cons, List.pairwise_cons, List.map_cons, List.nodup_cons] at *; grind
    case stopR => have h_0 := h.stopR; clear h; simp only [Dead, Tx16.eff, Tx.id] at *; rw [hq] at *; simp only [List.forall_mem_cons, List.pairwise_cons, List.map_cons, List.nodup_cons] at *; grind
    case actNodup => have h_0 := h.actNodup; clear h; simp only [Dead, Tx16.eff, Tx.id] at *; rw [hq] at *; simp only [List.forall_mem_cons, List.pairwise_cons, List.map_cons, List.nodup_cons] at *; grind
    case conNodup => have h_0 := h.conNodup; clear h; simp only [Dead, Tx16.eff, Tx.id] at *; rw [hq] at *; simp only [List.forall_mem_cons, List.pairwise_cons, List.map_cons, List.nodup_cons] at *; grind
    case stoNodup => have h_0 := h.stoNodup; clear h; simp only [Dead, Tx16.eff, Tx.id] at *; rw [hq] at *; simp only [List.forall_mem_cons, List.pairwise_cons, List.map_cons, List.nodup_cons] at *; grind
    case disj => have h_0 := h.disj; clear h; simp only [Dead, Tx16.eff, Tx.id] at *; rw [hq] at *; simp only [List.forall_mem_cons, List.pairwise_cons, List.map_cons, List.nodup_cons] at *; grind
    case known => have h_0 := h.known; clear h; simp only [Dead, Tx16.eff, Tx.id] at *; rw [hq] at *; simp only [List.forall_mem_cons, List.pairwise_cons, List.map_cons, List.nodup_cons] at *; grind
    case eff => 
      intro x hx hxs r hr' hrx
      obtain ⟨r0, h0, e1, e2, _⟩ := hr.1 r hr'
      have h3 := h.eff x (by rw [hq]; simp [hx]) hxs r0 h0 (by rw [← e1]; exact hrx)
      unfold Tx16.eff at h3 ⊢
      simp only [hget x hx hxs]
      by_cases hxm : x.session = m.session
      · rw [e2, if_pos (by rw [← e1, hrx, hxm]), if_pos hxm]; rfl
      · rw [e2, if_neg (by rw [← e1, hrx]; exact hxm), if_neg hxm]; exact h3
    case actId => have h_0 := h.actId; clear h; simp only [Dead, Tx16.eff, Tx.id] at *; rw [hq] at *; simp only [List.forall_mem_cons, List.pairwise_cons, List.map_cons, List.nodup_cons] at *; grind
    case actNoStop => have h_0 := h.actNoStop; clear h; simp only [Dead, Tx16.eff, Tx.id] at *; rw [hq] at *; simp only [List.forall_mem_cons, List.pairwise_cons, List.map_cons, List.nodup_cons] at *; grind
    case pcQueued => have h_0 := h.pcQueued; clear h; simp only [Dead, Tx16.eff, Tx.id] at *; rw [hq] at *; simp only [List.forall_mem_cons, List.pairwise_cons, List.map_cons, List.nodup_cons] at *; grind
    case pcMarked => have h_0 := h.pcMarked; clear h; simp only [Dead, Tx16.eff, Tx.id] at *; rw [hq] at *; simp only [List.forall_mem_cons, List.pairwise_cons, List.map_cons, List.nodup_cons] at *; grind
    case pcStarting => 
      intro u mid v hu
      obtain ⟨q1, q2, q3, q4, q5, q6, q7, q8, q9, q10⟩ := h.pcStarting u mid v hu
      have hne := hps u mid v hu
      rw [hq] at q8
      refine ⟨q1, q2, q3, ?_, ?_, ?_, ?_, ?_, ?_, ?_⟩ <;> clear h <;> grind
    case stopOnceQ => have h_0 := h.stopOnceQ; clear h; simp only [Dead, Tx16.eff, Tx.id] at *; rw [hq] at *; simp only [List.forall_mem_cons, List.pairwise_cons, List.map_cons, List.nodup_cons] at *; grind
    case stopOnceL => rw [stopsSeen_assigned]; exact h.stopOnceL
    case stopOnce => have h_0 := h.stopOnce; clear h; simp only [Dead, Tx16.eff, Tx.id] at *; rw [hq] at *; simp only [List.forall_mem_cons, List.pairwise_cons, List.map_cons, List.nodup_cons] at *; grind
    case startOnceQ => have h_0 := h.startOnceQ; clear h; simp only [Dead, Tx16.eff, Tx.id] at *; rw [hq] at *; simp only [List.forall_mem_cons, List.pairwise_cons, List.map_cons, List.nodup_cons] at *; grind
    case startOnce => have h_0 := h.startOnce; clear h; simp only [Dead, Tx16.eff, Tx.id] at *; rw [hq] at *; simp only [List.forall_mem_cons, List.pairwise_cons, List.map_cons, List.nodup_cons] at *; grind
    case ackd => have h_0 := h.ackd; clear h; simp only [Dead, Tx16.eff, Tx.id] at *; rw [hq] at *; simp only [List.forall_mem_cons, List.pairwise_cons, List.map_cons, List.nodup_cons] at *; grind
    case logEx => have h_0 := h.logEx; have h_1 := h.rowEx; clear h; simp only [Dead, Tx16.eff, Tx.id] at *; rw [hq] at *; simp only [List.forall_mem_cons, List.pairwise_cons, List.map_cons, List.nodup_cons] at *; grind
    case logEx' => have h_0 := h.logEx'; clear h; simp only [Dead, Tx16.eff, Tx.id] at *; rw [hq] at *; simp only [List.forall_mem_cons, List.pairwise_cons, List.map_cons, List.nodup_cons] at *; grind
    case asg => have h_0 := h.asg; clear h; simp only [Dead, Tx16.eff, Tx.id] at *; rw [hq] at *; simp only [List.forall_mem_cons, List.pairwise_cons, List.map_cons, List.nodup_cons] at *; grind
    case done => have h_0 := h.done; clear h; simp only [Dead, Tx16.eff, Tx.id] at *; rw [hq] at *; simp only [List.forall_mem_cons, List.pairwise_cons, List.map_cons, List.nodup_cons] at *; grind
    case fifo => have h_0 := h.fifo; clear h; simp only [Dead, Tx16.eff, Tx.id] at *; rw [hq] at *; simp only [List.forall_mem_cons, List.pairwise_cons, List.map_cons, List.nodup_cons] at *; grind
    case fifoL => have h_0 := h.fifoL; clear h; simp only [Dead, Tx16.eff, Tx.id] at *; rw [hq] at *; simp only [List.forall_mem_cons, List.pairwise_cons, List.map_cons, List.nodup_cons] at *; grind
    case marked => 
      intro x hx y hy hxs hys he
      rcases h.marked x (by rw [hq]; simp [hx]) y (by rw [hq]; simp [hy]) hxs hys he with hl | ⟨u, hu, e1, e2, e3⟩
      · exact .inl hl
      · obtain ⟨w, hw, f1, f2, f3, f4⟩ := hs.2 u hu
        exact .inr ⟨w, hw, by rw [f4]; exact e1, by rw [f3]; exact e2, by rw [f1]; exact e3⟩

end Verif.Tx16
