import Verif.Tx16.Lemmas

/-! Each step of the queue keeps the invariant. -/

namespace Verif.Tx16

set_option linter.unusedVariables false
set_option linter.constructorNameAsVariable false

theorem Inv.sample {s : S} (h : Inv s []) (c : Nat) (v : Int) : Inv (sample s c v) [] := by
  unfold Tx16.sample
  split
  · rename_i t _
    split
    · have hm := mem_sampled s.rows t.session v
      have hs : (updateRow s.rows t.session (fun r => { r with meterLast := v })).map (·.session) = s.rows.map (·.session) :=
        map_updateRow _ _ _ (fun _ => rfl)
      generalize updateRow s.rows t.session (fun r => { r with meterLast := v }) = rows at *
      constructor
      case rowsNodup => have h_0 := h.rowsNodup; clear h; simp only [Dead, Tx16.eff] at *; grind
      case freshQ => have h_0 := h.freshQ; clear h; simp only [Dead, Tx16.eff] at *; grind
      case freshA => have h_0 := h.freshA; clear h; simp only [Dead, Tx16.eff] at *; grind
      case freshS => have h_0 := h.freshS; clear h; simp only [Dead, Tx16.eff] at *; grind
      case freshR => have h_0 := h.freshR; clear h; simp only [Dead, Tx16.eff] at *; grind
      case freshM => have h_0 := h.freshM; clear h; simp only [Dead, Tx16.eff] at *; grind
      case midNodup => have h_0 := h.midNodup; clear h; simp only [Dead, Tx16.eff] at *; grind
      case iidNodup => have h_0 := h.iidNodup; clear h; simp only [Dead, Tx16.eff] at *; grind
      case rowEx => have h_0 := h.rowEx; clear h; simp only [Dead, Tx16.eff] at *; grind
      case rowExA => have h_0 := h.rowExA; clear h; simp only [Dead, Tx16.eff] at *; grind
      case rowExS => have h_0 := h.rowExS; clear h; simp only [Dead, Tx16.eff] at *; grind
      case startA => have h_0 := h.startA; clear h; simp only [Dead, Tx16.eff] at *; grind
      case startS => have h_0 := h.startS; clear h; simp only [Dead, Tx16.eff] at *; grind
      case startR => have h_0 := h.startR; clear h; simp only [Dead, Tx16.eff] at *; grind
      case stopA => have h_0 := h.stopA; clear h; simp only [Dead, Tx16.eff] at *; grind
      case stopS => have h_0 := h.stopS; clear h; simp only [Dead, Tx16.eff] at *; grind
      case stopR => have h_0 := h.stopR; clear h; simp only [Dead, Tx16.eff] at *; grind
      case actNodup => have h_0 := h.actNodup; clear h; simp only [Dead, Tx16.eff] at *; grind
      case conNodup => have h_0 := h.conNodup; clear h; simp only [Dead, Tx16.eff] at *; grind
      case stoNodup => have h_0 := h.stoNodup; clear h; simp only [Dead, Tx16.eff] at *; grind
      case disj => have h_0 := h.disj; clear h; simp only [Dead, Tx16.eff] at *; grind
      case known => have h_0 := h.known; clear h; simp only [Dead, Tx16.eff] at *; grind
      case eff => have h_0 := h.eff; clear h; simp only [Dead, Tx16.eff] at *; grind
      case actId => have h_0 := h.actId; clear h; simp only [Dead, Tx16.eff] at *; grind
      case actNoStop => have h_0 := h.actNoStop; clear h; simp only [Dead, Tx16.eff] at *; grind
      case pcQueued => have h_0 := h.pcQueued; clear h; simp only [Dead, Tx16.eff] at *; grind
      case pcMarked => have h_0 := h.pcMarked; clear h; simp only [Dead, Tx16.eff] at *; grind
      case pcStarting => have h_0 := h.pcStarting; clear h; simp only [Dead, Tx16.eff] at *; grind
      case stopOnceQ => have h_0 := h.stopOnceQ; clear h; simp only [Dead, Tx16.eff] at *; grind
      case stopOnceL => have h_0 := h.stopOnceL; clear h; simp only [Dead, Tx16.eff] at *; grind
      case stopOnce => have h_0 := h.stopOnce; clear h; simp only [Dead, Tx16.eff] at *; grind
      case startOnceQ => have h_0 := h.startOnceQ; clear h; simp only [Dead, Tx16.eff] at *; grind
      case startOnce => have h_0 := h.startOnce; clear h; simp only [Dead, Tx16.eff] at *; grind
      case ackd => have h_0 := h.ackd; clear h; simp only [Dead, Tx16.eff] at *; grind
      case logEx => have h_0 := h.logEx; clear h; simp only [Dead, Tx16.eff] at *; grind
      case logEx' => have h_0 := h.logEx'; clear h; simp only [Dead, Tx16.eff] at *; grind
      case asg => have h_0 := h.asg; clear h; simp only [Dead, Tx16.eff] at *; grind
      case done => have h_0 := h.done; clear h; simp only [Dead, Tx16.eff] at *; grind
      case fifo => have h_0 := h.fifo; clear h; simp only [Dead, Tx16.eff] at *; grind
      case fifoL => have h_0 := h.fifoL; clear h; simp only [Dead, Tx16.eff] at *; grind
      case marked => have h_0 := h.marked; clear h; simp only [Dead, Tx16.eff] at *; grind
    · exact h
  · exact h

theorem Inv.drop {s : S} (h : Inv s []) : Inv (drop s) [] := by
  unfold Tx16.drop
  cases hq : s.queue with
  | nil => simp only [List.tail_nil]; rw [← hq]; exact h
  | cons m q =>
    simp only [List.tail_cons]
    constructor
    case rowsNodup => have h_0 := h.rowsNodup; clear h; simp only [Dead, Tx16.eff] at *; rw [hq] at *; grind
    case freshQ => have h_0 := h.freshQ; clear h; simp only [Dead, Tx16.eff] at *; rw [hq] at *; grind
    case freshA => have h_0 := h.freshA; clear h; simp only [Dead, Tx16.eff] at *; rw [hq] at *; grind
    case freshS => have h_0 := h.freshS; clear h; simp only [Dead, Tx16.eff] at *; rw [hq] at *; grind
    case freshR => have h_0 := h.freshR; clear h; simp only [Dead, Tx16.eff] at *; rw [hq] at *; grind
    case freshM => have h_0 := h.freshM; clear h; simp only [Dead, Tx16.eff] at *; rw [hq] at *; grind
    case midNodup => have h_0 := h.midNodup; clear h; simp only [Dead, Tx16.eff] at *; rw [hq] at *; grind
    case iidNodup => have h_0 := h.iidNodup; clear h; simp only [Dead, Tx16.eff] at *; rw [hq] at *; grind
    case rowEx => have h_0 := h.rowEx; clear h; simp only [Dead, Tx16.eff] at *; rw [hq] at *; grind
    case rowExA => have h_0 := h.rowExA; clear h; simp only [Dead, Tx16.eff] at *; rw [hq] at *; grind
    case rowExS => have h_0 := h.rowExS; clear h; simp only [Dead, Tx16.eff] at *; rw [hq] at *; grind
    case startA => have h_0 := h.startA; clear h; simp only [Dead, Tx16.eff] at *; rw [hq] at *; grind
    case startS => have h_0 := h.startS; clear h; simp only [Dead, Tx16.eff] at *; rw [hq] at *; grind
    case startR => have h_0 := h.startR; clear h; simp only [Dead, Tx16.eff] at *; rw [hq] at *; grind
    case stopA => have h_0 := h.stopA; clear h; simp only [Dead, Tx16.eff] at *; rw [hq] at *; grind
    case stopS => have h_0 := h.stopS; clear h; simp only [Dead, Tx16.eff] at *; rw [hq] at *; grind
    case stopR => have h_0 := h.stopR; clear h; simp only [Dead, Tx16.eff] at *; rw [hq] at *; grind
    case actNodup => have h_0 := h.actNodup; clear h; simp only [Dead, Tx16.eff] at *; rw [hq] at *; grind
    case conNodup => have h_0 := h.conNodup; clear h; simp only [Dead, Tx16.eff] at *; rw [hq] at *; grind
    case stoNodup => have h_0 := h.stoNodup; clear h; simp only [Dead, Tx16.eff] at *; rw [hq] at *; grind
    case disj => have h_0 := h.disj; clear h; simp only [Dead, Tx16.eff] at *; rw [hq] at *; grind
    case known => have h_0 := h.known; clear h; simp only [Dead, Tx16.eff] at *; rw [hq] at *; grind
    case eff => have h_0 := h.eff; clear h; simp only [Dead, Tx16.eff] at *; rw [hq] at *; grind
    case actId => have h_0 := h.actId; clear h; simp only [Dead, Tx16.eff] at *; rw [hq] at *; grind
    case actNoStop => have h_0 := h.actNoStop; clear h; simp only [Dead, Tx16.eff] at *; rw [hq] at *; grind
    case pcQueued => have h_0 := h.pcQueued; clear h; simp only [Dead, Tx16.eff] at *; rw [hq] at *; grind
    case pcMarked => have h_0 := h.pcMarked; clear h; simp only [Dead, Tx16.eff] at *; rw [hq] at *; grind
    case pcStarting => have h_0 := h.pcStarting; clear h; simp only [Dead, Tx16.eff] at *; rw [hq] at *; grind
    case stopOnceQ => have h_0 := h.stopOnceQ; clear h; simp only [Dead, Tx16.eff] at *; rw [hq] at *; grind
    case stopOnceL => have h_0 := h.stopOnceL; clear h; simp only [Dead, Tx16.eff] at *; rw [hq] at *; grind
    case stopOnce => have h_0 := h.stopOnce; clear h; simp only [Dead, Tx16.eff] at *; rw [hq] at *; grind
    case startOnceQ => have h_0 := h.startOnceQ; clear h; simp only [Dead, Tx16.eff] at *; rw [hq] at *; grind
    case startOnce => have h_0 := h.startOnce; clear h; simp only [Dead, Tx16.eff] at *; rw [hq] at *; grind
    case ackd => have h_0 := h.ackd; clear h; simp only [Dead, Tx16.eff] at *; rw [hq] at *; grind
    case logEx => have h_0 := h.logEx; clear h; simp only [Dead, Tx16.eff] at *; rw [hq] at *; grind
    case logEx' => have h_0 := h.logEx'; clear h; simp only [Dead, Tx16.eff] at *; rw [hq] at *; grind
    case asg => have h_0 := h.asg; clear h; simp only [Dead, Tx16.eff] at *; rw [hq] at *; grind
    case done => have h_0 := h.done; clear h; simp only [Dead, Tx16.eff] at *; rw [hq] at *; grind
    case fifo => have h_0 := h.fifo; clear h; simp only [Dead, Tx16.eff] at *; rw [hq] at *; grind
    case fifoL => have h_0 := h.fifoL; clear h; simp only [Dead, Tx16.eff] at *; rw [hq] at *; grind
    case marked => have h_0 := h.marked; clear h; simp only [Dead, Tx16.eff] at *; rw [hq] at *; grind

theorem Inv.retryStop {s : S} (h : Inv s []) {m : Msg} {q : List Msg} (hq : s.queue = m :: q) (hm : m.stop = true) :
    Inv { s with
      queue := { m with mid := s.next, id := (get s.map m.mid).getD m.id } :: q
      map := s.map.filter (fun p => p.1 != m.mid)
      next := s.next + 1 } [] := by
  have hg : get (s.map.filter (fun p => p.1 != m.mid)) s.next = none := by
    unfold get; rw [Option.map_eq_none_iff, List.find?_eq_none]
    intro p hp; have := h.freshM p (List.mem_filter.mp hp |>.1); simp; omega
  have hg2 : ∀ x ∈ q, get (s.map.filter (fun p => p.1 != m.mid)) x.mid = get s.map x.mid := by
    intro x hx
    have := h.midNodup; rw [hq] at this; simp only [List.map_cons, List.nodup_cons, List.mem_map, not_exists, not_and] at this
    exact get_filter _ (this.1 x hx)
  constructor
  case rowsNodup => have h_0 := h.rowsNodup; clear h; simp only [Dead, Tx16.eff] at *; rw [hq] at *; simp only [List.forall_mem_cons, List.pairwise_cons] at *; grind
  case freshQ => have h_0 := h.freshQ; clear h; simp only [Dead, Tx16.eff] at *; rw [hq] at *; simp only [List.forall_mem_cons, List.pairwise_cons] at *; grind
  case freshA => have h_0 := h.freshA; clear h; simp only [Dead, Tx16.eff] at *; rw [hq] at *; simp only [List.forall_mem_cons, List.pairwise_cons] at *; grind
  case freshS => have h_0 := h.freshS; clear h; simp only [Dead, Tx16.eff] at *; rw [hq] at *; simp only [List.forall_mem_cons, List.pairwise_cons] at *; grind
  case freshR => have h_0 := h.freshR; clear h; simp only [Dead, Tx16.eff] at *; rw [hq] at *; simp only [List.forall_mem_cons, List.pairwise_cons] at *; grind
  case freshM => have h_0 := h.freshM; clear h; simp only [Dead, Tx16.eff] at *; rw [hq] at *; simp only [List.forall_mem_cons, List.pairwise_cons] at *; grind
  case midNodup => have h_0 := h.midNodup; have h_1 := h.freshQ; clear h; simp only [Dead, Tx16.eff] at *; rw [hq] at *; simp only [List.forall_mem_cons, List.pairwise_cons] at *; grind
  case iidNodup => have h_0 := h.iidNodup; clear h; simp only [Dead, Tx16.eff] at *; rw [hq] at *; simp only [List.forall_mem_cons, List.pairwise_cons] at *; grind
  case rowEx => have h_0 := h.rowEx; clear h; simp only [Dead, Tx16.eff] at *; rw [hq] at *; simp only [List.forall_mem_cons, List.pairwise_cons] at *; grind
  case rowExA => have h_0 := h.rowExA; clear h; simp only [Dead, Tx16.eff] at *; rw [hq] at *; simp only [List.forall_mem_cons, List.pairwise_cons] at *; grind
  case rowExS => have h_0 := h.rowExS; clear h; simp only [Dead, Tx16.eff] at *; rw [hq] at *; simp only [List.forall_mem_cons, List.pairwise_cons] at *; grind
  case startA => have h_0 := h.startA; have h_1 := h.freshA; clear h; simp only [Dead, Tx16.eff] at *; rw [hq] at *; simp only [List.forall_mem_cons, List.pairwise_cons] at *; grind
  case startS => have h_0 := h.startS; have h_1 := h.freshS; clear h; simp only [Dead, Tx16.eff] at *; rw [hq] at *; simp only [List.forall_mem_cons, List.pairwise_cons] at *; grind
  case startR => have h_0 := h.startR; clear h; simp only [Dead, Tx16.eff] at *; rw [hq] at *; simp only [List.forall_mem_cons, List.pairwise_cons] at *; grind
  case stopA => have h_0 := h.stopA; have h_1 := h.freshA; clear h; simp only [Dead, Tx16.eff] at *; rw [hq] at *; simp only [List.forall_mem_cons, List.pairwise_cons] at *; grind
  case stopS => have h_0 := h.stopS; have h_1 := h.freshS; clear h; simp only [Dead, Tx16.eff] at *; rw [hq] at *; simp only [List.forall_mem_cons, List.pairwise_cons] at *; grind
  case stopR => have h_0 := h.stopR; clear h; simp only [Dead, Tx16.eff] at *; rw [hq] at *; simp only [List.forall_mem_cons, List.pairwise_cons] at *; grind
  case actNodup => have h_0 := h.actNodup; clear h; simp only [Dead, Tx16.eff] at *; rw [hq] at *; simp only [List.forall_mem_cons, List.pairwise_cons] at *; grind
  case conNodup => have h_0 := h.conNodup; clear h; simp only [Dead, Tx16.eff] at *; rw [hq] at *; simp only [List.forall_mem_cons, List.pairwise_cons] at *; grind
  case stoNodup => have h_0 := h.stoNodup; clear h; simp only [Dead, Tx16.eff] at *; rw [hq] at *; simp only [List.forall_mem_cons, List.pairwise_cons] at *; grind
  case disj => have h_0 := h.disj; clear h; simp only [Dead, Tx16.eff] at *; rw [hq] at *; simp only [List.forall_mem_cons, List.pairwise_cons] at *; grind
  case known => have h_0 := h.known; clear h; simp only [Dead, Tx16.eff] at *; rw [hq] at *; simp only [List.forall_mem_cons, List.pairwise_cons] at *; grind
  case eff => have h_0 := h.eff; clear h; simp only [Dead, Tx16.eff] at *; rw [hq] at *; simp only [List.forall_mem_cons, List.pairwise_cons] at *; grind
  case actId => have h_0 := h.actId; clear h; simp only [Dead, Tx16.eff] at *; rw [hq] at *; simp only [List.forall_mem_cons, List.pairwise_cons] at *; grind
  case actNoStop => have h_0 := h.actNoStop; clear h; simp only [Dead, Tx16.eff] at *; rw [hq] at *; simp only [List.forall_mem_cons, List.pairwise_cons] at *; grind
  case pcQueued => have h_0 := h.pcQueued; clear h; simp only [Dead, Tx16.eff] at *; rw [hq] at *; simp only [List.forall_mem_cons, List.pairwise_cons] at *; grind
  case pcMarked => have h_0 := h.pcMarked; clear h; simp only [Dead, Tx16.eff] at *; rw [hq] at *; simp only [List.forall_mem_cons, List.pairwise_cons] at *; grind
  case pcStarting => have h_0 := h.pcStarting; clear h; simp only [Dead, Tx16.eff] at *; rw [hq] at *; simp only [List.forall_mem_cons, List.pairwise_cons] at *; grind
  case stopOnceQ => have h_0 := h.stopOnceQ; clear h; simp only [Dead, Tx16.eff] at *; rw [hq] at *; simp only [List.forall_mem_cons, List.pairwise_cons] at *; grind
  case stopOnceL => have h_0 := h.stopOnceL; clear h; simp only [Dead, Tx16.eff] at *; rw [hq] at *; simp only [List.forall_mem_cons, List.pairwise_cons] at *; grind
  case stopOnce => have h_0 := h.stopOnce; clear h; simp only [Dead, Tx16.eff] at *; rw [hq] at *; simp only [List.forall_mem_cons, List.pairwise_cons] at *; grind
  case startOnceQ => have h_0 := h.startOnceQ; clear h; simp only [Dead, Tx16.eff] at *; rw [hq] at *; simp only [List.forall_mem_cons, List.pairwise_cons] at *; grind
  case startOnce => have h_0 := h.startOnce; clear h; simp only [Dead, Tx16.eff] at *; rw [hq] at *; simp only [List.forall_mem_cons, List.pairwise_cons] at *; grind
  case ackd => have h_0 := h.ackd; clear h; simp only [Dead, Tx16.eff] at *; rw [hq] at *; simp only [List.forall_mem_cons, List.pairwise_cons] at *; grind
  case logEx => have h_0 := h.logEx; clear h; simp only [Dead, Tx16.eff] at *; rw [hq] at *; simp only [List.forall_mem_cons, List.pairwise_cons] at *; grind
  case logEx' => have h_0 := h.logEx'; clear h; simp only [Dead, Tx16.eff] at *; rw [hq] at *; simp only [List.forall_mem_cons, List.pairwise_cons] at *; grind
  case asg => have h_0 := h.asg; clear h; simp only [Dead, Tx16.eff] at *; rw [hq] at *; simp only [List.forall_mem_cons, List.pairwise_cons] at *; grind
  case done => have h_0 := h.done; clear h; simp only [Dead, Tx16.eff] at *; rw [hq] at *; simp only [List.forall_mem_cons, List.pairwise_cons] at *; grind
  case fifo => have h_0 := h.fifo; clear h; simp only [Dead, Tx16.eff] at *; rw [hq] at *; simp only [List.forall_mem_cons, List.pairwise_cons] at *; grind
  case fifoL => have h_0 := h.fifoL; clear h; simp only [Dead, Tx16.eff] at *; rw [hq] at *; simp only [List.forall_mem_cons, List.pairwise_cons] at *; grind
  case marked => have h_0 := h.marked; have h_1 := h.fifo; clear h; simp only [Dead, Tx16.eff] at *; rw [hq] at *; simp only [List.forall_mem_cons, List.pairwise_cons] at *; grind

theorem Inv.retryStart {s : S} (h : Inv s []) {m : Msg} {q : List Msg} (hq : s.queue = m :: q) (hm : m.stop = false) :
    Inv { s with
      queue := { m with mid := s.next } :: q
      next := s.next + 1
      active := renumber s m.mid s.active
      stopped := renumber s m.mid s.stopped } [] := by
  rw [renumber_active h (by rw [hq]; simp) hm, renumber_stopped h (by rw [hq]; simp) hm]
  have hso : ∀ m' ∈ q, m'.stop = false → m'.session ≠ m.session := by
    have := h.startOnceQ
    rw [hq, List.filter_cons_of_pos (by simpa using hm), List.map_cons, List.nodup_cons] at this
    intro m' h1 h2 h3
    exact this.1 (by rw [← h3]; exact List.mem_map_of_mem (List.mem_filter.mpr ⟨h1, by simpa using h2⟩))
  have ha := mem_retried s.active m.session s.next
  have hs := mem_retried s.stopped m.session s.next
  have ha1 : (updateTx s.active m.session (fun t => { t with startMid := some s.next })).map (·.session) = s.active.map (·.session) :=
    map_updateTx _ _ _ _ (fun _ => rfl)
  have ha2 : (updateTx s.active m.session (fun t => { t with startMid := some s.next })).map (·.conn) = s.active.map (·.conn) :=
    map_updateTx _ _ _ _ (fun _ => rfl)
  have hs1 : (updateTx s.stopped m.session (fun t => { t with startMid := some s.next })).map (·.session) = s.stopped.map (·.session) :=
    map_updateTx _ _ _ _ (fun _ => rfl)
  generalize updateTx s.active m.session (fun t => { t with startMid := some s.next }) = act at *
  generalize updateTx s.stopped m.session (fun t => { t with startMid := some s.next }) = sto at *
  constructor
  case rowsNodup => have h_0 := h.rowsNodup; clear h; simp only [Dead, Tx16.eff, Tx.id] at *; rw [hq] at *; simp only [List.forall_mem_cons, List.pairwise_cons] at *; grind
  case freshQ => have h_0 := h.freshQ; clear h; simp only [Dead, Tx16.eff, Tx.id] at *; rw [hq] at *; simp only [List.forall_mem_cons, List.pairwise_cons] at *; grind
  case freshA => have h_0 := h.freshA; clear h; simp only [Dead, Tx16.eff, Tx.id] at *; rw [hq] at *; simp only [List.forall_mem_cons, List.pairwise_cons] at *; grind
  case freshS => have h_0 := h.freshS; clear h; simp only [Dead, Tx16.eff, Tx.id] at *; rw [hq] at *; simp only [List.forall_mem_cons, List.pairwise_cons] at *; grind
  case freshR => have h_0 := h.freshR; clear h; simp only [Dead, Tx16.eff, Tx.id] at *; rw [hq] at *; simp only [List.forall_mem_cons, List.pairwise_cons] at *; grind
  case freshM => have h_0 := h.freshM; clear h; simp only [Dead, Tx16.eff, Tx.id] at *; rw [hq] at *; simp only [List.forall_mem_cons, List.pairwise_cons] at *; grind
  case midNodup => have h_0 := h.midNodup; have h_1 := h.freshQ; clear h; simp only [Dead, Tx16.eff, Tx.id] at *; rw [hq] at *; simp only [List.forall_mem_cons, List.pairwise_cons] at *; grind
  case iidNodup => have h_0 := h.iidNodup; clear h; simp only [Dead, Tx16.eff, Tx.id] at *; rw [hq] at *; simp only [List.forall_mem_cons, List.pairwise_cons] at *; grind
  case rowEx => have h_0 := h.rowEx; clear h; simp only [Dead, Tx16.eff, Tx.id] at *; rw [hq] at *; simp only [List.forall_mem_cons, List.pairwise_cons] at *; grind
  case rowExA => have h_0 := h.rowExA; clear h; simp only [Dead, Tx16.eff, Tx.id] at *; rw [hq] at *; simp only [List.forall_mem_cons, List.pairwise_cons] at *; grind
  case rowExS => have h_0 := h.rowExS; clear h; simp only [Dead, Tx16.eff, Tx.id] at *; rw [hq] at *; simp only [List.forall_mem_cons, List.pairwise_cons] at *; grind
  case startA => have h_0 := h.startA; have h_1 := h.freshQ; have h_2 := h.freshA; clear h; simp only [Dead, Tx16.eff, Tx.id] at *; rw [hq] at *; simp only [List.forall_mem_cons, List.pairwise_cons] at *; grind
  case startS => have h_0 := h.startS; have h_1 := h.freshQ; have h_2 := h.freshS; clear h; simp only [Dead, Tx16.eff, Tx.id] at *; rw [hq] at *; simp only [List.forall_mem_cons, List.pairwise_cons] at *; grind
  case startR => have h_0 := h.startR; clear h; simp only [Dead, Tx16.eff, Tx.id] at *; rw [hq] at *; simp only [List.forall_mem_cons, List.pairwise_cons] at *; grind
  case stopA => have h_0 := h.stopA; clear h; simp only [Dead, Tx16.eff, Tx.id] at *; rw [hq] at *; simp only [List.forall_mem_cons, List.pairwise_cons] at *; grind
  case stopS => have h_0 := h.stopS; clear h; simp only [Dead, Tx16.eff, Tx.id] at *; rw [hq] at *; simp only [List.forall_mem_cons, List.pairwise_cons] at *; grind
  case stopR => have h_0 := h.stopR; clear h; simp only [Dead, Tx16.eff, Tx.id] at *; rw [hq] at *; simp only [List.forall_mem_cons, List.pairwise_cons] at *; grind
  case actNodup => have h_0 := h.actNodup; clear h; simp only [Dead, Tx16.eff, Tx.id] at *; rw [hq] at *; simp only [List.forall_mem_cons, List.pairwise_cons] at *; grind
  case conNodup => have h_0 := h.conNodup; clear h; simp only [Dead, Tx16.eff, Tx.id] at *; rw [hq] at *; simp only [List.forall_mem_cons, List.pairwise_cons] at *; grind
  case stoNodup => have h_0 := h.stoNodup; clear h; simp only [Dead, Tx16.eff, Tx.id] at *; rw [hq] at *; simp only [List.forall_mem_cons, List.pairwise_cons] at *; grind
  case disj => have h_0 := h.disj; clear h; simp only [Dead, Tx16.eff, Tx.id] at *; rw [hq] at *; simp only [List.forall_mem_cons, List.pairwise_cons] at *; grind
  case known => have h_0 := h.known; clear h; simp only [Dead, Tx16.eff, Tx.id] at *; rw [hq] at *; simp only [List.forall_mem_cons, List.pairwise_cons] at *; grind
  case eff => have h_0 := h.eff; clear h; simp only [Dead, Tx16.eff, Tx.id] at *; rw [hq] at *; simp only [List.forall_mem_cons, List.pairwise_cons] at *; grind
  case actId => have h_0 := h.actId; clear h; simp only [Dead, Tx16.eff, Tx.id] at *; rw [hq] at *; simp only [List.forall_mem_cons, List.pairwise_cons] at *; grind
  case actNoStop => have h_0 := h.actNoStop; clear h; simp only [Dead, Tx16.eff, Tx.id] at *; rw [hq] at *; simp only [List.forall_mem_cons, List.pairwise_cons] at *; grind
  case pcQueued => have h_0 := h.pcQueued; clear h; simp only [Dead, Tx16.eff, Tx.id] at *; rw [hq] at *; simp only [List.forall_mem_cons, List.pairwise_cons] at *; grind
  case pcMarked => have h_0 := h.pcMarked; clear h; simp only [Dead, Tx16.eff, Tx.id] at *; rw [hq] at *; simp only [List.forall_mem_cons, List.pairwise_cons] at *; grind
  case pcStarting => have h_0 := h.pcStarting; clear h; simp only [Dead, Tx16.eff, Tx.id] at *; rw [hq] at *; simp only [List.forall_mem_cons, List.pairwise_cons] at *; grind
  case stopOnceQ => have h_0 := h.stopOnceQ; clear h; simp only [Dead, Tx16.eff, Tx.id] at *; rw [hq] at *; simp only [List.forall_mem_cons, List.pairwise_cons] at *; grind
  case stopOnceL => have h_0 := h.stopOnceL; clear h; simp only [Dead, Tx16.eff, Tx.id] at *; rw [hq] at *; simp only [List.forall_mem_cons, List.pairwise_cons] at *; grind
  case stopOnce => have h_0 := h.stopOnce; clear h; simp only [Dead, Tx16.eff, Tx.id] at *; rw [hq] at *; simp only [List.forall_mem_cons, List.pairwise_cons] at *; grind
  case startOnceQ => have h_0 := h.startOnceQ; clear h; simp only [Dead, Tx16.eff, Tx.id] at *; rw [hq] at *; simp only [List.forall_mem_cons, List.pairwise_cons] at *; grind
  case startOnce => have h_0 := h.startOnce; clear h; simp only [Dead, Tx16.eff, Tx.id] at *; rw [hq] at *; simp only [List.forall_mem_cons, List.pairwise_cons] at *; grind
  case ackd => have h_0 := h.ackd; clear h; simp only [Dead, Tx16.eff, Tx.id] at *; rw [hq] at *; simp only [List.forall_mem_cons, List.pairwise_cons] at *; grind
  case logEx => have h_0 := h.logEx; clear h; simp only [Dead, Tx16.eff, Tx.id] at *; rw [hq] at *; simp only [List.forall_mem_cons, List.pairwise_cons] at *; grind
  case logEx' => have h_0 := h.logEx'; clear h; simp only [Dead, Tx16.eff, Tx.id] at *; rw [hq] at *; simp only [List.forall_mem_cons, List.pairwise_cons] at *; grind
  case asg => have h_0 := h.asg; clear h; simp only [Dead, Tx16.eff, Tx.id] at *; rw [hq] at *; simp only [List.forall_mem_cons, List.pairwise_cons] at *; grind
  case done => have h_0 := h.done; clear h; simp only [Dead, Tx16.eff, Tx.id] at *; rw [hq] at *; simp only [List.forall_mem_cons, List.pairwise_cons] at *; grind
  case fifo => have h_0 := h.fifo; clear h; simp only [Dead, Tx16.eff, Tx.id] at *; rw [hq] at *; simp only [List.forall_mem_cons, List.pairwise_cons] at *; grind
  case fifoL => have h_0 := h.fifoL; clear h; simp only [Dead, Tx16.eff, Tx.id] at *; rw [hq] at *; simp only [List.forall_mem_cons, List.pairwise_cons] at *; grind
  case marked => have h_0 := h.marked; clear h; simp only [Dead, Tx16.eff, Tx.id] at *; rw [hq] at *; simp only [List.forall_mem_cons, List.pairwise_cons] at *; grind

end Verif.Tx16
