import Verif.Tx16.Lemmas

/-! Each step keeps the invariant. -/

namespace Verif.Tx16

set_option linter.unusedVariables false
set_option linter.constructorNameAsVariable false

theorem Inv.startInsert {s : S} (h : Inv s []) (c k : Nat) (r m : Int) (h1 : ∀ x ∈ s.rows, x.session ≠ k) (h2 : ∀ t ∈ s.active, t.conn ≠ c) :
    Inv (startInsert s c k r m) [] := by
  unfold Tx16.startInsert
  split
  · rename_i hpc
    have hi : insertRow s.rows { session := k, txId := r, conn := c, startMid := s.next, meterStart := m, meterLast := m } =
        s.rows ++ [{ session := k, txId := r, conn := c, startMid := s.next, meterStart := m, meterLast := m }] := by
      unfold insertRow; rw [if_neg]; simpa using h1
    simp only [hi]
    constructor
    case rowsNodup => have h_0 := h.rowsNodup; clear h; simp only [Dead, Tx16.eff] at *; grind
    case freshQ => have h_0 := h.freshQ; clear h; simp only [Dead, Tx16.eff] at *; grind
    case freshA => have h_0 := h.freshA; clear h; simp only [Dead, Tx16.eff] at *; grind
    case freshS => have h_0 := h.freshS; clear h; simp only [Dead, Tx16.eff] at *; grind
    case freshR => have h_0 := h.freshR; clear h; simp only [Dead, Tx16.eff] at *; grind
    case freshM => have h_0 := h.freshM; clear h; simp only [Dead, Tx16.eff] at *; grind
    case midNodup => have h_0 := h.midNodup; clear h; simp only [Dead, Tx16.eff] at *; grind
    case iidNodup => have h_0 := h.iidNodup; clear h; simp only [Dead, Tx16.eff] at *; grind
    case rowEx => have h_0 := h.rowEx; clear h; simp only [Dead, Tx16.eff] at *; grind
    case rowExA => have h_0 := h.rowExA; clear h; simp only [Dead, Tx16.eff] at *; grind
    case rowExS => have h_0 := h.rowExS; clear h; simp only [Dead, Tx16.eff] at *; grind
    case startA => have h_0 := h.startA; clear h; simp only [Dead, Tx16.eff] at *; grind
    case startS => have h_0 := h.startS; clear h; simp only [Dead, Tx16.eff] at *; grind
    case startR => have h_0 := h.startR; have h_1 := h.freshQ; have h_2 := h.rowEx; clear h; simp only [Dead, Tx16.eff] at *; grind
    case stopA => have h_0 := h.stopA; clear h; simp only [Dead, Tx16.eff] at *; grind
    case stopS => have h_0 := h.stopS; clear h; simp only [Dead, Tx16.eff] at *; grind
    case stopR => have h_0 := h.stopR; have h_1 := h.rowEx; clear h; simp only [Dead, Tx16.eff] at *; grind
    case actNodup => have h_0 := h.actNodup; clear h; simp only [Dead, Tx16.eff] at *; grind
    case conNodup => have h_0 := h.conNodup; clear h; simp only [Dead, Tx16.eff] at *; grind
    case stoNodup => have h_0 := h.stoNodup; clear h; simp only [Dead, Tx16.eff] at *; grind
    case disj => have h_0 := h.disj; clear h; simp only [Dead, Tx16.eff] at *; grind
    case known => have h_0 := h.known; have h_1 := h.rowEx; clear h; simp only [Dead, Tx16.eff] at *; grind
    case eff => have h_0 := h.eff; have h_1 := h.rowEx; clear h; simp only [Dead, Tx16.eff] at *; grind
    case actId => have h_0 := h.actId; have h_1 := h.rowExA; clear h; simp only [Dead, Tx16.eff] at *; grind
    case actNoStop => have h_0 := h.actNoStop; clear h; simp only [Dead, Tx16.eff] at *; grind
    case pcQueued => have h_0 := h.pcQueued; clear h; simp only [Dead, Tx16.eff] at *; grind
    case pcMarked => have h_0 := h.pcMarked; clear h; simp only [Dead, Tx16.eff] at *; grind
    case pcStarting => 
      intro t mid v ht
      simp only [Pc.starting.injEq] at ht
      obtain ⟨rfl, rfl, _⟩ := ht
      have h_0 := h.rowEx; have h_1 := h.rowExA; have h_2 := h.rowExS; have h_3 := h.freshQ; have h_4 := h.freshA; have h_5 := h.freshS
      have h_6 := h.freshR; have h_7 := h.logEx; have h_8 := h.logEx'
      clear h
      refine ⟨by simp, rfl, rfl, by simp, by grind, by grind, by grind, by grind, by grind, by grind⟩
    case stopOnceQ => have h_0 := h.stopOnceQ; clear h; simp only [Dead, Tx16.eff] at *; grind
    case stopOnceL => have h_0 := h.stopOnceL; clear h; simp only [Dead, Tx16.eff] at *; grind
    case stopOnce => have h_0 := h.stopOnce; clear h; simp only [Dead, Tx16.eff] at *; grind
    case startOnceQ => have h_0 := h.startOnceQ; clear h; simp only [Dead, Tx16.eff] at *; grind
    case startOnce => have h_0 := h.startOnce; clear h; simp only [Dead, Tx16.eff] at *; grind
    case ackd => have h_0 := h.ackd; have h_1 := h.logEx'; clear h; simp only [Dead, Tx16.eff] at *; grind
    case logEx => have h_0 := h.logEx; clear h; simp only [Dead, Tx16.eff] at *; grind
    case logEx' => have h_0 := h.logEx'; clear h; simp only [Dead, Tx16.eff] at *; grind
    case asg => have h_0 := h.asg; have h_1 := h.logEx; clear h; simp only [Dead, Tx16.eff] at *; grind
    case done => have h_0 := h.done; clear h; simp only [Dead, Tx16.eff] at *; grind
    case fifo => have h_0 := h.fifo; clear h; simp only [Dead, Tx16.eff] at *; grind
    case fifoL => have h_0 := h.fifoL; clear h; simp only [Dead, Tx16.eff] at *; grind
    case marked => have h_0 := h.marked; clear h; simp only [Dead, Tx16.eff] at *; grind
  · exact h

theorem Inv.startQueue {s : S} (h : Inv s []) : Inv (startQueue s) [] := by
  unfold Tx16.startQueue
  split
  · rename_i t mid meter hpc
    obtain ⟨p1, p2, p3, p4, p5, p6, p7, p8, p9, p10⟩ := h.pcStarting _ _ _ hpc
    have ha : addActive s.active { t with startMid := some mid } = { t with startMid := some mid } :: s.active := by
      unfold addActive; rw [List.filter_eq_self.mpr]; intro u hu; simpa using (p6 u hu).2.1
    simp only [ha]
    constructor
    case rowsNodup => have h_0 := h.rowsNodup; clear h; simp only [Dead, Tx16.eff, Tx.id] at *; grind
    case freshQ => have h_0 := h.freshQ; clear h; simp only [Dead, Tx16.eff, Tx.id] at *; grind
    case freshA => have h_0 := h.freshA; clear h; simp only [Dead, Tx16.eff, Tx.id] at *; grind
    case freshS => have h_0 := h.freshS; clear h; simp only [Dead, Tx16.eff, Tx.id] at *; grind
    case freshR => have h_0 := h.freshR; clear h; simp only [Dead, Tx16.eff, Tx.id] at *; grind
    case freshM => have h_0 := h.freshM; clear h; simp only [Dead, Tx16.eff, Tx.id] at *; grind
    case midNodup => have h_0 := h.midNodup; clear h; simp only [Dead, Tx16.eff, Tx.id] at *; grind
    case iidNodup => have h_0 := h.iidNodup; clear h; simp only [Dead, Tx16.eff, Tx.id] at *; grind
    case rowEx => have h_0 := h.rowEx; clear h; simp only [Dead, Tx16.eff, Tx.id] at *; grind
    case rowExA => have h_0 := h.rowExA; clear h; simp only [Dead, Tx16.eff, Tx.id] at *; grind
    case rowExS => have h_0 := h.rowExS; clear h; simp only [Dead, Tx16.eff, Tx.id] at *; grind
    case startA => have h_0 := h.startA; clear h; simp only [Dead, Tx16.eff, Tx.id] at *; grind
    case startS => have h_0 := h.startS; clear h; simp only [Dead, Tx16.eff, Tx.id] at *; grind
    case startR => have h_0 := h.startR; clear h; simp only [Dead, Tx16.eff, Tx.id] at *; grind
    case stopA => have h_0 := h.stopA; clear h; simp only [Dead, Tx16.eff, Tx.id] at *; grind
    case stopS => have h_0 := h.stopS; clear h; simp only [Dead, Tx16.eff, Tx.id] at *; grind
    case stopR => have h_0 := h.stopR; clear h; simp only [Dead, Tx16.eff, Tx.id] at *; grind
    case actNodup => have h_0 := h.actNodup; clear h; simp only [Dead, Tx16.eff, Tx.id] at *; grind
    case conNodup => have h_0 := h.conNodup; clear h; simp only [Dead, Tx16.eff, Tx.id] at *; grind
    case stoNodup => have h_0 := h.stoNodup; clear h; simp only [Dead, Tx16.eff, Tx.id] at *; grind
    case disj => have h_0 := h.disj; clear h; simp only [Dead, Tx16.eff, Tx.id] at *; grind
    case known => 
      intro m hm hs
      simp only [List.mem_append, List.mem_singleton] at hm
      rcases hm with hm | rfl
      · rcases h.known m hm hs with ⟨u, hu, he⟩ | ⟨u, hu, he⟩ | hd | ⟨r, hr, _⟩
        · exact .inl ⟨u, by simp [hu], he⟩
        · exact .inr (.inl ⟨u, hu, he⟩)
        · refine .inr (.inr (.inl ⟨hd.1, ?_, hd.2.2.1, ?_, by simp⟩))
          · have := hd.2.1; have := hd.2.2.2.2 _ _ _ hpc; grind
          · have := hd.2.2.2.1; grind
        · simp at hr
      · exact .inl ⟨{ t with startMid := some mid }, by simp, rfl⟩
    case eff => have h_0 := h.eff; clear h; simp only [Dead, Tx16.eff, Tx.id] at *; grind
    case actId => have h_0 := h.actId; clear h; simp only [Dead, Tx16.eff, Tx.id] at *; grind
    case actNoStop => have h_0 := h.actNoStop; clear h; simp only [Dead, Tx16.eff, Tx.id] at *; grind
    case pcQueued => have h_0 := h.pcQueued; clear h; simp only [Dead, Tx16.eff, Tx.id] at *; grind
    case pcMarked => have h_0 := h.pcMarked; clear h; simp only [Dead, Tx16.eff, Tx.id] at *; grind
    case pcStarting => have h_0 := h.pcStarting; clear h; simp only [Dead, Tx16.eff, Tx.id] at *; grind
    case stopOnceQ => have h_0 := h.stopOnceQ; clear h; simp only [Dead, Tx16.eff, Tx.id] at *; grind
    case stopOnceL => have h_0 := h.stopOnceL; clear h; simp only [Dead, Tx16.eff, Tx.id] at *; grind
    case stopOnce => have h_0 := h.stopOnce; clear h; simp only [Dead, Tx16.eff, Tx.id] at *; grind
    case startOnceQ => have h_0 := h.startOnceQ; clear h; simp only [Dead, Tx16.eff, Tx.id] at *; grind
    case startOnce => have h_0 := h.startOnce; clear h; simp only [Dead, Tx16.eff, Tx.id] at *; grind
    case ackd => have h_0 := h.ackd; clear h; simp only [Dead, Tx16.eff, Tx.id] at *; grind
    case logEx => have h_0 := h.logEx; clear h; simp only [Dead, Tx16.eff, Tx.id] at *; grind
    case logEx' => have h_0 := h.logEx'; clear h; simp only [Dead, Tx16.eff, Tx.id] at *; grind
    case asg => have h_0 := h.asg; clear h; simp only [Dead, Tx16.eff, Tx.id] at *; grind
    case done => have h_0 := h.done; clear h; simp only [Dead, Tx16.eff, Tx.id] at *; grind
    case fifo => have h_0 := h.fifo; clear h; simp only [Dead, Tx16.eff, Tx.id] at *; grind
    case fifoL => have h_0 := h.fifoL; clear h; simp only [Dead, Tx16.eff, Tx.id] at *; grind
    case marked => have h_0 := h.marked; clear h; simp only [Dead, Tx16.eff, Tx.id] at *; grind
  · exact h

theorem Inv.stopQueue {s : S} (h : Inv s []) (c : Nat) (v : Int) : Inv (stopQueue s c v) [] := by
  unfold Tx16.stopQueue
  split
  · rename_i hpc
    split
    · exact h
    · rename_i t ht
      have ht1 : t ∈ s.active := List.mem_of_find?_eq_some ht
      have ht2 : t.conn = c := by simpa using List.find?_some ht
      have hn := h.actNoStop t ht1 (by rw [hpc]; intros; simp)
      have hg : get s.map s.next = none := by
        unfold get; rw [Option.map_eq_none_iff, List.find?_eq_none]; intro p hp; have := h.freshM p hp; simp; omega
      have hinj := inj_of_nodup h.actNodup
      constructor
      case rowsNodup => have h_0 := h.rowsNodup; clear h; simp only [Dead, Tx16.eff, Tx.id] at *; grind
      case freshQ => have h_0 := h.freshQ; clear h; simp only [Dead, Tx16.eff, Tx.id] at *; grind
      case freshA => have h_0 := h.freshA; clear h; simp only [Dead, Tx16.eff, Tx.id] at *; grind
      case freshS => have h_0 := h.freshS; clear h; simp only [Dead, Tx16.eff, Tx.id] at *; grind
      case freshR => have h_0 := h.freshR; clear h; simp only [Dead, Tx16.eff, Tx.id] at *; grind
      case freshM => have h_0 := h.freshM; clear h; simp only [Dead, Tx16.eff, Tx.id] at *; grind
      case midNodup => have h_0 := h.midNodup; have h_1 := h.freshQ; clear h; simp only [Dead, Tx16.eff, Tx.id] at *; grind
      case iidNodup => have h_0 := h.iidNodup; have h_1 := h.freshQ; clear h; simp only [Dead, Tx16.eff, Tx.id] at *; grind
      case rowEx => have h_0 := h.rowEx; have h_1 := h.rowExA; clear h; simp only [Dead, Tx16.eff, Tx.id] at *; grind
      case rowExA => have h_0 := h.rowExA; clear h; simp only [Dead, Tx16.eff, Tx.id] at *; grind
      case rowExS => have h_0 := h.rowExS; clear h; simp only [Dead, Tx16.eff, Tx.id] at *; grind
      case startA => have h_0 := h.startA; clear h; simp only [Dead, Tx16.eff, Tx.id] at *; grind
      case startS => have h_0 := h.startS; clear h; simp only [Dead, Tx16.eff, Tx.id] at *; grind
      case startR => have h_0 := h.startR; clear h; simp only [Dead, Tx16.eff, Tx.id] at *; grind
      case stopA => have h_0 := h.stopA; have h_1 := h.freshA; clear h; simp only [Dead, Tx16.eff, Tx.id] at *; grind
      case stopS => have h_0 := h.stopS; have h_1 := h.freshS; clear h; simp only [Dead, Tx16.eff, Tx.id] at *; grind
      case stopR => have h_0 := h.stopR; have h_1 := h.freshR; clear h; simp only [Dead, Tx16.eff, Tx.id] at *; grind
      case actNodup => have h_0 := h.actNodup; clear h; simp only [Dead, Tx16.eff, Tx.id] at *; grind
      case conNodup => have h_0 := h.conNodup; clear h; simp only [Dead, Tx16.eff, Tx.id] at *; grind
      case stoNodup => have h_0 := h.stoNodup; clear h; simp only [Dead, Tx16.eff, Tx.id] at *; grind
      case disj => have h_0 := h.disj; clear h; simp only [Dead, Tx16.eff, Tx.id] at *; grind
      case known => have h_0 := h.known; clear h; simp only [Dead, Tx16.eff, Tx.id] at *; grind
      case eff => have h_0 := h.eff; have h_1 := h.actId; clear h; simp only [Dead, Tx16.eff, Tx.id] at *; grind
      case actId => have h_0 := h.actId; clear h; simp only [Dead, Tx16.eff, Tx.id] at *; grind
      case actNoStop => 
        intro u hu hq
        have hne : u.session ≠ t.session := fun e => by
          have := hinj u hu t ht1 e; subst this; exact hq _ _ _ (by rw [ht2])
        have := h.actNoStop u hu (by rw [hpc]; intros; simp)
        refine ⟨fun m hm hs => ?_, this.2⟩
        simp only [List.mem_append, List.mem_singleton] at hm
        rcases hm with hm | rfl
        · exact this.1 m hm hs
        · exact fun e => hne e.symm
      case pcQueued => have h_0 := h.pcQueued; have h_1 := h.freshQ; clear h; simp only [Dead, Tx16.eff, Tx.id] at *; grind
      case pcMarked => have h_0 := h.pcMarked; clear h; simp only [Dead, Tx16.eff, Tx.id] at *; grind
      case pcStarting => have h_0 := h.pcStarting; clear h; simp only [Dead, Tx16.eff, Tx.id] at *; grind
      case stopOnceQ => have h_0 := h.stopOnceQ; clear h; simp only [Dead, Tx16.eff, Tx.id] at *; grind
      case stopOnceL => have h_0 := h.stopOnceL; clear h; simp only [Dead, Tx16.eff, Tx.id] at *; grind
      case stopOnce => have h_0 := h.stopOnce; clear h; simp only [Dead, Tx16.eff, Tx.id] at *; grind
      case startOnceQ => have h_0 := h.startOnceQ; clear h; simp only [Dead, Tx16.eff, Tx.id] at *; grind
      case startOnce => have h_0 := h.startOnce; clear h; simp only [Dead, Tx16.eff, Tx.id] at *; grind
      case ackd => have h_0 := h.ackd; clear h; simp only [Dead, Tx16.eff, Tx.id] at *; grind
      case logEx => have h_0 := h.logEx; clear h; simp only [Dead, Tx16.eff, Tx.id] at *; grind
      case logEx' => have h_0 := h.logEx'; clear h; simp only [Dead, Tx16.eff, Tx.id] at *; grind
      case asg => have h_0 := h.asg; clear h; simp only [Dead, Tx16.eff, Tx.id] at *; grind
      case done => have h_0 := h.done; clear h; simp only [Dead, Tx16.eff, Tx.id] at *; grind
      case fifo => have h_0 := h.fifo; clear h; simp only [Dead, Tx16.eff, Tx.id] at *; grind
      case fifoL => have h_0 := h.fifoL; clear h; simp only [Dead, Tx16.eff, Tx.id] at *; grind
      case marked => 
        intro m hm m' hm' hs hs' he
        simp only [List.mem_append, List.mem_singleton] at hm hm'
        rcases hm' with hm' | rfl
        · rcases hm with hm | rfl
          · rcases h.marked m hm m' hm' hs hs' he with ⟨c', v', e⟩ | e
            · rw [hpc] at e; simp at e
            · exact .inr e
          · exact .inl ⟨c, v, rfl⟩
        · simp at hs'
  · exact h

theorem Inv.stopMark {s : S} (h : Inv s []) : Inv (stopMark s) [] := by
  unfold Tx16.stopMark
  split
  · rename_i c k mid v hpc
    obtain ⟨p1, ⟨t, ht1, ht2, ht3⟩, p3⟩ := h.pcQueued _ _ _ _ hpc
    have hf : s.active.filter (fun t => t.conn == c) = [t] := filter_conn h.conNodup ht1 ht2
    have hinj := inj_of_nodup h.actNodup
    simp only [hf, List.map_cons, List.map_nil]
    constructor
    case rowsNodup => have h_0 := h.rowsNodup; clear h; simp only [Dead, Tx16.eff] at *; grind
    case freshQ => have h_0 := h.freshQ; clear h; simp only [Dead, Tx16.eff] at *; grind
    case freshA => have h_0 := h.freshA; clear h; simp only [Dead, Tx16.eff] at *; grind
    case freshS => have h_0 := h.freshS; have h_1 := h.freshA; clear h; simp only [Dead, Tx16.eff] at *; grind
    case freshR => have h_0 := h.freshR; clear h; simp only [Dead, Tx16.eff] at *; grind
    case freshM => have h_0 := h.freshM; clear h; simp only [Dead, Tx16.eff] at *; grind
    case midNodup => have h_0 := h.midNodup; clear h; simp only [Dead, Tx16.eff] at *; grind
    case iidNodup => have h_0 := h.iidNodup; clear h; simp only [Dead, Tx16.eff] at *; grind
    case rowEx => have h_0 := h.rowEx; clear h; simp only [Dead, Tx16.eff] at *; grind
    case rowExA => have h_0 := h.rowExA; clear h; simp only [Dead, Tx16.eff] at *; grind
    case rowExS => have h_0 := h.rowExS; have h_1 := h.rowExA; clear h; simp only [Dead, Tx16.eff] at *; grind
    case startA => have h_0 := h.startA; clear h; simp only [Dead, Tx16.eff] at *; grind
    case startS => have h_0 := h.startS; have h_1 := h.startA; clear h; simp only [Dead, Tx16.eff] at *; grind
    case startR => have h_0 := h.startR; clear h; simp only [Dead, Tx16.eff] at *; grind
    case stopA => have h_0 := h.stopA; clear h; simp only [Dead, Tx16.eff] at *; grind
    case stopS => have h_0 := h.stopS; clear h; simp only [Dead, Tx16.eff] at *; grind
    case stopR => have h_0 := h.stopR; clear h; simp only [Dead, Tx16.eff] at *; grind
    case actNodup => have h_0 := h.actNodup; clear h; simp only [Dead, Tx16.eff] at *; grind
    case conNodup => have h_0 := h.conNodup; clear h; simp only [Dead, Tx16.eff] at *; grind
    case stoNodup => have h_0 := h.stoNodup; have h_1 := h.disj; clear h; simp only [Dead, Tx16.eff] at *; grind
    case disj => have h_0 := h.disj; have h_1 := h.actNodup; clear h; simp only [Dead, Tx16.eff] at *; grind
    case known => 
      intro m hm hs
      rcases h.known m hm hs with ⟨u, hu, he⟩ | ⟨u, hu, he⟩ | hd | ⟨r, hr, _⟩
      · by_cases hc : u.conn = c
        · have : u = t := inj_of_nodup h.conNodup u hu t ht1 (by rw [hc, ht2])
          subst this
          exact .inr (.inl ⟨{ u with finished := true, stopMid := some mid }, by simp, he⟩)
        · exact .inl ⟨u, by simp [hu, hc], he⟩
      · exact .inr (.inl ⟨u, by simp [hu], he⟩)
      · refine .inr (.inr (.inl ⟨hd.1, ?_, ?_, hd.2.2.2.1, by simp⟩))
        · have := hd.2.1; grind
        · have h1 := hd.2.1; have h2 := hd.2.2.1; grind
      · simp at hr
    case eff => have h_0 := h.eff; clear h; simp only [Dead, Tx16.eff] at *; grind
    case actId => have h_0 := h.actId; clear h; simp only [Dead, Tx16.eff] at *; grind
    case actNoStop => have h_0 := h.actNoStop; clear h; simp only [Dead, Tx16.eff] at *; grind
    case pcQueued => have h_0 := h.pcQueued; clear h; simp only [Dead, Tx16.eff] at *; grind
    case pcMarked => have h_0 := h.pcMarked; clear h; simp only [Dead, Tx16.eff] at *; grind
    case pcStarting => have h_0 := h.pcStarting; clear h; simp only [Dead, Tx16.eff] at *; grind
    case stopOnceQ => have h_0 := h.stopOnceQ; clear h; simp only [Dead, Tx16.eff] at *; grind
    case stopOnceL => have h_0 := h.stopOnceL; clear h; simp only [Dead, Tx16.eff] at *; grind
    case stopOnce => have h_0 := h.stopOnce; clear h; simp only [Dead, Tx16.eff] at *; grind
    case startOnceQ => have h_0 := h.startOnceQ; clear h; simp only [Dead, Tx16.eff] at *; grind
    case startOnce => have h_0 := h.startOnce; clear h; simp only [Dead, Tx16.eff] at *; grind
    case ackd => have h_0 := h.ackd; clear h; simp only [Dead, Tx16.eff] at *; grind
    case logEx => have h_0 := h.logEx; clear h; simp only [Dead, Tx16.eff] at *; grind
    case logEx' => have h_0 := h.logEx'; clear h; simp only [Dead, Tx16.eff] at *; grind
    case asg => have h_0 := h.asg; clear h; simp only [Dead, Tx16.eff] at *; grind
    case done => have h_0 := h.done; clear h; simp only [Dead, Tx16.eff] at *; grind
    case fifo => have h_0 := h.fifo; clear h; simp only [Dead, Tx16.eff] at *; grind
    case fifoL => have h_0 := h.fifoL; clear h; simp only [Dead, Tx16.eff] at *; grind
    case marked => 
      intro m hm m' hm' hs hs' he
      rcases h.marked m hm m' hm' hs hs' he with ⟨c', v', e⟩ | ⟨u, hu, e⟩
      · rw [hpc, Pc.queued.injEq] at e
        exact .inr ⟨{ t with finished := true, stopMid := some mid }, by simp, rfl, by rw [e.2.2.1], by rw [← e.2.1]; exact ht3⟩
      · exact .inr ⟨u, by simp [hu], e⟩
  · exact h

theorem Inv.stopStore {s : S} (h : Inv s []) : Inv (stopStore s) [] := by
  unfold Tx16.stopStore
  split
  · rename_i k mid v hpc
    obtain ⟨p1, p3⟩ := h.pcMarked _ _ _ hpc
    have hm := mem_ended s.rows k mid v
    have hs : (updateRow s.rows k (ended mid v)).map (·.session) = s.rows.map (·.session) := map_updateRow _ _ _ (fun _ => rfl)
    generalize updateRow s.rows k (ended mid v) = rows at *
    constructor
    case rowsNodup => have h_0 := h.rowsNodup; clear h; simp only [Dead, Tx16.eff] at *; grind
    case freshQ => have h_0 := h.freshQ; clear h; simp only [Dead, Tx16.eff] at *; grind
    case freshA => have h_0 := h.freshA; clear h; simp only [Dead, Tx16.eff] at *; grind
    case freshS => have h_0 := h.freshS; clear h; simp only [Dead, Tx16.eff] at *; grind
    case freshR => have h_0 := h.freshR; clear h; simp only [Dead, Tx16.eff] at *; grind
    case freshM => have h_0 := h.freshM; clear h; simp only [Dead, Tx16.eff] at *; grind
    case midNodup => have h_0 := h.midNodup; clear h; simp only [Dead, Tx16.eff] at *; grind
    case iidNodup => have h_0 := h.iidNodup; clear h; simp only [Dead, Tx16.eff] at *; grind
    case rowEx => have h_0 := h.rowEx; clear h; simp only [Dead, Tx16.eff] at *; grind
    case rowExA => have h_0 := h.rowExA; clear h; simp only [Dead, Tx16.eff] at *; grind
    case rowExS => have h_0 := h.rowExS; clear h; simp only [Dead, Tx16.eff] at *; grind
    case startA => have h_0 := h.startA; clear h; simp only [Dead, Tx16.eff] at *; grind
    case startS => have h_0 := h.startS; clear h; simp only [Dead, Tx16.eff] at *; grind
    case startR => have h_0 := h.startR; clear h; simp only [Dead, Tx16.eff] at *; grind
    case stopA => have h_0 := h.stopA; clear h; simp only [Dead, Tx16.eff] at *; grind
    case stopS => have h_0 := h.stopS; clear h; simp only [Dead, Tx16.eff] at *; grind
    case stopR => have h_0 := h.stopR; clear h; simp only [Dead, Tx16.eff] at *; grind
    case actNodup => have h_0 := h.actNodup; clear h; simp only [Dead, Tx16.eff] at *; grind
    case conNodup => have h_0 := h.conNodup; clear h; simp only [Dead, Tx16.eff] at *; grind
    case stoNodup => have h_0 := h.stoNodup; clear h; simp only [Dead, Tx16.eff] at *; grind
    case disj => have h_0 := h.disj; clear h; simp only [Dead, Tx16.eff] at *; grind
    case known => have h_0 := h.known; clear h; simp only [Dead, Tx16.eff] at *; grind
    case eff => have h_0 := h.eff; clear h; simp only [Dead, Tx16.eff] at *; grind
    case actId => have h_0 := h.actId; clear h; simp only [Dead, Tx16.eff] at *; grind
    case actNoStop => have h_0 := h.actNoStop; clear h; simp only [Dead, Tx16.eff] at *; grind
    case pcQueued => have h_0 := h.pcQueued; clear h; simp only [Dead, Tx16.eff] at *; grind
    case pcMarked => have h_0 := h.pcMarked; clear h; simp only [Dead, Tx16.eff] at *; grind
    case pcStarting => have h_0 := h.pcStarting; clear h; simp only [Dead, Tx16.eff] at *; grind
    case stopOnceQ => have h_0 := h.stopOnceQ; clear h; simp only [Dead, Tx16.eff] at *; grind
    case stopOnceL => have h_0 := h.stopOnceL; clear h; simp only [Dead, Tx16.eff] at *; grind
    case stopOnce => have h_0 := h.stopOnce; clear h; simp only [Dead, Tx16.eff] at *; grind
    case startOnceQ => have h_0 := h.startOnceQ; clear h; simp only [Dead, Tx16.eff] at *; grind
    case startOnce => have h_0 := h.startOnce; clear h; simp only [Dead, Tx16.eff] at *; grind
    case ackd => have h_0 := h.ackd; clear h; simp only [Dead, Tx16.eff] at *; grind
    case logEx => have h_0 := h.logEx; clear h; simp only [Dead, Tx16.eff] at *; grind
    case logEx' => have h_0 := h.logEx'; clear h; simp only [Dead, Tx16.eff] at *; grind
    case asg => have h_0 := h.asg; clear h; simp only [Dead, Tx16.eff] at *; grind
    case done => have h_0 := h.done; clear h; simp only [Dead, Tx16.eff] at *; grind
    case fifo => have h_0 := h.fifo; clear h; simp only [Dead, Tx16.eff] at *; grind
    case fifoL => have h_0 := h.fifoL; clear h; simp only [Dead, Tx16.eff] at *; grind
    case marked => have h_0 := h.marked; clear h; simp only [Dead, Tx16.eff] at *; grind
  · exact h

end Verif.Tx16
