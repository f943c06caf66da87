import Verif.MessageQueue.OpLemmas

/-! # Where a message sits after a failed transmission -/

namespace Verif.MQ

set_option linter.unusedSimpArgs false

/-- Where a message is after a failed transmission. -/
structure FailPos (s s' : St) (q : Q) (m : Msg) : Prop where
  tx : q = .tx → s'.nq = s.nq ∧ ∃ m2 : Msg, m2.uid = m.uid ∧ m2.iid = m.iid ∧ m2.txId = (s.prepare m).txId ∧ s'.txq = m2 :: s.txq.tail
  n : q = .normal → s'.txq = s.txq ∧ ∃ m2 : Msg, m2.uid = m.uid ∧ m2.iid = m.iid ∧ m2.txId = (s.prepare m).txId ∧
    s'.nq.Sublist (updFirst (fun x => x.allowed s.now s.accepted) (fun _ => m2) s.nq)

theorem FailPos.of {s z : St} {q : Q} {m : Msg}
    (tx : q = .tx → z.nq = s.nq ∧ ∃ m2 : Msg, m2.uid = m.uid ∧ m2.iid = m.iid ∧ m2.txId = (s.prepare m).txId ∧ z.txq = m2 :: s.txq.tail)
    (n : q = .normal → z.txq = s.txq ∧ ∃ m2 : Msg, m2.uid = m.uid ∧ m2.iid = m.iid ∧ m2.txId = (s.prepare m).txId ∧
      z.nq.Sublist (updFirst (fun x => x.allowed s.now s.accepted) (fun _ => m2) s.nq)) :
    FailPos s z.resetInFlight.clearNewMsg q m := by
  rw [clearNewMsg_eq]; exact ⟨tx, n⟩

theorem attempt_failed_pos (s : St) (q : Q) (m : Msg) : FailPos s (s.attempt q m false) q m := by
  unfold St.attempt
  simp only [Bool.false_eq_true, if_false]
  split
  · have h1 : ∀ b : Bool, (if b = true then { s.prepare m with offline := true } else s.prepare m).uid = m.uid := by
      intro b; cases b <;> rfl
    have h0 : ∀ b : Bool, (if b = true then { s.prepare m with offline := true } else s.prepare m).iid = m.iid := by
      intro b; cases b <;> rfl
    have h3 : ∀ b : Bool, (if b = true then { s.prepare m with offline := true } else s.prepare m).txId = (s.prepare m).txId := by
      intro b; cases b <;> rfl
    cases q
    · exact .of (fun h => by cases h) (fun _ => ⟨rfl, _, h1 _, h0 _, h3 _, .refl _⟩)
    · exact .of (fun _ => ⟨rfl, _, h1 _, h0 _, h3 _, rfl⟩) (fun h => by cases h)
  · split
    · cases q
      · exact .of (fun h => by cases h) (fun _ => ⟨rfl, s.prepare m, rfl, rfl, rfl, .refl _⟩)
      · exact .of (fun _ => ⟨rfl, s.prepare m, rfl, rfl, rfl, rfl⟩) (fun h => by cases h)
    · cases q
      · simp only
        unfold St.fulfil
        simp only
        split
        · simp only [Option.isSome_some, if_true]
          exact .of (fun h => by cases h) (fun _ => ⟨rfl, s.prepare m, rfl, rfl, rfl, .refl _⟩)
        · split
          · exact .of (fun h => by cases h) (fun _ => ⟨rfl, s.prepare m, rfl, rfl, rfl, .refl _⟩)
          · split
            · exact .of (fun h => by cases h) (fun _ => ⟨rfl, s.prepare m, rfl, rfl, rfl, .refl _⟩)
            · rename_i f rest hfr
              refine .of (fun h => by cases h) (fun _ => ⟨rfl, s.prepare m, rfl, rfl, rfl, ?_⟩)
              simp only [St.emit] at hfr ⊢
              rw [hfr]; exact List.sublist_cons_self _ _
      · exact .of (fun _ => ⟨rfl, s.prepare m, rfl, rfl, rfl, rfl⟩) (fun h => by cases h)

end Verif.MQ
