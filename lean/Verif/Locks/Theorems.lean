import Verif.Locks.Spec

/-!
C251.
-/

namespace Locks

/-! ### The table of sections -/

mutual
/-- A section inside a mutex of kind `c`, the last of the order that is held, keeps to the order. -/
def okIn (c : Cls) : Sec → Bool
  | .lock d inner => decide (rank c < rank d) && okAll d inner
  | .again d inner => decide (d = c) && recursive c && okAll c inner
  | .app => true
def okAll (c : Cls) : List Sec → Bool
  | [] => true
  | s :: l => okIn c s && okAll c l
end

/-- A section keeps to the order. -/
def okTop : Sec → Bool
  | .lock c inner => okAll c inner
  | .again _ _ => false
  | .app => true

theorem okAll_mem {c : Cls} : ∀ {l : List Sec}, okAll c l = true → ∀ s ∈ l, okIn c s = true
  | s :: l, h, x, hx => by
      simp only [okAll, Bool.and_eq_true] at h
      rcases List.mem_cons.mp hx with e | e
      · rw [e]; exact h.1
      · exact okAll_mem h.2 x e

def allOk : List Sec → Bool
  | [] => true
  | s :: l => okTop s && allOk l

theorem allOk_mem : ∀ {l : List Sec}, allOk l = true → ∀ s ∈ l, okTop s = true
  | s :: l, h, x, hx => by
      simp only [allOk, Bool.and_eq_true] at h
      rcases List.mem_cons.mp hx with e | e
      · rw [e]; exact h.1
      · exact allOk_mem h.2 x e

theorem all_ok : ∀ s ∈ all, okTop s = true := allOk_mem (by decide +kernel)

/-! ### Programs keep to the order -/

/-- The operations `p`, with `h` held at first, keep to the order and end with `r` held. -/
def Ordered : List Mx → List Op → List Mx → Prop
  | h, [], r => h = r
  | h, .acq m :: p, r => ((m ∈ h ∧ recursive m.cls = true) ∨ ∀ k ∈ h, rank k.cls < rank m.cls) ∧ Ordered (m :: h) p r
  | h, .rel m :: p, r => m ∈ h ∧ Ordered (h.erase m) p r
  | h, .act :: p, r => Ordered h p r

theorem Ordered.append : ∀ {p q : List Op} {h r t : List Mx}, Ordered h p r → Ordered r q t → Ordered h (p ++ q) t
  | [], _, _, _, _, h1, h2 => by simp only [Ordered] at h1; subst h1; exact h2
  | .acq _ :: _, _, _, _, _, h1, h2 => ⟨h1.1, Ordered.append h1.2 h2⟩
  | .rel _ :: _, _, _, _, _, h1, h2 => ⟨h1.1, Ordered.append h1.2 h2⟩
  | .act :: p, q, h, _, _, h1, h2 => by
      show Ordered h (p ++ q) _
      exact Ordered.append (show Ordered h p _ from h1) h2

/-- A section may be entered with `h` held. -/
def Fits (h : List Mx) (s : Sec) : Prop :=
  (∃ c, (∀ m ∈ h, rank m.cls ≤ rank c) ∧ okIn c s = true) ∨ (okTop s = true ∧ later h s)

theorem ordered_section {h : List Mx} {m : Mx} {p q : List Op} (h1 : (m ∈ h ∧ recursive m.cls = true) ∨ ∀ k ∈ h, rank k.cls < rank m.cls)
    (hq : Ordered (m :: h) q (m :: h)) (hp : Ordered h p h) : Ordered h (.acq m :: q ++ .rel m :: p) h := by
  refine ⟨h1, Ordered.append hq ⟨List.mem_cons_self, ?_⟩⟩
  rw [List.erase_cons_head]; exact hp

theorem code_ordered {h : List Mx} {items : Sec → Prop} {p : List Op} (hc : Code later h items p) : (∀ s, items s → Fits h s) → Ordered h p h := by
  induction hc with
  | done h items => intro _; rfl
  | act _ ih => intro hf; exact ih hf
  | @lock h items p q c inner n hi hn _ _ ihq ihp =>
      intro hf
      have hfit := hf _ hi
      have hacq : ((⟨c, n⟩ : Mx) ∈ h ∧ recursive c = true) ∨ ∀ k ∈ h, rank k.cls < rank c := by
        rcases hfit with ⟨d, hd, ok⟩ | ⟨_, hl⟩
        · simp only [okIn, Bool.and_eq_true, decide_eq_true_eq] at ok
          exact Or.inr fun k hk => Nat.lt_of_le_of_lt (hd k hk) ok.1
        · by_cases hx : ∃ m ∈ h, m = (⟨c, 0⟩ : Mx) ∧ recursive c = true ∧ single c = true
          · obtain ⟨m, hm, e, hr, hs⟩ := hx
            rw [hn hs]; exact Or.inl ⟨e ▸ hm, hr⟩
          · exact Or.inr fun k hk => (hl k hk).resolve_right fun hh => hx ⟨k, hk, hh⟩
      have hle : ∀ m ∈ h, rank m.cls ≤ rank c := by
        rcases hfit with ⟨d, hd, ok⟩ | ⟨_, hl⟩
        · simp only [okIn, Bool.and_eq_true, decide_eq_true_eq] at ok
          exact fun k hk => Nat.le_of_lt (Nat.lt_of_le_of_lt (hd k hk) ok.1)
        · intro k hk
          rcases hl k hk with hh | ⟨e, _⟩
          · exact Nat.le_of_lt hh
          · rw [e]; exact Nat.le_refl _
      have hin : okAll c inner = true := by
        rcases hfit with ⟨d, hd, ok⟩ | ⟨ok, _⟩
        · simp only [okIn, Bool.and_eq_true] at ok; exact ok.2
        · exact ok
      refine ordered_section hacq (ihq fun s hs => Or.inl ⟨c, ?_, okAll_mem hin s hs⟩) (ihp hf)
      intro m hm
      rcases List.mem_cons.mp hm with e | hm
      · rw [e]; exact Nat.le_refl _
      · exact hle m hm
  | @again h items p q c inner n hi hm _ _ ihq ihp =>
      intro hf
      rcases hf _ hi with ⟨d, hd, ok⟩ | ⟨ok, _⟩
      · simp only [okIn, Bool.and_eq_true, decide_eq_true_eq] at ok
        obtain ⟨⟨e, hr⟩, hin⟩ := ok
        subst e
        refine ordered_section (Or.inl ⟨hm, hr⟩) (ihq fun s hs => Or.inl ⟨c, ?_, okAll_mem hin s hs⟩) (ihp hf)
        intro m hm
        rcases List.mem_cons.mp hm with e | hm
        · rw [e]; exact Nat.le_refl _
        · exact hd m hm
      · simp [okTop] at ok
  | @app h items p q _ _ _ ihq ihp =>
      intro hf
      exact Ordered.append (ihq fun s hs => Or.inr ⟨all_ok s hs.1, hs.2⟩) (ihp hf)

theorem ordered_named {m : Mx} {items : Sec → Prop} {p : List Op} (hc : Code later [m] items p) (hf : ∀ s, items s → Fits [m] s) :
    Ordered [m] (p ++ [.rel m]) [] :=
  Ordered.append (code_ordered hc hf) ⟨List.mem_cons_self, by rw [List.erase_cons_head]; rfl⟩

theorem fits_own {m : Mx} {l : List Sec} (h : okAll m.cls l = true) : ∀ s, s ∈ l → Fits [m] s := fun s hs =>
  Or.inl ⟨m.cls, fun k hk => by rw [List.mem_singleton.mp hk]; exact Nat.le_refl _, okAll_mem h s hs⟩

theorem proper_ordered {t : Thread} (h : Proper later t) : Ordered t.held t.prog [] := by
  cases h with
  | free hc => exact code_ordered hc fun s hs => Or.inr ⟨all_ok s hs, by cases s <;> simp [later]; exact absurd (all_ok _ hs) (by simp [okTop])⟩
  | recv n hc => exact ordered_named hc fun s hs => Or.inr ⟨all_ok s hs.1, hs.2⟩
  | deferred n hc => exact ordered_named hc fun s hs => Or.inr ⟨all_ok s hs.1, hs.2⟩
  | client n hc => exact ordered_named hc (fits_own (show okAll .endClient client = true by decide +kernel))
  | worker n hc => exact ordered_named hc (fits_own (show okAll .endQueue [worker] = true by decide +kernel))
  | cleanup n hc => exact ordered_named hc (fits_own (show okAll .endCleanup [cacheCleanup] = true by decide +kernel))
  | ocsp n hc => exact ordered_named hc (fits_own (show okAll .endOcsp [ocspUpdate] = true by decide +kernel))

/-! ### Threads that keep to the order -/

/-- All threads keep to the order, and no mutex is held by two of them. -/
def Inv (s : List Thread) : Prop := (∀ t ∈ s, Ordered t.held t.prog []) ∧ Distinct s

theorem distinct_replace {a b : List Thread} {t t' : Thread} (h : Distinct (a ++ t :: b))
    (hm : ∀ m ∈ t'.held, m ∈ t.held ∨ ∀ x ∈ a ++ b, m ∉ x.held) : Distinct (a ++ t' :: b) := by
  unfold Distinct at h ⊢
  rw [List.pairwise_append, List.pairwise_cons] at h ⊢
  obtain ⟨ha, ⟨htb, hb⟩, hab⟩ := h
  refine ⟨ha, ⟨fun x hx m hmem => ?_, hb⟩, fun x hx y hy => ?_⟩
  · rcases hm m hmem with h' | h'
    · exact htb x hx m h'
    · exact h' x (List.mem_append_right _ hx)
  · rcases List.mem_cons.mp hy with e | hy'
    · subst e
      intro m hmx hmy
      rcases hm m hmy with h' | h'
      · exact hab x hx t List.mem_cons_self m hmx h'
      · exact h' x (List.mem_append_left _ hx) hmx
    · exact hab x hx y (List.mem_cons_of_mem _ hy')

theorem ordered_replace {a b : List Thread} {t t' : Thread} (h : ∀ x ∈ a ++ t :: b, Ordered x.held x.prog [])
    (ht : Ordered t'.held t'.prog []) : ∀ x ∈ a ++ t' :: b, Ordered x.held x.prog [] := by
  intro x hx
  rcases List.mem_append.mp hx with hx | hx
  · exact h x (List.mem_append_left _ hx)
  · rcases List.mem_cons.mp hx with e | hx
    · rw [e]; exact ht
    · exact h x (List.mem_append_right _ (List.mem_cons_of_mem _ hx))

theorem mid {a b : List Thread} {t : Thread} : t ∈ a ++ t :: b := List.mem_append_right _ List.mem_cons_self

theorem step_inv {s s' : List Thread} (h : Inv s) (hs : Step s s') : Inv s' := by
  cases hs with
  | acq a b hd p m others self =>
      refine ⟨ordered_replace h.1 (h.1 _ mid).2, distinct_replace h.2 fun k hk => ?_⟩
      rcases List.mem_cons.mp hk with e | hk
      · rw [e]; exact Or.inr others
      · exact Or.inl hk
  | rel a b hd p m =>
      exact ⟨ordered_replace h.1 (h.1 _ mid).2, distinct_replace h.2 fun k hk => Or.inl (List.mem_of_mem_erase hk)⟩
  | act a b hd p =>
      have ht : Ordered hd (.act :: p) [] := h.1 _ (mid (a := a) (t := ⟨hd, .act :: p⟩) (b := b))
      exact ⟨ordered_replace h.1 (show Ordered hd p [] from ht), distinct_replace h.2 fun k hk => Or.inl hk⟩

theorem size_append (a b : List Thread) : size (a ++ b) = size a + size b := by
  induction a with
  | nil => simp [size]
  | cons t a ih => simp only [List.cons_append, size, ih]; omega

theorem step_size {s s' : List Thread} (hs : Step s s') : size s = size s' + 1 := by
  cases hs <;> simp only [size_append, size, List.length_cons] <;> omega

theorem run_inv {s0 s : List Thread} {n : Nat} (hr : Run s0 n s) (h : Inv s0) : Inv s ∧ n + size s = size s0 := by
  induction hr with
  | refl => exact ⟨h, by simp⟩
  | step _ hs ih => obtain ⟨hi, he⟩ := ih; have := step_size hs; exact ⟨step_inv hi hs, by omega⟩

theorem excl {a b : List Thread} {t : Thread} (h : Distinct (a ++ t :: b)) {m : Mx} (hm : m ∈ t.held) : ∀ x ∈ a ++ b, m ∉ x.held := by
  unfold Distinct at h
  rw [List.pairwise_append, List.pairwise_cons] at h
  obtain ⟨_, ⟨htb, _⟩, hab⟩ := h
  intro x hx hmx
  rcases List.mem_append.mp hx with hx | hx
  · exact hab x hx t List.mem_cons_self m hmx hm
  · exact htb x hx m hm hmx

theorem mem_mid {a b : List Thread} {t x : Thread} (h : x ∈ a ++ b) : x ∈ a ++ t :: b := by
  rcases List.mem_append.mp h with h | h
  · exact List.mem_append_left _ h
  · exact List.mem_append_right _ (List.mem_cons_of_mem _ h)

/-- A thread that can do nothing waits for a mutex later than all it has. -/
theorem waiting {s : List Thread} (h : Inv s) (hno : ¬ ∃ s', Step s s') {t : Thread} (ht : t ∈ s) (hp : t.prog ≠ []) :
    ∃ m p, t.prog = .acq m :: p ∧ (∀ k ∈ t.held, rank k.cls < rank m.cls) ∧ ∃ t' ∈ s, m ∈ t'.held := by
  obtain ⟨a, b, rfl⟩ := List.append_of_mem ht
  obtain ⟨hd, prog⟩ := t
  cases prog with
  | nil => exact absurd rfl hp
  | cons o p =>
    cases o with
    | act => exact absurd ⟨_, Step.act a b hd p⟩ hno
    | rel m => exact absurd ⟨_, Step.rel a b hd p m⟩ hno
    | acq m =>
      obtain ⟨hor, _⟩ : (_ ∨ _) ∧ Ordered (m :: hd) p [] := h.1 _ mid
      by_cases hm : m ∈ hd
      · rcases hor with ⟨_, hr⟩ | hlt
        · exact absurd ⟨_, Step.acq a b hd p m (excl h.2 hm) fun _ => hr⟩ hno
        · exact absurd (hlt m hm) (Nat.lt_irrefl _)
      · have hlt : ∀ k ∈ hd, rank k.cls < rank m.cls := hor.resolve_left fun hh => hm hh.1
        refine ⟨m, p, rfl, hlt, ?_⟩
        by_cases hx : ∃ x ∈ a ++ b, m ∈ x.held
        · obtain ⟨x, hx, hmx⟩ := hx; exact ⟨x, mem_mid hx, hmx⟩
        · exact absurd ⟨_, Step.acq a b hd p m (fun x hx' hmx => hx ⟨x, hx', hmx⟩) fun hh => absurd hh hm⟩ hno

theorem rank_le (c : Cls) : rank c ≤ 30 := by cases c <;> decide

theorem progress {s : List Thread} (h : Inv s) : Finished s ∨ ∃ s', Step s s' := by
  by_cases hno : ∃ s', Step s s'
  · exact Or.inr hno
  · refine Or.inl fun t ht => ?_
    by_cases hp : t.prog = []
    · exact hp
    · exfalso
      have key : ∀ k : Nat, ∃ x ∈ s, ∃ m p, x.prog = .acq m :: p ∧ k ≤ rank m.cls ∧ ∃ t' ∈ s, m ∈ t'.held := by
        intro k
        induction k with
        | zero => obtain ⟨m, p, e, _, hh⟩ := waiting h hno ht hp; exact ⟨t, ht, m, p, e, Nat.zero_le _, hh⟩
        | succ k ih =>
          obtain ⟨x, _, m, p, _, hk, y, hy, hmy⟩ := ih
          have hyp : y.prog ≠ [] := by
            intro e
            have := h.1 y hy
            rw [e] at this
            simp only [Ordered] at this
            rw [this] at hmy; cases hmy
          obtain ⟨m', p', e', hlt, hh⟩ := waiting h hno hy hyp
          exact ⟨y, hy, m', p', e', Nat.lt_of_le_of_lt hk (hlt m hmy), hh⟩
      obtain ⟨_, _, m, _, _, hk, _⟩ := key 31
      have := rank_le m.cls
      omega

/-- C251: with any number of threads, calls and interleavings no calls wait for each other for ever, and all of them return, if
callbacks of the application, and the threads that handle received messages and events of the connection, only use what is later
in the order of the mutexes than those that are held.

Partial: the full statement is without this condition (`NoDeadlock fun _ _ => True`); it is refuted below. -/
theorem C251_partial : NoDeadlock later := by
  intro start hp hd n s hr
  obtain ⟨hi, he⟩ := run_inv hr ⟨fun t ht => proper_ordered (hp t ht), hd⟩
  exact ⟨progress hi, he⟩

theorem mem_all {s : Sec} (h : s ∈ connecting ∨ s ∈ client ∨ s ∈ handling) : s ∈ all := by
  simp only [all, List.mem_append]; rcases h with h | h | h
  · exact Or.inl (Or.inl h)
  · exact Or.inl (Or.inr h)
  · exact Or.inr h

theorem unlock_all : unlock ∈ all := mem_all (Or.inr (Or.inr (by simp [handling, v16])))
theorem reset_all : reset ∈ all := mem_all (Or.inr (Or.inr (by simp [handling, v16])))
theorem stop_all : stopTransaction ∈ all := mem_all (Or.inr (Or.inr (by simp [handling, v16])))
theorem register_all : register ∈ all := mem_all (Or.inr (Or.inr (by simp [handling, v16])))
theorem transfer_all : dataTransfer ∈ all := mem_all (Or.inr (Or.inr (by simp [handling, v16])))
theorem close_all : close ∈ all := mem_all (Or.inl (by simp [connecting]))
theorem reconnect_all : Locks.reconnect ∈ all := mem_all (Or.inl (by simp [connecting]))

/-- The section `lock c inner` with nothing in it but the operations `q`, and nothing after it. -/
theorem Code.one {allow : List Mx → Sec → Prop} {h : List Mx} {items : Sec → Prop} {q : List Op} (c : Cls) (inner : List Sec) (n : Nat)
    (hi : items (.lock c inner)) (hn : single c = true → n = 0) (hq : Code allow (⟨c, n⟩ :: h) (· ∈ inner) q) :
    Code allow h items (.acq ⟨c, n⟩ :: q ++ [.rel ⟨c, n⟩]) := Code.lock c inner n hi hn hq (Code.done _ _)

/-- A thread of the application stops a transaction while the thread that receives messages handles UnlockConnector.req, and the connection
is closed in a third thread. -/
example :
    let stopper : Thread := ⟨[], [.acq ⟨.stopTx, 0⟩, .acq ⟨.message, 0⟩, .rel ⟨.message, 0⟩, .rel ⟨.stopTx, 0⟩]⟩
    let receiver : Thread := ⟨[⟨.endRecv, 1⟩], [.acq ⟨.stopTx, 0⟩, .acq ⟨.activeTx, 0⟩, .rel ⟨.activeTx, 0⟩, .rel ⟨.stopTx, 0⟩, .rel ⟨.endRecv, 1⟩]⟩
    let closer : Thread := ⟨[], [.acq ⟨.connection, 0⟩, .acq ⟨.endRecv, 1⟩, .rel ⟨.endRecv, 1⟩, .rel ⟨.connection, 0⟩]⟩
    (∀ t ∈ [stopper, receiver, closer], Proper later t) ∧ Distinct [stopper, receiver, closer] := by
  refine ⟨?_, by simp [Distinct]⟩
  simp only [List.forall_mem_cons]
  refine ⟨?_, ?_, ?_, by simp⟩
  · exact .free (Code.one .stopTx _ 0 stop_all (fun _ => rfl) (Code.one .message [] 0 (by simp [push]) (fun _ => rfl) (Code.done _ _)))
  · refine .recv 1 (p := [.acq ⟨.stopTx, 0⟩, .acq ⟨.activeTx, 0⟩, .rel ⟨.activeTx, 0⟩, .rel ⟨.stopTx, 0⟩]) ?_
    exact Code.one .stopTx _ 0 ⟨unlock_all, by simp [later, rank]⟩ (fun _ => rfl)
      (Code.one .activeTx [txMeterValues] 0 (by simp [transactions]) (fun _ => rfl) (Code.done _ _))
  · exact .free (Code.one .connection _ 0 close_all (fun _ => rfl) (Code.one .endRecv [] 1 (by simp [closeThreads]) (by simp [single]) (Code.done _ _)))

/-! ### Refutations -/

theorem no_step1 {h : List Mx} {m : Mx} {p : List Op} (hm : m ∈ h) (hr : recursive m.cls = false) : ¬ ∃ s', Step [⟨h, .acq m :: p⟩] s' := by
  rintro ⟨s', hs⟩
  generalize hg : [(⟨h, .acq m :: p⟩ : Thread)] = s at hs
  cases hs with
  | acq a b hd q k others self =>
      cases a with
      | nil => simp at hg; obtain ⟨⟨e1, e2, e3⟩, e4⟩ := hg; subst e1; subst e2; rw [self hm] at hr; cases hr
      | cons x a => simp at hg
  | rel a b hd q k => cases a <;> simp at hg
  | act a b hd q => cases a <;> simp at hg

theorem no_step2 {h1 h2 : List Mx} {m1 m2 : Mx} {p1 p2 : List Op} (hm1 : m1 ∈ h2) (hm2 : m2 ∈ h1) :
    ¬ ∃ s', Step [⟨h1, .acq m1 :: p1⟩, ⟨h2, .acq m2 :: p2⟩] s' := by
  rintro ⟨s', hs⟩
  generalize hg : [(⟨h1, .acq m1 :: p1⟩ : Thread), ⟨h2, .acq m2 :: p2⟩] = s at hs
  cases hs with
  | acq a b hd q k others self =>
      match a, hg with
      | [], hg =>
        simp at hg; obtain ⟨⟨e1, e2, e3⟩, e4⟩ := hg
        subst e2; subst e4
        exact others ⟨h2, .acq m2 :: p2⟩ (by simp) hm1
      | [x], hg =>
        simp at hg; obtain ⟨e1, ⟨e2, e3, e4⟩, e5⟩ := hg
        subst e3; subst e1
        exact others ⟨h1, .acq m1 :: p1⟩ (by simp) hm2
      | x :: y :: a, hg => simp at hg
  | rel a b hd q k =>
      match a, hg with
      | [], hg => simp at hg
      | [x], hg => simp at hg
      | x :: y :: a, hg => simp at hg
  | act a b hd q =>
      match a, hg with
      | [], hg => simp at hg
      | [x], hg => simp at hg
      | x :: y :: a, hg => simp at hg

/-- C251 is violated (1.6): UnlockConnector.req is handled with the mutex for the stopping of transactions held, also while the application is
asked to stop the transaction; if it does so in that callback (`on_transaction_stopped`), the thread that receives messages waits for itself
for ever. -/
theorem C251_unlock_violated :
    ¬ NoDeadlock fun h s => later h s ∨ (⟨.stopTx, 0⟩ ∈ h ∧ s = stopTransaction) := by
  intro hno
  let t : Thread := ⟨[⟨.endRecv, 1⟩], [.acq ⟨.stopTx, 0⟩, .acq ⟨.stopTx, 0⟩, .rel ⟨.stopTx, 0⟩, .rel ⟨.stopTx, 0⟩, .rel ⟨.endRecv, 1⟩]⟩
  have hp : Proper (fun h s => later h s ∨ (⟨.stopTx, 0⟩ ∈ h ∧ s = stopTransaction)) t := by
    refine .recv 1 (p := [.acq ⟨.stopTx, 0⟩, .acq ⟨.stopTx, 0⟩, .rel ⟨.stopTx, 0⟩, .rel ⟨.stopTx, 0⟩]) ?_
    refine Code.one (q := [.acq ⟨.stopTx, 0⟩, .rel ⟨.stopTx, 0⟩]) .stopTx _ 0 ⟨unlock_all, Or.inl (by simp [later, rank])⟩ (fun _ => rfl) ?_
    refine Code.app (q := [.acq ⟨.stopTx, 0⟩, .rel ⟨.stopTx, 0⟩]) (p := []) (by simp) ?_ (Code.done _ _)
    exact Code.one (q := []) .stopTx _ 0 ⟨stop_all, Or.inr ⟨by simp, rfl⟩⟩ (fun _ => rfl) (Code.done _ _)
  have hr : Run [t] 1 [⟨[⟨.stopTx, 0⟩, ⟨.endRecv, 1⟩], [.acq ⟨.stopTx, 0⟩, .rel ⟨.stopTx, 0⟩, .rel ⟨.stopTx, 0⟩, .rel ⟨.endRecv, 1⟩]⟩] :=
    .step (.refl _) (.acq [] [] _ _ _ (by simp) (by simp))
  rcases (hno [t] (by simp [hp]) (by simp [Distinct]) _ _ hr).1 with h | h
  · simp [Finished] at h
  · exact no_step1 (by simp) rfl h

/-- C251 is violated (1.6): the callback for a reset, in which `stop` is to be called according to the comment, is called with the mutex for
the stopping of transactions held. `stop` waits for the thread that receives messages; if that handles UnlockConnector.req, it waits for this
mutex, and the station never restarts. -/
theorem C251_reset_violated :
    ¬ NoDeadlock fun h s => later h s ∨ (⟨.stopTx, 0⟩ ∈ h ∧ s = close) := by
  intro hno
  let resetter : Thread := ⟨[], [.acq ⟨.stopTx, 0⟩, .acq ⟨.connection, 0⟩, .acq ⟨.endRecv, 1⟩, .rel ⟨.endRecv, 1⟩, .rel ⟨.connection, 0⟩, .rel ⟨.stopTx, 0⟩]⟩
  let receiver : Thread := ⟨[⟨.endRecv, 1⟩], [.acq ⟨.stopTx, 0⟩, .rel ⟨.stopTx, 0⟩, .rel ⟨.endRecv, 1⟩]⟩
  have hp1 : Proper (fun h s => later h s ∨ (⟨.stopTx, 0⟩ ∈ h ∧ s = close)) resetter := by
    refine .free (Code.one (items := (· ∈ all))
      (q := [.acq ⟨.connection, 0⟩, .acq ⟨.endRecv, 1⟩, .rel ⟨.endRecv, 1⟩, .rel ⟨.connection, 0⟩]) .stopTx _ 0 reset_all (fun _ => rfl) ?_)
    refine Code.app (q := [.acq ⟨.connection, 0⟩, .acq ⟨.endRecv, 1⟩, .rel ⟨.endRecv, 1⟩, .rel ⟨.connection, 0⟩]) (p := []) (by simp) ?_
      (Code.done _ _)
    refine Code.one (q := [.acq ⟨.endRecv, 1⟩, .rel ⟨.endRecv, 1⟩]) .connection _ 0 ⟨close_all, Or.inr ⟨by simp, rfl⟩⟩ (fun _ => rfl) ?_
    exact Code.one .endRecv [] 1 (by simp [closeThreads]) (by simp [single]) (Code.done _ _)
  have hp2 : Proper (fun h s => later h s ∨ (⟨.stopTx, 0⟩ ∈ h ∧ s = close)) receiver := by
    refine .recv 1 (p := [.acq ⟨.stopTx, 0⟩, .rel ⟨.stopTx, 0⟩]) ?_
    exact Code.one .stopTx _ 0 ⟨unlock_all, Or.inl (by simp [later, rank])⟩ (fun _ => rfl) (Code.done _ _)
  have hr : Run [resetter, receiver] 2
      [⟨[⟨.connection, 0⟩, ⟨.stopTx, 0⟩], [.acq ⟨.endRecv, 1⟩, .rel ⟨.endRecv, 1⟩, .rel ⟨.connection, 0⟩, .rel ⟨.stopTx, 0⟩]⟩, receiver] :=
    .step (.step (.refl _) (.acq [] [receiver] _ _ _ (by simp [receiver]) (by simp)))
      (.acq [] [receiver] _ _ _ (by simp [receiver]) (by simp))
  rcases (hno [resetter, receiver] (by simp [hp1, hp2]) (by simp [Distinct, resetter]) _ _ hr).1 with h | h
  · simp [Finished, receiver] at h
  · exact no_step2 (by simp) (by simp) h

/-- C251 is violated (1.6 and 2.x): `close`, `reconnect` and `start_connecting` wait, with the mutex of the connection held, for the thread
that receives messages. If that thread is handling a message after which the connection is made anew (AuthorizationKey, BasicAuthPassword,
CertificateSigned), it waits for this mutex, and there is never a connection again. -/
theorem C251_close_violated :
    ¬ NoDeadlock fun h s => later h s ∨ ((∃ n, h = [⟨.endRecv, n⟩]) ∧ s = Locks.reconnect) := by
  intro hno
  let closer : Thread := ⟨[], [.acq ⟨.connection, 0⟩, .acq ⟨.endRecv, 1⟩, .rel ⟨.endRecv, 1⟩, .rel ⟨.connection, 0⟩]⟩
  let receiver : Thread := ⟨[⟨.endRecv, 1⟩], [.acq ⟨.connection, 0⟩, .rel ⟨.connection, 0⟩, .rel ⟨.endRecv, 1⟩]⟩
  have hp1 : Proper (fun h s => later h s ∨ ((∃ n, h = [⟨.endRecv, n⟩]) ∧ s = Locks.reconnect)) closer := by
    refine .free (Code.one (items := (· ∈ all)) (q := [.acq ⟨.endRecv, 1⟩, .rel ⟨.endRecv, 1⟩]) .connection _ 0 close_all (fun _ => rfl) ?_)
    exact Code.one .endRecv [] 1 (by simp [closeThreads]) (by simp [single]) (Code.done _ _)
  have hp2 : Proper (fun h s => later h s ∨ ((∃ n, h = [⟨.endRecv, n⟩]) ∧ s = Locks.reconnect)) receiver := by
    refine .recv 1 (p := [.acq ⟨.connection, 0⟩, .rel ⟨.connection, 0⟩]) ?_
    exact Code.one .connection _ 0 ⟨reconnect_all, Or.inr ⟨⟨1, rfl⟩, rfl⟩⟩ (fun _ => rfl) (Code.done _ _)
  have hr : Run [closer, receiver] 1
      [⟨[⟨.connection, 0⟩], [.acq ⟨.endRecv, 1⟩, .rel ⟨.endRecv, 1⟩, .rel ⟨.connection, 0⟩]⟩, receiver] :=
    .step (.refl _) (.acq [] [receiver] _ _ _ (by simp [receiver]) (by simp))
  rcases (hno [closer, receiver] (by simp [hp1, hp2]) (by simp [Distinct, closer]) _ _ hr).1 with h | h
  · simp [Finished, receiver] at h
  · exact no_step2 (by simp) (by simp) h

/-- C251 is violated (1.6): callbacks for DataTransfer.req are called with the mutex of the table of callbacks held; if one of them registers
another, the thread that receives messages waits for itself for ever. -/
theorem C251_register_violated :
    ¬ NoDeadlock fun h s => later h s ∨ (⟨.transferCallbacks, 0⟩ ∈ h ∧ s = register) := by
  intro hno
  let t : Thread := ⟨[⟨.endRecv, 1⟩], [.acq ⟨.transferCallbacks, 0⟩, .acq ⟨.transferCallbacks, 0⟩, .rel ⟨.transferCallbacks, 0⟩,
    .rel ⟨.transferCallbacks, 0⟩, .rel ⟨.endRecv, 1⟩]⟩
  have hp : Proper (fun h s => later h s ∨ (⟨.transferCallbacks, 0⟩ ∈ h ∧ s = register)) t := by
    refine .recv 1 (p := [.acq ⟨.transferCallbacks, 0⟩, .acq ⟨.transferCallbacks, 0⟩, .rel ⟨.transferCallbacks, 0⟩, .rel ⟨.transferCallbacks, 0⟩]) ?_
    refine Code.one (q := [.acq ⟨.transferCallbacks, 0⟩, .rel ⟨.transferCallbacks, 0⟩]) .transferCallbacks _ 0
      ⟨transfer_all, Or.inl (by simp [later, rank])⟩ (fun _ => rfl) ?_
    refine Code.app (q := [.acq ⟨.transferCallbacks, 0⟩, .rel ⟨.transferCallbacks, 0⟩]) (p := []) (by simp) ?_ (Code.done _ _)
    exact Code.one (q := []) .transferCallbacks _ 0 ⟨register_all, Or.inr ⟨by simp, rfl⟩⟩ (fun _ => rfl) (Code.done _ _)
  have hr : Run [t] 1 [⟨[⟨.transferCallbacks, 0⟩, ⟨.endRecv, 1⟩], [.acq ⟨.transferCallbacks, 0⟩, .rel ⟨.transferCallbacks, 0⟩,
      .rel ⟨.transferCallbacks, 0⟩, .rel ⟨.endRecv, 1⟩]⟩] :=
    .step (.refl _) (.acq [] [] _ _ _ (by simp) (by simp))
  rcases (hno [t] (by simp [hp]) (by simp [Distinct]) _ _ hr).1 with h | h
  · simp [Finished] at h
  · exact no_step1 (by simp) rfl h

end Locks
