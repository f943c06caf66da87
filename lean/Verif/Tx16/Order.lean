import Verif.Tx16.Resume

/-! StopTransaction.req follows StartTransaction.req. -/

namespace Verif.Tx16

set_option linter.constructorNameAsVariable false

/-- Rows exist, and a transaction that has one was announced to the CSMS, or will be before anything else about it. -/
structure Ord (s : S) : Prop where
  rowQ : ∀ m ∈ s.queue, ∃ r ∈ s.rows, r.session = m.session
  rowA : ∀ t ∈ s.active, ∃ r ∈ s.rows, r.session = t.session
  rowP : ∀ t mid v, s.pc = .starting t mid v → ∃ r ∈ s.rows, r.session = t.session
  fresh : ∀ t mid v, s.pc = .starting t mid v → (∀ m ∈ s.queue, m.session ≠ t.session) ∧ ∀ u ∈ s.active, u.session ≠ t.session
  ann : ∀ r ∈ s.rows, (∃ t mid v, s.pc = .starting t mid v ∧ t.session = r.session) ∨ (∃ n, Ev.assigned r.session n ∈ s.log) ∨
    ∃ m ∈ s.queue, m.stop = false ∧ m.session = r.session
  fifo : s.queue.Pairwise (fun m m' => m.stop = true → m'.stop = false → m'.session ≠ m.session)
  log : ∀ a b k x v, s.log = a ++ .stopped k x v :: b → ∃ n, Ev.assigned k n ∈ a

theorem ord_init : Ord {} := by constructor <;> simp

theorem row_update {l : List Row} {k j : Nat} {f : Row → Row} (hf : ∀ r, (f r).session = r.session) :
    (∃ r ∈ updateRow l k f, r.session = j) ↔ ∃ r ∈ l, r.session = j := by
  constructor
  · rintro ⟨r, hr, rfl⟩
    obtain ⟨x, hx, rfl⟩ := mem_updateRow.mp hr
    exact ⟨x, hx, by split <;> simp [hf]⟩
  · rintro ⟨r, hr, rfl⟩
    refine ⟨if r.session = k then f r else r, mem_updateRow.mpr ⟨r, hr, rfl⟩, by split <;> simp [hf]⟩

/-- Changes that do not concern the order: rows keep their sessions, running transactions may end. -/
theorem Ord.mono {s u : S} (h : Ord s) (hr : ∀ j, (∃ r ∈ u.rows, r.session = j) ↔ ∃ r ∈ s.rows, r.session = j)
    (hq : u.queue.map (fun m => (m.session, m.stop)) = s.queue.map (fun m => (m.session, m.stop)))
    (ha : ∀ t ∈ u.active, ∃ x ∈ s.active, x.session = t.session) (hp : ∀ t mid v, u.pc = .starting t mid v ↔ s.pc = .starting t mid v)
    (hl : u.log = s.log) : Ord u := by
  have hq1 : ∀ m ∈ u.queue, ∃ x ∈ s.queue, x.session = m.session ∧ x.stop = m.stop := by
    intro m hm
    have : (m.session, m.stop) ∈ s.queue.map (fun m => (m.session, m.stop)) := hq ▸ List.mem_map.mpr ⟨m, hm, rfl⟩
    obtain ⟨x, hx, e⟩ := List.mem_map.mp this
    injection e with e1 e2
    exact ⟨x, hx, e1, e2⟩
  have hq2 : ∀ m ∈ s.queue, ∃ x ∈ u.queue, x.session = m.session ∧ x.stop = m.stop := by
    intro m hm
    have : (m.session, m.stop) ∈ u.queue.map (fun m => (m.session, m.stop)) := hq ▸ List.mem_map.mpr ⟨m, hm, rfl⟩
    obtain ⟨x, hx, e⟩ := List.mem_map.mp this
    injection e with e1 e2
    exact ⟨x, hx, e1, e2⟩
  constructor
  · intro m hm
    obtain ⟨x, hx, e, _⟩ := hq1 m hm
    rw [hr, ← e]; exact h.rowQ x hx
  · intro t ht
    obtain ⟨x, hx, e⟩ := ha t ht
    rw [hr, ← e]; exact h.rowA x hx
  · intro t mid v e
    rw [hr]; exact h.rowP t mid v ((hp _ _ _).mp e)
  · intro t mid v e
    obtain ⟨h1, h2⟩ := h.fresh t mid v ((hp _ _ _).mp e)
    refine ⟨?_, ?_⟩
    · intro m hm
      obtain ⟨x, hx, e, _⟩ := hq1 m hm
      rw [← e]; exact h1 x hx
    · intro u hu
      obtain ⟨x, hx, e⟩ := ha u hu
      rw [← e]; exact h2 x hx
  · intro r hr'
    obtain ⟨x, hx, e⟩ := (hr r.session).mp ⟨r, hr', rfl⟩
    rw [hl, ← e]
    rcases h.ann x hx with ⟨t, mid, v, e1, e2⟩ | h1 | ⟨m, hm, e1, e2⟩
    · exact .inl ⟨t, mid, v, (hp _ _ _).mpr e1, e2⟩
    · exact .inr (.inl h1)
    · obtain ⟨y, hy, e3, e4⟩ := hq2 m hm
      exact .inr (.inr ⟨y, hy, e4.trans e1, e3.trans e2⟩)
  · have := h.fifo
    have h1 : (s.queue.map (fun m => (m.session, m.stop))).Pairwise (fun m m' => m.2 = true → m'.2 = false → m'.1 ≠ m.1) := by
      rw [List.pairwise_map]; exact this
    rw [← hq, List.pairwise_map] at h1
    exact h1
  · rw [hl]; exact h.log

/-- A StopTransaction.req of a transaction with a row is queued. -/
theorem Ord.queueStop {s u : S} (h : Ord s) (m : Msg) (hm : m.stop = true) (hr : ∀ j, (∃ r ∈ u.rows, r.session = j) ↔ ∃ r ∈ s.rows, r.session = j)
    (hex : ∃ r ∈ s.rows, r.session = m.session) (hq : u.queue = s.queue ++ [m])
    (ha : ∀ t ∈ u.active, ∃ x ∈ s.active, x.session = t.session) (hs : ∀ t mid v, s.pc ≠ .starting t mid v) (hp : ∀ t mid v, u.pc ≠ .starting t mid v)
    (hl : u.log = s.log) : Ord u := by
  constructor
  · intro x hx
    rw [hq] at hx
    rw [hr]
    rcases List.mem_append.mp hx with hx | hx
    · exact h.rowQ x hx
    · rw [List.mem_singleton] at hx; subst hx; exact hex
  · intro t ht
    obtain ⟨x, hx, e⟩ := ha t ht
    rw [hr, ← e]; exact h.rowA x hx
  · intro t mid v e; exact absurd e (hp t mid v)
  · intro t mid v e; exact absurd e (hp t mid v)
  · intro r hr'
    obtain ⟨x, hx, e⟩ := (hr r.session).mp ⟨r, hr', rfl⟩
    rw [hl, hq, ← e]
    rcases h.ann x hx with ⟨t, mid, v, e1, e2⟩ | h1 | ⟨m, hm, e1, e2⟩
    · exact absurd e1 (hs t mid v)
    · exact .inr (.inl h1)
    · exact .inr (.inr ⟨m, List.mem_append_left _ hm, e1, e2⟩)
  · rw [hq, List.pairwise_append]
    refine ⟨h.fifo, by simp, ?_⟩
    intro a _ b hb _ hb'
    rw [List.mem_singleton] at hb; subst hb
    rw [hm] at hb'; simp at hb'
  · rw [hl]; exact h.log

theorem Ord.resumeOne {s : S} (h : Ord s) (l : List Nat) (r : Row) (hr : ∃ x ∈ s.rows, x.session = r.session) (hp : s.pc = .idle) :
    Ord (resumeOne l s r) ∧ (resumeOne l s r).pc = .idle ∧ ∀ j, (∃ x ∈ (resumeOne l s r).rows, x.session = j) ↔ ∃ x ∈ s.rows, x.session = j := by
  have hs : ∀ t mid v, s.pc ≠ .starting t mid v := by simp [hp]
  unfold Tx16.resumeOne
  split
  · exact ⟨h.mono (fun _ => Iff.rfl) rfl (fun t ht => ⟨t, (List.mem_filter.mp ht).1, rfl⟩) (fun _ _ _ => Iff.rfl) rfl, hp, fun _ => Iff.rfl⟩
  · split
    · refine ⟨?_, hp, fun _ => Iff.rfl⟩
      refine ⟨h.rowQ, ?_, h.rowP, ?_, h.ann, h.fifo, h.log⟩
      · intro t ht
        rcases List.mem_cons.mp ht with rfl | ht
        · exact hr
        · exact h.rowA t (List.mem_filter.mp ht).1
      · intro t mid v e; exact absurd e (hs t mid v)
    · refine ⟨h.queueStop { mid := s.next, iid := s.next, session := r.session, stop := true, id := r.txId, meter := r.meterStop.getD r.meterLast } rfl
        (fun j => row_update (fun _ => rfl)) hr rfl (fun t ht => ⟨t, (List.mem_filter.mp ht).1, rfl⟩) hs (by simp [hp]) rfl, hp, fun j => row_update (fun _ => rfl)⟩

theorem Ord.fold (l : List Nat) (b : List Row) : ∀ {s : S}, Ord s → (∀ r ∈ b, ∃ x ∈ s.rows, x.session = r.session) → s.pc = .idle →
    Ord (b.foldl (Tx16.resumeOne l) s) := by
  induction b with
  | nil => intro s h _ _; exact h
  | cons r b ih =>
    intro s h hr hp
    obtain ⟨h1, h2, h3⟩ := h.resumeOne l r (hr r (by simp)) hp
    exact ih h1 (fun x hx => (h3 _).mpr (hr x (by simp [hx]))) h2

/-- The hypotheses of C119 about one step: a new transaction has a new session id, no message is given up, no crash just between the insertion of the row and the
queueing of StartTransaction.req. -/
def OrdOk (s : S) : Op → Prop
  | .startInsert _ k _ _ => ∀ x ∈ s.rows, x.session ≠ k
  | .drop => False
  | .crash _ => ∀ t mid v, s.pc ≠ .starting t mid v
  | _ => True

theorem Ord.step {s : S} (h : Ord s) (op : Op) (ho : OrdOk s op) : Ord (step s op) := by
  have hup : ∀ {k : Nat} {f : Tx → Tx}, (∀ t, (f t).session = t.session) → ∀ t ∈ updateTx s.active k f, ∃ x ∈ s.active, x.session = t.session := by
    intro k f hf t ht
    obtain ⟨x, hx, rfl⟩ := mem_updateTx.mp ht
    exact ⟨x, hx, by split <;> simp [hf]⟩
  cases op with
  | startInsert c k r m =>
    simp only [Tx16.step, startInsert]
    split
    · rename_i hp
      have hs : ∀ t mid v, s.pc ≠ .starting t mid v := by simp [hp]
      have hi : ∀ x, x ∈ insertRow s.rows { session := k, txId := r, conn := c, startMid := s.next, meterStart := m, meterLast := m } ↔
          x ∈ s.rows ∨ x = { session := k, txId := r, conn := c, startMid := s.next, meterStart := m, meterLast := m } := by
        intro x
        unfold insertRow
        rw [if_neg]
        · simp
        · simp only [List.any_eq_true, beq_iff_eq, not_exists, not_and]; exact ho
      constructor
      · intro x hx; obtain ⟨y, hy, e⟩ := h.rowQ x hx; exact ⟨y, (hi y).mpr (.inl hy), e⟩
      · intro x hx; obtain ⟨y, hy, e⟩ := h.rowA x hx; exact ⟨y, (hi y).mpr (.inl hy), e⟩
      · intro t mid v e; injection e with e; exact ⟨_, (hi _).mpr (.inr rfl), by rw [← e]⟩
      · intro t mid v e
        injection e with e
        subst e
        refine ⟨?_, ?_⟩
        · intro x hx e; obtain ⟨y, hy, e'⟩ := h.rowQ x hx; exact ho y hy (e'.trans e)
        · intro x hx e; obtain ⟨y, hy, e'⟩ := h.rowA x hx; exact ho y hy (e'.trans e)
      · intro x hx
        rcases (hi x).mp hx with hx | rfl
        · rcases h.ann x hx with ⟨t, mid, v, e1, e2⟩ | h1
          · exact absurd e1 (hs t mid v)
          · exact .inr h1
        · exact .inl ⟨_, _, _, rfl, rfl⟩
      · exact h.fifo
      · exact h.log
    · exact h
  | startQueue =>
    simp only [Tx16.step, startQueue]
    split
    · rename_i t mid v hp
      obtain ⟨f1, f2⟩ := h.fresh t mid v hp
      constructor
      · intro x hx
        rcases List.mem_append.mp hx with hx | hx
        · exact h.rowQ x hx
        · rw [List.mem_singleton] at hx; subst hx; exact h.rowP t mid v hp
      · intro x hx
        rcases List.mem_cons.mp hx with rfl | hx
        · exact h.rowP t mid v hp
        · exact h.rowA x (List.mem_filter.mp hx).1
      · intro _ _ _ e; simp at e
      · intro _ _ _ e; simp at e
      · intro x hx
        rcases h.ann x hx with ⟨t', mid', v', e1, e2⟩ | h1 | ⟨m, hm, h1⟩
        · rw [hp] at e1; injection e1 with e1; subst e1
          exact .inr (.inr ⟨_, List.mem_append_right _ (List.mem_singleton.mpr rfl), rfl, e2⟩)
        · exact .inr (.inl h1)
        · exact .inr (.inr ⟨m, List.mem_append_left _ hm, h1⟩)
      · rw [List.pairwise_append]
        refine ⟨h.fifo, by simp, ?_⟩
        intro a ha b hb _ _
        rw [List.mem_singleton] at hb; subst hb
        exact (f1 a ha).symm
      · exact h.log
    · exact h
  | stopQueue c v =>
    simp only [Tx16.step, stopQueue]
    split
    · rename_i hp
      split
      · exact h
      · rename_i t ht
        have hta := List.mem_of_find?_eq_some ht
        exact h.queueStop { mid := s.next, iid := s.next, session := t.session, stop := true, id := t.id, meter := v } rfl (fun _ => Iff.rfl)
          (h.rowA t hta) rfl (fun t ht => ⟨t, ht, rfl⟩) (by simp [hp]) (by simp) rfl
    · exact h
  | stopMark =>
    simp only [Tx16.step, stopMark]
    split
    · rename_i hp
      exact h.mono (fun _ => Iff.rfl) rfl (fun t ht => ⟨t, (List.mem_filter.mp ht).1, rfl⟩) (by simp [hp]) rfl
    · exact h
  | stopStore =>
    simp only [Tx16.step, stopStore]
    split
    · rename_i hp
      exact h.mono (fun _ => row_update (fun _ => rfl)) rfl (fun t ht => ⟨t, ht, rfl⟩) (by simp [hp]) rfl
    · exact h
  | sample c v =>
    simp only [Tx16.step, sample]
    split
    · split
      · exact h.mono (fun _ => row_update (fun _ => rfl)) rfl (fun t ht => ⟨t, ht, rfl⟩) (fun _ _ _ => Iff.rfl) rfl
      · exact h
    · exact h
  | drop => exact absurd ho id
  | retry =>
    simp only [Tx16.step, retry]
    split
    · exact h
    · rename_i m q hq
      split
      · exact h.mono (fun _ => Iff.rfl) (by simp [hq]) (fun t ht => ⟨t, ht, rfl⟩) (fun _ _ _ => Iff.rfl) rfl
      · refine h.mono (fun _ => Iff.rfl) (by simp [hq]) ?_ (fun _ _ _ => Iff.rfl) rfl
        simp only [renumber]
        split
        · exact fun t ht => ⟨t, ht, rfl⟩
        · exact hup (fun _ => rfl)
  | deliver n =>
    simp only [Tx16.step, deliver]
    split
    · exact h
    · rename_i m q hq
      have hfifo : q.Pairwise (fun m m' => m.stop = true → m'.stop = false → m'.session ≠ m.session) := by
        have := h.fifo; rw [hq] at this; exact (List.pairwise_cons.mp this).2
      have hhead : ∀ m' ∈ q, m.stop = true → m'.stop = false → m'.session ≠ m.session := by
        have := h.fifo; rw [hq] at this; exact (List.pairwise_cons.mp this).1
      have hsub : ∀ x ∈ q, x ∈ s.queue := fun x hx => by rw [hq]; simp [hx]
      have hmq : m ∈ s.queue := by rw [hq]; simp
      have hlog : ∀ (e : Ev), (∀ k x v, e = .stopped k x v → ∃ n, Ev.assigned k n ∈ s.log) → ∀ a b k x v, s.log ++ [e] = a ++ .stopped k x v :: b →
          ∃ n, Ev.assigned k n ∈ a := by
        intro e he a b k x v hE
        rcases List.append_eq_append_iff.mp hE with ⟨a', h1, h2⟩ | ⟨c', h1, h2⟩
        · cases a' with
          | nil =>
            simp only [List.nil_append, List.cons.injEq] at h2
            rw [h1, List.append_nil]; exact he k x v h2.1
          | cons y a' => simp at h2
        · cases c' with
          | nil =>
            simp only [List.nil_append, List.cons.injEq] at h2
            rw [← (by simpa using h1 : s.log = a)]; exact he k x v h2.1.symm
          | cons y c' =>
            simp only [List.cons_append, List.cons.injEq] at h2
            obtain ⟨rfl, rfl⟩ := h2
            exact h.log a c' k x v h1
      split
      · rename_i hm
        constructor
        · intro x hx
          obtain ⟨r, hr, e⟩ := h.rowQ x (hsub x hx)
          exact ⟨_, List.mem_map.mpr ⟨r, hr, rfl⟩, by split <;> exact e⟩
        · intro x hx
          obtain ⟨r, hr, e⟩ := h.rowA x hx
          exact ⟨_, List.mem_map.mpr ⟨r, hr, rfl⟩, by split <;> exact e⟩
        · intro t mid v e
          obtain ⟨r, hr, e⟩ := h.rowP t mid v e
          exact ⟨_, List.mem_map.mpr ⟨r, hr, rfl⟩, by split <;> exact e⟩
        · intro t mid v e
          exact ⟨fun x hx => (h.fresh t mid v e).1 x (hsub x hx), (h.fresh t mid v e).2⟩
        · intro r hr
          obtain ⟨y, hy, rfl⟩ := List.mem_map.mp hr
          have e : (if y.txId = (get s.map m.mid).getD m.id then { y with acked := true } else y).session = y.session := by split <;> rfl
          simp only [stopConf, e]
          rcases h.ann y hy with h1 | ⟨n, h1⟩ | ⟨x, hx, h1, h2⟩
          · exact .inl h1
          · exact .inr (.inl ⟨n, by simp [h1]⟩)
          · rw [hq] at hx
            rcases List.mem_cons.mp hx with rfl | hx
            · rw [hm] at h1; simp at h1
            · exact .inr (.inr ⟨x, hx, h1, h2⟩)
        · exact hfifo
        · refine hlog _ ?_
          intro k x v e
          injection e with e
          subst e
          obtain ⟨r, hr, e⟩ := h.rowQ m hmq
          rcases h.ann r hr with ⟨t, mid, v', e1, e2⟩ | ⟨n, h1⟩ | ⟨x, hx, h1, h2⟩
          · exact absurd (e.symm.trans e2.symm) ((h.fresh t mid v' e1).1 m hmq)
          · exact ⟨n, e ▸ h1⟩
          · rw [hq] at hx
            rcases List.mem_cons.mp hx with rfl | hx
            · rw [hm] at h1; simp at h1
            · exact absurd (h2.trans e) (hhead x hx hm h1)
      · rename_i hm
        have base : Ord { s with queue := q, log := s.log ++ [.assigned m.session n] } := by
          refine ⟨fun x hx => h.rowQ x (hsub x hx), h.rowA, h.rowP, fun t mid v e => ⟨fun x hx => (h.fresh t mid v e).1 x (hsub x hx), (h.fresh t mid v e).2⟩,
            ?_, hfifo, hlog _ (by simp)⟩
          intro r hr
          rcases h.ann r hr with h1 | ⟨j, h1⟩ | ⟨x, hx, h1, h2⟩
          · exact .inl h1
          · exact .inr (.inl ⟨j, by simp [h1]⟩)
          · rw [hq] at hx
            rcases List.mem_cons.mp hx with rfl | hx
            · exact .inr (.inl ⟨n, by simp [h2]⟩)
            · exact .inr (.inr ⟨x, hx, h1, h2⟩)
        unfold startConf
        split
        · exact base
        · exact base.mono (fun _ => row_update (fun _ => rfl)) rfl (hup (fun _ => rfl)) (fun _ _ _ => Iff.rfl) rfl
  | crash l =>
    simp only [Tx16.step, restart]
    refine Ord.fold l _ ?_ ?_ rfl
    · unfold crashed
      constructor
      · intro x hx
        obtain ⟨y, hy, rfl⟩ := List.mem_map.mp hx
        exact h.rowQ y hy
      · intro x hx; simp at hx
      · intro _ _ _ e; simp at e
      · intro _ _ _ e; simp at e
      · intro r hr
        rcases h.ann r hr with ⟨t, mid, v, e1, _⟩ | h1 | ⟨x, hx, h1, h2⟩
        · exact absurd e1 (ho t mid v)
        · exact .inr (.inl h1)
        · exact .inr (.inr ⟨_, List.mem_map.mpr ⟨x, hx, rfl⟩, h1, h2⟩)
      · rw [List.pairwise_map]; exact h.fifo
      · exact h.log
    · intro r hr
      exact ⟨r, (List.mem_filter.mp hr).1, rfl⟩

/-- C119: before StopTransaction.req of a transaction the CSMS has got its StartTransaction.req, whatever is repeated and whenever the station crashes and
restarts.  Partial: no message is given up, and no crash just between the insertion of the row and the queueing of StartTransaction.req. -/
theorem C119_partial (ops : List Op) (h : ∀ pre op post, ops = pre ++ op :: post → OrdOk (run {} pre) op) :
    ∀ a b k x v, (run {} ops).log = a ++ .stopped k x v :: b → ∃ n, Ev.assigned k n ∈ a := by
  have : Ord (run {} ops) := by
    induction ops using snoc_ind with
    | nil => exact ord_init
    | snoc ops op ih =>
      rw [run_snoc]
      exact (ih (fun pre o post e => h pre o (post ++ [op]) (by rw [e]; simp))).step op (h ops op [] rfl)
  exact this.log

def isStarting : Pc → Bool
  | .starting _ _ _ => true
  | _ => false

def ordOkB (s : S) : Op → Bool
  | .startInsert _ k _ _ => s.rows.all (fun x => x.session != k)
  | .drop => false
  | .crash _ => !isStarting s.pc
  | _ => true

theorem ordOk_of {ops : List Op} (h : (List.range ops.length).all (fun i => match ops[i]? with | some op => ordOkB (run {} (ops.take i)) op | none => true) = true) :
    ∀ pre op post, ops = pre ++ op :: post → OrdOk (run {} pre) op := by
  intro pre op post e
  obtain ⟨i, hi, hg, rfl, rfl⟩ := mem_split_index e
  have := List.all_eq_true.mp h i (List.mem_range.mpr hi)
  rw [hg] at this
  clear h e hg
  generalize run {} (ops.take i) = s at this
  cases op with
  | startInsert c k r m =>
    intro x hx
    simpa using List.all_eq_true.mp this x hx
  | drop => simp [ordOkB] at this
  | crash l =>
    intro t mid v e
    simp [ordOkB, e, isStarting] at this
  | _ => trivial

example : (∀ pre op post, crashHistory = pre ++ op :: post → OrdOk (run {} pre) op) ∧
    (run {} crashHistory).log = [.assigned 10 77, .stopped 10 (-5) 200, .stopped 10 77 200] := ⟨ordOk_of (by decide +kernel), by decide +kernel⟩

/-- C119 is false of the code: a crash between the insertion of the row and the queueing of StartTransaction.req makes the station send StopTransaction.req with a
negative internal id for a transaction the CSMS has never heard of. -/
theorem C119_violated : ∃ ops k x v, Sane ops ∧ NoRace ops ∧ CrashOk ops ∧ (run {} ops).log = [.stopped k x v] :=
  ⟨[.startInsert 1 10 (-5) 100, .crash [], .deliver 0], 10, -5, 100, sane_of (by decide +kernel), noRace_of (by decide +kernel),
    crashOk_of (by decide +kernel), by decide +kernel⟩

end Verif.Tx16
