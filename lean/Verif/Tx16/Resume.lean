import Verif.Tx16.Theorems

/-! Properties of the transactions of OCPP 1.6: restart, remote stop, sample interval, order of the messages. -/

namespace Verif.Tx16

set_option linter.constructorNameAsVariable false

theorem inj_of_nodup' {α β : Type} {f : α → β} {l : List α} (h : (l.map f).Nodup) : ∀ a ∈ l, ∀ b ∈ l, f a = f b → a = b := by
  induction l with
  | nil => intro a ha; simp at ha
  | cons x l ih =>
    simp only [List.map_cons, List.nodup_cons, List.mem_map, not_exists, not_and] at h
    intro a ha b hb hab
    rcases List.mem_cons.mp ha with rfl | ha' <;> rcases List.mem_cons.mp hb with rfl | hb'
    · rfl
    · exact absurd hab.symm (h.1 b hb')
    · exact absurd hab (h.1 a ha')
    · exact ih h.2 a ha' b hb' hab

/-- The rows the CSMS has not acknowledged. -/
def unacked (s : S) : List Row := s.rows.filter (fun r => !r.acked)

/-- The meter value at the end of an interrupted transaction: the final one if it was stored, or the last one stored during the transaction. -/
def lastMeter (r : Row) : Int := r.meterStop.getD r.meterLast

theorem any_stop {q : List Msg} {n : Int} : q.any (fun m => m.stop && m.id == n) = true ↔ ∃ m ∈ q, m.stop = true ∧ m.id = n := by
  simp [List.any_eq_true, and_assoc]

theorem fold_queue (l : List Nat) : ∀ (b : List Row) (s : S), ∃ new, (b.foldl (resumeOne l) s).queue = s.queue ++ new ∧
    (∀ m ∈ new, m.stop = true ∧ (∃ r ∈ b, m.session = r.session ∧ m.id = r.txId ∧ m.meter = lastMeter r ∧ r.session ∉ l) ∧
      ∀ m' ∈ s.queue, m'.stop = true → m'.id ≠ m.id) ∧
    (new.map (·.id)).Nodup ∧
    ∀ r ∈ b, r.session ∉ l → ∃ m ∈ s.queue ++ new, m.stop = true ∧ m.id = r.txId := by
  intro b
  induction b with
  | nil => intro s; exact ⟨[], by simp, by simp, by simp, by simp⟩
  | cons r b ih =>
    intro s
    simp only [List.foldl_cons]
    obtain ⟨new, h1, h2, h3, h4⟩ := ih (resumeOne l s r)
    rw [h1]
    have hweak : ∀ {q : List Msg}, (∀ m ∈ s.queue, m ∈ q) → (∀ m ∈ new, m.stop = true ∧ (∃ r ∈ b, m.session = r.session ∧ m.id = r.txId ∧
        m.meter = lastMeter r ∧ r.session ∉ l) ∧ ∀ m' ∈ q, m'.stop = true → m'.id ≠ m.id) →
        ∀ m ∈ new, m.stop = true ∧ (∃ x ∈ r :: b, m.session = x.session ∧ m.id = x.txId ∧ m.meter = lastMeter x ∧ x.session ∉ l) ∧
        ∀ m' ∈ s.queue, m'.stop = true → m'.id ≠ m.id := by
      intro q hq h m hm
      obtain ⟨a1, ⟨x, hx, a2⟩, a3⟩ := h m hm
      exact ⟨a1, ⟨x, by simp [hx], a2⟩, fun m' hm' => a3 m' (hq m' hm')⟩
    unfold resumeOne at h2 h4 ⊢
    split at h2 <;> rename_i hq
    · rw [if_pos hq] at h4 ⊢
      refine ⟨new, rfl, hweak (fun _ h => h) h2, h3, ?_⟩
      intro x hx hl
      rcases List.mem_cons.mp hx with rfl | hx
      · obtain ⟨m, hm, hs, he⟩ := any_stop.mp hq
        exact ⟨m, by simp [hm], hs, he⟩
      · exact h4 x hx hl
    · rw [if_neg hq] at h4 ⊢
      split at h2 <;> rename_i hc
      · rw [if_pos hc] at h4 ⊢
        refine ⟨new, rfl, hweak (fun _ h => h) h2, h3, ?_⟩
        intro x hx hl
        rcases List.mem_cons.mp hx with rfl | hx
        · exact absurd (by simpa using hc) hl
        · exact h4 x hx hl
      · rw [if_neg hc] at h4 ⊢
        have hn : ∀ m' ∈ s.queue, m'.stop = true → m'.id ≠ r.txId := fun m' hm' hs he => hq (any_stop.mpr ⟨m', hm', hs, he⟩)
        refine ⟨_ :: new, by rw [List.append_assoc]; rfl, ?_, ?_, ?_⟩
        · intro m hm
          rcases List.mem_cons.mp hm with rfl | hm
          · exact ⟨rfl, ⟨r, by simp, rfl, rfl, rfl, by simpa using hc⟩, hn⟩
          · exact hweak (fun _ h => List.mem_append_left _ h) h2 m hm
        · simp only [List.map_cons, List.nodup_cons]
          refine ⟨?_, h3⟩
          intro he
          obtain ⟨m, hm, he⟩ := List.mem_map.mp he
          exact (h2 m hm).2.2 _ (List.mem_append_right _ (List.mem_singleton.mpr rfl)) rfl he.symm
        · intro x hx hl
          rcases List.mem_cons.mp hx with rfl | hx
          · exact ⟨_, List.mem_append_right _ (List.mem_cons_self), rfl, rfl⟩
          · obtain ⟨m, hm, h5⟩ := h4 x hx hl
            refine ⟨m, ?_, h5⟩
            simpa [or_assoc] using hm

theorem fold_active (l : List Nat) : ∀ (b : List Row) (s : S), ∀ t ∈ (b.foldl (resumeOne l) s).active,
    t ∈ s.active ∨ ∃ r ∈ b, t = r.tx ∧ r.session ∈ l := by
  intro b
  induction b with
  | nil => intro s t h; exact .inl h
  | cons r b ih =>
    intro s t ht
    rcases ih _ t ht with h | ⟨x, hx, h⟩
    · unfold resumeOne at h
      split at h
      · exact .inl (List.mem_filter.mp h).1
      · split at h
        · rename_i hc
          rcases List.mem_cons.mp h with rfl | h
          · exact .inr ⟨r, by simp, rfl, by simpa using hc⟩
          · exact .inl (List.mem_filter.mp h).1
        · exact .inl (List.mem_filter.mp h).1
    · exact .inr ⟨x, by simp [hx], h⟩

theorem fold_keeps (l : List Nat) : ∀ (b : List Row) (s : S) (t : Tx), t ∈ s.active → (∀ x ∈ b, x.conn ≠ t.conn) →
    t ∈ (b.foldl (resumeOne l) s).active := by
  intro b
  induction b with
  | nil => intro s t h _; exact h
  | cons r b ih =>
    intro s t ht hc
    simp only [List.foldl_cons]
    refine ih _ t ?_ (fun x hx => hc x (by simp [hx]))
    have hr : t ∈ s.active.filter (fun t => t.conn != r.conn) := List.mem_filter.mpr ⟨ht, by simpa using (hc r (by simp)).symm⟩
    unfold resumeOne
    split
    · exact hr
    · split
      · exact List.mem_cons_of_mem _ hr
      · exact hr

theorem fold_append (l : List Nat) (a b : List Row) (s : S) : (a ++ b).foldl (resumeOne l) s = b.foldl (resumeOne l) (a.foldl (resumeOne l) s) :=
  List.foldl_append

/-- C116: after a restart the queue has the messages it had before, and after them one StopTransaction.req for each transaction that the CSMS has not
acknowledged, that the application does not resume and for which no StopTransaction.req was queued, with the id and the last meter value of the row. -/
theorem C116_stops (s : S) (l : List Nat) : ∃ new, (restart s l).queue = s.queue.map (fun m => { m with mid := m.iid }) ++ new ∧
    (∀ m ∈ new, m.stop = true ∧ (∃ r ∈ unacked s, m.session = r.session ∧ m.id = r.txId ∧ m.meter = lastMeter r ∧ r.session ∉ l) ∧
      ∀ m' ∈ s.queue, m'.stop = true → m'.id ≠ m.id) ∧
    (new.map (·.id)).Nodup ∧
    (((unacked s).map (·.txId)).Nodup → ∀ r ∈ unacked s, r.session ∉ l → (∀ m' ∈ s.queue, m'.stop = true → m'.id ≠ r.txId) →
      ∃ m ∈ new, m.session = r.session ∧ m.id = r.txId ∧ m.meter = lastMeter r) := by
  obtain ⟨new, h1, h2, h3, h4⟩ := fold_queue l (unacked s) (crashed s)
  have hq : ∀ {P : Msg → Prop}, (∀ m, P m ↔ P { m with mid := m.iid }) → (∀ m' ∈ (crashed s).queue, P m') → ∀ m' ∈ s.queue, P m' := by
    intro P hP h m' hm'
    exact (hP m').mpr (h _ (List.mem_map.mpr ⟨m', hm', rfl⟩))
  refine ⟨new, h1, ?_, h3, ?_⟩
  · intro m hm
    obtain ⟨a1, a2, a3⟩ := h2 m hm
    exact ⟨a1, a2, hq (P := fun m' => m'.stop = true → m'.id ≠ m.id) (fun _ => Iff.rfl) a3⟩
  · intro hnd r hr hl hn
    obtain ⟨m, hm, hs, he⟩ := h4 r hr hl
    rcases List.mem_append.mp hm with hm | hm
    · obtain ⟨m0, h0, rfl⟩ := List.mem_map.mp hm
      exact absurd he (hn m0 h0 hs)
    · obtain ⟨_, ⟨x, hx, a1, a2, a3, _⟩, _⟩ := h2 m hm
      have : x = r := inj_of_nodup' hnd x hx r hr (a2.symm.trans he)
      subst this
      exact ⟨m, hm, a1, a2, a3⟩

/-- C116: the transactions the application resumes are active again with the id of the row, and no others. -/
theorem C116_resumed (s : S) (l : List Nat) :
    (∀ t ∈ (restart s l).active, ∃ r ∈ unacked s, r.session ∈ l ∧ t.session = r.session ∧ t.conn = r.conn ∧ t.txId = some r.txId) ∧
    ∀ a r b, unacked s = a ++ r :: b → r.session ∈ l → (∀ m ∈ s.queue, m.stop = true → m.id ≠ r.txId) → (∀ x ∈ a, x.txId ≠ r.txId) →
      (∀ x ∈ b, x.conn ≠ r.conn) → ∃ t ∈ (restart s l).active, t.session = r.session ∧ t.conn = r.conn ∧ t.txId = some r.txId := by
  constructor
  · intro t ht
    rcases fold_active l _ _ t ht with h | ⟨r, hr, rfl, hl⟩
    · simp [crashed] at h
    · exact ⟨r, hr, hl, rfl, rfl, rfl⟩
  · intro a r b e hl hq ha hb
    refine ⟨r.tx, ?_, rfl, rfl, rfl⟩
    show r.tx ∈ (List.foldl (resumeOne l) (crashed s) (unacked s)).active
    rw [e, fold_append, List.foldl_cons]
    refine fold_keeps l b _ _ ?_ hb
    obtain ⟨new, h1, h2, _, _⟩ := fold_queue l a (crashed s)
    generalize hu : a.foldl (resumeOne l) (crashed s) = u at h1
    unfold resumeOne
    rw [if_neg, if_pos (by simpa using hl)]
    · exact List.mem_cons_self
    · intro h
      obtain ⟨m, hm, hs, he⟩ := any_stop.mp h
      rw [h1] at hm
      rcases List.mem_append.mp hm with hm | hm
      · obtain ⟨m0, h0, rfl⟩ := List.mem_map.mp hm
        exact hq m0 h0 hs he
      · obtain ⟨_, ⟨x, hx, _, a2, _⟩, _⟩ := h2 m hm
        exact ha x hx (a2.symm.trans he)

/-- A station with an offline transaction whose StopTransaction.req is queued, one that will be resumed and one that will not. -/
def crashing : S := run {} [.startInsert 1 10 (-5) 100, .startQueue, .deliver 77, .sample 1 120, .startInsert 2 11 (-6) 7, .startQueue,
  .startInsert 3 9 (-4) 1, .startQueue, .stopQueue 3 2, .stopMark, .stopStore]

example : (restart crashing [11]).queue.map (fun m => (m.session, m.stop, m.id, m.meter)) =
    [(11, false, 0, 7), (9, false, 0, 1), (9, true, -4, 2), (10, true, 77, 120)] ∧
    (restart crashing [11]).active.map (fun t => (t.session, t.conn, t.txId)) = [(11, 2, some (-6))] ∧
    ((unacked crashing).map (·.txId)).Nodup := by decide +kernel

/-- C116: the value stored during a transaction is the last one measured by its timer. -/
theorem C116_measured (s : S) (c : Nat) (v : Int) (t : Tx) (ht : onConn s.active c = some t) (hi : t.timer = true) :
    ∀ r ∈ (step s (.sample c v)).rows, r.session = t.session → r.meterLast = v := by
  simp only [step, sample, ht, hi, if_true]
  intro r hr hs
  obtain ⟨x, hx, rfl⟩ := mem_updateRow.mp hr
  split at hs <;> rename_i h
  · rw [if_pos h]
  · exact absurd hs h

theorem updateRow_find {l : List Row} {k : Nat} {f : Row → Row} {r : Row} (hf : ∀ r, (f r).session = r.session ∧ (f r).meterLast = r.meterLast)
    (h : r ∈ updateRow l k f) : ∃ x ∈ l, x.session = r.session ∧ x.meterLast = r.meterLast := by
  obtain ⟨x, hx, rfl⟩ := mem_updateRow.mp h
  refine ⟨x, hx, ?_⟩
  split
  · exact ⟨(hf x).1.symm, (hf x).2.symm⟩
  · exact ⟨rfl, rfl⟩

theorem fold_rows (l : List Nat) : ∀ (b : List Row) (s : S), ∀ r ∈ (b.foldl (resumeOne l) s).rows,
    ∃ x ∈ s.rows, x.session = r.session ∧ x.meterLast = r.meterLast := by
  intro b
  induction b with
  | nil => intro s r h; exact ⟨r, h, rfl, rfl⟩
  | cons y b ih =>
    intro s r hr
    obtain ⟨x, hx, h1, h2⟩ := ih _ r hr
    unfold resumeOne at hx
    split at hx
    · exact ⟨x, hx, h1, h2⟩
    · split at hx
      · exact ⟨x, hx, h1, h2⟩
      · obtain ⟨z, hz, h3, h4⟩ := updateRow_find (f := ended s.next (y.meterStop.getD y.meterLast)) (fun r => ⟨rfl, rfl⟩) hx
        exact ⟨z, hz, h3.trans h1, h4.trans h2⟩

/-- C116: nothing else changes the value stored during a transaction: with any other step, a row has the value it had, or is the row of the transaction that
starts, with the value at its start. -/
theorem C116_measured_kept (s : S) (op : Op) (ho : ∀ c v, op ≠ .sample c v) (r : Row) (hr : r ∈ (step s op).rows) :
    (∃ x ∈ s.rows, x.session = r.session ∧ x.meterLast = r.meterLast) ∨ ∃ c i v, op = .startInsert c r.session i v ∧ r.meterLast = v := by
  have hid : r ∈ s.rows → ∃ x ∈ s.rows, x.session = r.session ∧ x.meterLast = r.meterLast := fun h => ⟨r, h, rfl, rfl⟩
  cases op with
  | sample c v => exact absurd rfl (ho c v)
  | startInsert c k i m =>
    simp only [step, startInsert] at hr
    split at hr
    · simp only [insertRow] at hr
      split at hr
      · exact .inl (hid hr)
      · rcases List.mem_append.mp hr with hr | hr
        · exact .inl (hid hr)
        · rw [List.mem_singleton] at hr; subst hr
          exact .inr ⟨c, i, m, rfl, rfl⟩
    · exact .inl (hid hr)
  | startQueue => simp only [step, startQueue] at hr; split at hr <;> exact .inl (hid hr)
  | stopQueue c v => simp only [step, stopQueue] at hr; split at hr <;> first | exact .inl (hid hr) | (split at hr <;> exact .inl (hid hr))
  | stopMark => simp only [step, stopMark] at hr; split at hr <;> exact .inl (hid hr)
  | stopStore =>
    simp only [step, stopStore] at hr
    split at hr
    · rename_i k mid v _
      exact .inl (updateRow_find (f := ended mid v) (fun r => ⟨rfl, rfl⟩) hr)
    · exact .inl (hid hr)
  | drop => exact .inl (hid hr)
  | retry => simp only [step, retry] at hr; split at hr <;> first | exact .inl (hid hr) | (split at hr <;> exact .inl (hid hr))
  | deliver n =>
    simp only [step, deliver] at hr
    split at hr
    · exact .inl (hid hr)
    · split at hr
      · simp only [stopConf, ack] at hr
        obtain ⟨x, hx, rfl⟩ := List.mem_map.mp hr
        refine .inl ⟨x, hx, ?_⟩
        split <;> exact ⟨rfl, rfl⟩
      · simp only [startConf] at hr
        split at hr
        · exact .inl (hid hr)
        · exact .inl (updateRow_find (f := fun r => { r with txId := n }) (fun r => ⟨rfl, rfl⟩) hr)
  | crash l => exact .inl (fold_rows l (unacked s) (crashed s) r hr)

/-- C117: a change of MeterValueSampleInterval reaches the timers of the running transactions without the use of a null pointer.  Partial: in histories in
which no transaction is resumed after a restart. -/
theorem C117_partial (ops : List Op) (h : ∀ l, .crash l ∈ ops → l = []) : changeInterval (run {} ops) = some () := by
  have key : ∀ t ∈ (run {} ops).active, t.timer = true := by
    have hup : ∀ {a : List Tx} {k : Nat} {f : Tx → Tx}, (∀ t, (f t).timer = t.timer) → (∀ t ∈ a, t.timer = true) → ∀ t ∈ updateTx a k f, t.timer = true := by
      intro a k f hf ha t ht
      obtain ⟨x, hx, rfl⟩ := mem_updateTx.mp ht
      split
      · rw [hf]; exact ha x hx
      · exact ha x hx
    have inv : ∀ (ops : List Op), (∀ l, .crash l ∈ ops → l = []) → ∀ s : S, (∀ t ∈ s.active, t.timer = true) →
        (∀ t mid v, s.pc = .starting t mid v → t.timer = true) → ∀ t ∈ (run s ops).active, t.timer = true := by
      intro ops
      induction ops with
      | nil => intro _ s h _; exact h
      | cons op ops ih =>
        intro hl s h1 h2
        refine ih (fun l h => hl l (by simp [h])) (step s op) ?_ ?_
        · cases op with
          | startInsert c k r m => simp only [step, startInsert]; split <;> exact h1
          | startQueue =>
            simp only [step, startQueue]; split
            · rename_i t mid v hp
              intro u hu
              rcases List.mem_cons.mp hu with rfl | hu
              · exact h2 t mid v hp
              · exact h1 u (List.mem_filter.mp hu).1
            · exact h1
          | stopQueue c v => simp only [step, stopQueue]; split <;> first | exact h1 | (split <;> exact h1)
          | stopMark =>
            simp only [step, stopMark]; split
            · intro u hu; exact h1 u (List.mem_filter.mp hu).1
            · exact h1
          | stopStore => simp only [step, stopStore]; split <;> exact h1
          | sample c v => simp only [step, sample]; split <;> first | exact h1 | (split <;> exact h1)
          | drop => exact h1
          | retry =>
            simp only [step, retry, renumber]; split
            · exact h1
            · split
              · exact h1
              · split
                · exact h1
                · exact hup (fun _ => rfl) h1
          | deliver n =>
            simp only [step, deliver, stopConf, startConf]; split
            · exact h1
            · split
              · exact h1
              · split
                · exact h1
                · exact hup (fun _ => rfl) h1
          | crash l =>
            have := hl l (by simp); subst this
            intro t ht
            obtain ⟨r, _, hr, _⟩ := (C116_resumed s []).1 t ht
            simp at hr
        · cases op with
          | startInsert c k r m =>
            simp only [step, startInsert]; split
            · intro t mid v e; injection e with e; rw [← e]
            · exact h2
          | startQueue => simp only [step, startQueue]; split <;> first | exact h2 | simp
          | stopQueue c v => simp only [step, stopQueue]; split <;> first | exact h2 | (split <;> first | exact h2 | simp)
          | stopMark => simp only [step, stopMark]; split <;> first | exact h2 | simp
          | stopStore => simp only [step, stopStore]; split <;> first | exact h2 | simp
          | sample c v => simp only [step, sample]; split <;> first | exact h2 | (split <;> exact h2)
          | drop => exact h2
          | retry => simp only [step, retry]; split <;> first | exact h2 | (split <;> exact h2)
          | deliver n => simp only [step, deliver, stopConf, startConf]; split <;> first | exact h2 | (split <;> first | exact h2 | (split <;> exact h2))
          | crash l =>
            have : ∀ (b : List Row) (s : S), (b.foldl (resumeOne l) s).pc = s.pc := by
              intro b
              induction b with
              | nil => intro s; rfl
              | cons r b ih => intro s; rw [List.foldl_cons, ih]; unfold resumeOne; split <;> first | rfl | (split <;> rfl)
            simp only [step, restart, this, crashed]
            simp
    exact inv ops h {} (by simp) (by simp)
  simp only [changeInterval]
  rw [if_pos (List.all_eq_true.mpr key)]

example : (run {} [.startInsert 1 10 (-5) 100, .startQueue, .crash [], .startInsert 1 11 (-5) 100, .startQueue]).active.length = 1 := by decide +kernel

/-- C117 is false of the code: a transaction resumed after a restart has no timer (`nullptr` in `try_resume_transactions`), and a change of the interval
dereferences it. -/
theorem C117_violated : ∃ ops, Sane ops ∧ NoRace ops ∧ CrashOk ops ∧ changeInterval (run {} ops) = none :=
  ⟨[.startInsert 1 10 (-5) 100, .startQueue, .deliver 77, .crash [10]], sane_of (by decide +kernel), noRace_of (by decide +kernel),
    crashOk_of (by decide +kernel), by decide +kernel⟩

/-- C118: RemoteStopTransaction is Accepted, and a transaction with the id of the request is stopped, exactly if there is a running one. -/
theorem C118_remote_stop (s : S) (id : Int) (hc : ∀ t ∈ s.active, 0 < t.conn) :
    (∀ c, remoteStop s id = some c → ∃ t ∈ s.active, t.conn = c ∧ t.txId = some id) ∧
    ((remoteStop s id).isSome ↔ ∃ t ∈ s.active, t.txId = some id) := by
  unfold remoteStop
  split
  · rename_i t ht
    have h1 := List.mem_of_find?_eq_some ht
    have h2 : t.txId = some id := by simpa using List.find?_some ht
    rw [if_pos (hc t h1)]
    exact ⟨fun c e => ⟨t, h1, by simpa using e, h2⟩, by simp only [Option.isSome_some, true_iff]; exact ⟨t, h1, h2⟩⟩
  · rename_i ht
    refine ⟨by simp, ?_⟩
    simp only [Option.isSome_none, Bool.false_eq_true, false_iff, not_exists, not_and]
    intro t h1 h2
    have := List.find?_eq_none.mp ht t h1
    simp [h2] at this

theorem snoc_hyps {ops : List Op} {op : Op} (h1 : Sane (ops ++ [op])) (h2 : NoRace (ops ++ [op])) (h3 : CrashOk (ops ++ [op])) :
    Sane ops ∧ NoRace ops ∧ CrashOk ops :=
  ⟨fun pre c k r m post e => h1 pre c k r m (post ++ [op]) (by rw [e]; simp), fun pre n post m e => h2 pre n (post ++ [op]) m (by rw [e]; simp),
    fun pre l post e => h3 pre l (post ++ [op]) (by rw [e]; simp)⟩

/-- C118: a running transaction has the id the CSMS has assigned to it, also after a restart.  So the CSMS can stop it with this id.
Partial: under the hypotheses of C114. -/
theorem C118_assigned_partial (ops : List Op) (h1 : Sane ops) (h2 : NoRace ops) (h3 : CrashOk ops) (t : Tx) (ht : t ∈ (run {} ops).active) (n : Int)
    (ha : .assigned t.session n ∈ (run {} ops).log) : t.txId = some n := by
  revert h1 h2 h3 t n
  induction ops using snoc_ind with
  | nil => intro _ _ _ t ht; simp [run] at ht
  | snoc ops op ih =>
    intro h1 h2 h3
    obtain ⟨g1, g2, g3⟩ := snoc_hyps h1 h2 h3
    have h := inv_run ops g1 g2 g3
    have K := ih g1 g2 g3
    rw [run_snoc]
    generalize run {} ops = s at h K
    have hup : ∀ (k : Nat) (j : Nat), ∀ t ∈ updateTx s.active k (fun t => { t with startMid := some j }), ∀ n, .assigned t.session n ∈ s.log → t.txId = some n := by
      intro k j t ht n ha
      obtain ⟨x, hx, rfl⟩ := mem_updateTx.mp ht
      split at ha <;> rename_i e
      · rw [if_pos e]; exact K x hx n ha
      · rw [if_neg e]; exact K x hx n ha
    cases op with
    | startInsert c k r m => simp only [step, startInsert]; split <;> exact K
    | startQueue =>
      simp only [step, startQueue]; split
      · rename_i t mid v hp
        intro u hu n ha
        rcases List.mem_cons.mp hu with rfl | hu
        · exact absurd ha ((h.pcStarting t mid v hp).2.2.2.2.2.2.2.2.1 n)
        · exact K u (List.mem_filter.mp hu).1 n ha
      · exact K
    | stopQueue c v => simp only [step, stopQueue]; split <;> first | exact K | (split <;> exact K)
    | stopMark =>
      simp only [step, stopMark]; split
      · intro u hu; exact K u (List.mem_filter.mp hu).1
      · exact K
    | stopStore => simp only [step, stopStore]; split <;> exact K
    | sample c v => simp only [step, sample]; split <;> first | exact K | (split <;> exact K)
    | drop => exact K
    | retry =>
      simp only [step, retry, renumber]; split
      · exact K
      · split
        · exact K
        · split
          · exact K
          · exact hup _ _
    | deliver n =>
      simp only [step, deliver]; split
      · exact K
      · rename_i m q hq
        split
        · intro t ht x ha
          simp only [stopConf, List.mem_append, List.mem_singleton, reduceCtorEq, or_false] at ha
          exact K t ht x ha
        · rename_i hm
          have hm' : m.stop = false := by simpa using hm
          have hmq : m ∈ s.queue := by rw [hq]; simp
          intro t ht x ha
          have hb' : byMid { s with queue := q, log := s.log ++ [.assigned m.session n] } m.mid = byMid s m.mid := rfl
          simp only [startConf, hb'] at ht ha
          cases hb : byMid s m.mid with
          | none =>
            simp only [hb, List.mem_append, List.mem_singleton, Ev.assigned.injEq] at ht ha
            rcases ha with ha | ha
            · exact K t ht x ha
            · exact absurd ha.1 ((byMid_none h hmq hm' hb).1 t ht)
          | some u =>
            simp only [hb, List.mem_append, List.mem_singleton, Ev.assigned.injEq] at ht ha
            have hu := (byMid_session h hmq hm' hb).1
            obtain ⟨y, hy, rfl⟩ := mem_updateTx.mp ht
            split at ha <;> rename_i e
            · rw [if_pos e]
              rcases ha with ha | ha
              · exact absurd (by rw [← hu, ← e]; exact ha) (h.startOnce m hmq hm' x)
              · rw [ha.2]
            · rw [if_neg e]
              rcases ha with ha | ha
              · exact K y hy x ha
              · exact absurd (ha.1.trans hu.symm) e
    | crash l =>
      intro t ht n ha
      have hlog : ∀ (b : List Row) (s : S), (b.foldl (resumeOne l) s).log = s.log := by
        intro b
        induction b with
        | nil => intro s; rfl
        | cons r b ih => intro s; rw [List.foldl_cons, ih]; unfold resumeOne; split <;> first | rfl | (split <;> rfl)
      simp only [step, restart, hlog] at ha
      obtain ⟨r, hr, _, e1, _, e2⟩ := (C116_resumed s l).1 t ht
      obtain ⟨h5, h6⟩ := List.mem_filter.mp hr
      rw [e2]
      rcases h.asg t.session n ha with h7 | h7
      · rw [h7 r h5 e1.symm]
      · have := h7.1 r h5 e1.symm
        simp [this] at h6

example : (run {} (history.take 18)).active.map (fun t => (t.session, t.conn, t.txId)) = [(11, 1, some 78)] ∧
    Ev.assigned 11 78 ∈ (run {} (history.take 18)).log ∧ remoteStop (run {} (history.take 18)) 78 = some 1 ∧
    remoteStop (run {} (history.take 18)) 79 = none ∧ Sane (history.take 18) ∧ NoRace (history.take 18) ∧ CrashOk (history.take 18) :=
  ⟨by decide +kernel, by decide +kernel, by decide +kernel, by decide +kernel, sane_of (by decide +kernel), noRace_of (by decide +kernel),
    crashOk_of (by decide +kernel)⟩

end Verif.Tx16
