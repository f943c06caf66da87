import Verif.Tx.Spec

set_option linter.constructorNameAsVariable false

namespace Verif.Tx

open Verif.Auth (Str Token ciEq)

/-! ## Outputs and events -/

theorem events_append (o o' : List Out) (x : Str) : events (o ++ o') x = events o x ++ events o' x := by
  simp [events, List.filterMap_append, List.filter_append]

theorem events_single (e : Event) (x : Str) :
    events [Out.event e] x = if e.txId = x then [e] else [] := by
  simp [events, Out.event?, List.filter_cons]

theorem events_other (o : Out) (h : o.event? = none) (x : Str) : events [o] x = [] := by
  simp [events, h]

theorem seqNos_append (o o' : List Out) (x : Str) : seqNos (o ++ o') x = seqNos o x ++ seqNos o' x := by
  simp [seqNos, events_append]

theorem types_append (o o' : List Out) (x : Str) : types (o ++ o') x = types o x ++ types o' x := by
  simp [types, events_append]

theorem seqNos_event (o : List Out) (e : Event) (x : Str) :
    seqNos (o ++ [Out.event e]) x = if e.txId = x then seqNos o x ++ [e.seqNo] else seqNos o x := by
  rw [seqNos_append]
  by_cases h : e.txId = x <;> simp [seqNos, events_single, h]

theorem types_event (o : List Out) (e : Event) (x : Str) :
    types (o ++ [Out.event e]) x = if e.txId = x then types o x ++ [e.type] else types o x := by
  rw [types_append]
  by_cases h : e.txId = x <;> simp [types, events_single, h]

theorem events_emit_other (s : State) (o : Out) (h : o.event? = none) (x : Str) :
    events (emit s o).out x = events s.out x := by
  simp [emit, events_append, events_other o h]

/-! ## Effects of single steps -/

/-- The event `send` emits, up to trigger and remote start id. -/
theorem send_some (evse : Nat) (ty : EventType) (tr : Trigger) (w : Bool) (tok : Option Token) (s : State)
    (t : Tx) (ht : s.tx evse = some t) :
    ∃ e : Event, e.type = ty ∧ e.txId = t.id ∧ e.seqNo = t.seqNo - 1 ∧ e.charging = t.charging ∧
      e.token = tok ∧ (send evse ty tr w tok s).out = s.out ++ [Out.event e] ∧
      (send evse ty tr w tok s).tx = s.tx ∧ (send evse ty tr w tok s).rows = s.rows ∧
      (send evse ty tr w tok s).diskOk = s.diskOk ∧ (send evse ty tr w tok s).conns = s.conns ∧
      (send evse ty tr w tok s).resume = s.resume := by
  unfold send
  rw [ht]
  dsimp only
  split
  · exact ⟨_, rfl, rfl, rfl, rfl, rfl, rfl, rfl, rfl, rfl, rfl, rfl⟩
  · exact ⟨_, rfl, rfl, rfl, rfl, rfl, rfl, rfl, rfl, rfl, rfl, rfl⟩

theorem send_none (evse : Nat) (ty : EventType) (tr : Trigger) (w : Bool) (tok : Option Token) (s : State)
    (ht : s.tx evse = none) : send evse ty tr w tok s = s := by
  unfold send
  rw [ht]

theorem bump_none (evse : Nat) (s : State) (ht : s.tx evse = none) : bump evse s = s := by
  unfold bump
  rw [ht]

theorem bump_some (evse : Nat) (s : State) (t : Tx) (ht : s.tx evse = some t) (hd : s.diskOk = true) :
    (bump evse s).tx = (fun e => if e = evse then some { t with seqNo := t.seqNo + 1 } else s.tx e) ∧
    (bump evse s).out = s.out ∧ (bump evse s).diskOk = true ∧ (bump evse s).conns = s.conns ∧
    (bump evse s).resume = s.resume ∧
    (bump evse s).rows = if t.dbEnabled
      then s.rows.map (fun r => if r.txId = t.id then { r with seqNo := t.seqNo + 1 } else r)
      else s.rows := by
  unfold bump
  rw [ht]
  dsimp only
  by_cases h : t.dbEnabled = true
  · simp [h, updateRows, setTx, hd]
  · simp [h, setTx, hd]

theorem getRow_mem {s : State} {evse : Nat} {r : Row} (h : getRow s evse = some r) :
    r ∈ s.rows ∧ r.evse = evse := by
  unfold getRow at h
  exact ⟨List.mem_of_find?_eq_some h, by simpa using List.find?_some h⟩

/-! ## The invariant behind the sequence numbers -/

/-- `n` is above all numbers used for `x`, by at most `c` more than there were events. -/
def Good (c : Nat) (out : List Out) (x : Str) (n : Nat) : Prop :=
  (∀ a ∈ seqNos out x, a < n) ∧ n ≤ (seqNos out x).length + c

structure Inv (c : Nat) (used : List Str) (s : State) : Prop where
  disk : s.diskOk = true
  mem : ∀ e t, s.tx e = some t → Good c s.out t.id t.seqNo ∧ t.id ∈ used
  row : ∀ r ∈ s.rows, Good c s.out r.txId r.seqNo ∧ r.txId ∈ used
  sync : ∀ e t r, s.tx e = some t → r ∈ s.rows → r.txId = t.id →
    t.dbEnabled = true ∧ r.seqNo = t.seqNo ∧ r.evse = e
  uniq : ∀ e e' t t', s.tx e = some t → s.tx e' = some t' → t.id = t'.id → e = e'
  rows : ∀ r r', r ∈ s.rows → r' ∈ s.rows → r.txId = r'.txId → r = r'
  evses : ∀ r r', r ∈ s.rows → r' ∈ s.rows → r.evse = r'.evse → r = r'
  sorted : ∀ x, (seqNos s.out x).Pairwise (· < ·)
  bound : ∀ x, ∀ a ∈ seqNos s.out x, a < (seqNos s.out x).length + c
  fresh : ∀ x, x ∉ used → seqNos s.out x = []

theorem Good.mono {c c' : Nat} {out : List Out} {x : Str} {n : Nat} (h : Good c out x n) (hc : c ≤ c') :
    Good c' out x n := ⟨h.1, by have := h.2; omega⟩

theorem Inv.mono {c c' : Nat} {used : List Str} {s : State} (h : Inv c used s) (hc : c ≤ c') :
    Inv c' used s where
  disk := h.disk
  mem e t ht := ⟨(h.mem e t ht).1.mono hc, (h.mem e t ht).2⟩
  row r hr := ⟨(h.row r hr).1.mono hc, (h.row r hr).2⟩
  sync := h.sync
  uniq := h.uniq
  rows := h.rows
  evses := h.evses
  sorted := h.sorted
  bound x a ha := by have := h.bound x a ha; omega
  fresh := h.fresh

theorem Inv.used_mono {c : Nat} {used used' : List Str} {s : State} (h : Inv c used s)
    (hu : ∀ x ∈ used, x ∈ used') : Inv c used' s where
  disk := h.disk
  mem e t ht := ⟨(h.mem e t ht).1, hu _ (h.mem e t ht).2⟩
  row r hr := ⟨(h.row r hr).1, hu _ (h.row r hr).2⟩
  sync := h.sync
  uniq := h.uniq
  rows := h.rows
  evses := h.evses
  sorted := h.sorted
  bound := h.bound
  fresh x hx := h.fresh x (fun h' => hx (hu x h'))

/-- Only the disk, the transactions, the rows and the sequence numbers sent matter. -/
theorem Inv.congr {c : Nat} {used : List Str} {s s' : State} (h : Inv c used s)
    (h1 : s'.diskOk = s.diskOk) (h2 : s'.tx = s.tx) (h3 : s'.rows = s.rows)
    (h4 : ∀ x, seqNos s'.out x = seqNos s.out x) : Inv c used s' where
  disk := by rw [h1]; exact h.disk
  mem e t ht := by
    rw [h2] at ht
    refine ⟨?_, (h.mem e t ht).2⟩
    have := (h.mem e t ht).1
    unfold Good at *
    rw [h4]; exact this
  row r hr := by
    rw [h3] at hr
    refine ⟨?_, (h.row r hr).2⟩
    have := (h.row r hr).1
    unfold Good at *
    rw [h4]; exact this
  sync e t r ht hr := by rw [h2] at ht; rw [h3] at hr; exact h.sync e t r ht hr
  uniq e e' t t' ht ht' := by rw [h2] at ht ht'; exact h.uniq e e' t t' ht ht'
  rows r r' hr hr' := by rw [h3] at hr hr'; exact h.rows r r' hr hr'
  evses r r' hr hr' := by rw [h3] at hr hr'; exact h.evses r r' hr hr'
  sorted x := by rw [h4]; exact h.sorted x
  bound x := by rw [h4]; exact h.bound x
  fresh x hx := by rw [h4]; exact h.fresh x hx

theorem Inv.emit_other {c : Nat} {used : List Str} {s : State} (h : Inv c used s) (o : Out)
    (ho : o.event? = none) : Inv c used (emit s o) :=
  h.congr rfl rfl rfl (fun x => by simp [seqNos, events_emit_other s o ho])

/-- Fewer rows. -/
theorem Inv.fewer_rows {c : Nat} {used : List Str} {s s' : State} (h : Inv c used s)
    (h1 : s'.diskOk = s.diskOk) (h2 : s'.tx = s.tx) (h3 : ∀ r ∈ s'.rows, r ∈ s.rows)
    (h4 : s'.out = s.out) : Inv c used s' where
  disk := by rw [h1]; exact h.disk
  mem e t ht := by rw [h2] at ht; rw [h4]; exact h.mem e t ht
  row r hr := by rw [h4]; exact h.row r (h3 r hr)
  sync e t r ht hr := by rw [h2] at ht; exact h.sync e t r ht (h3 r hr)
  uniq e e' t t' ht ht' := by rw [h2] at ht ht'; exact h.uniq e e' t t' ht ht'
  rows r r' hr hr' := h.rows r r' (h3 r hr) (h3 r' hr')
  evses r r' hr hr' := h.evses r r' (h3 r hr) (h3 r' hr')
  sorted x := by rw [h4]; exact h.sorted x
  bound x := by rw [h4]; exact h.bound x
  fresh x hx := by rw [h4]; exact h.fresh x hx

theorem deleteRow_facts (x : Str) (s : State) :
    (deleteRow x s).diskOk = s.diskOk ∧ (deleteRow x s).tx = s.tx ∧ (deleteRow x s).out = s.out ∧
    (deleteRow x s).conns = s.conns ∧ (deleteRow x s).resume = s.resume ∧
    ∀ r ∈ (deleteRow x s).rows, r ∈ s.rows := by
  unfold deleteRow
  split
  · refine ⟨rfl, rfl, rfl, rfl, rfl, ?_⟩
    intro r hr
    exact (List.mem_filter.mp hr).1
  · exact ⟨rfl, rfl, rfl, rfl, rfl, fun _ hr => hr⟩

theorem deleteRow_gone (x : Str) (s : State) (hd : s.diskOk = true) :
    ∀ r ∈ (deleteRow x s).rows, r.txId ≠ x := by
  unfold deleteRow
  rw [if_pos hd]
  intro r hr
  simpa using (List.mem_filter.mp hr).2

theorem deleteOwn_facts (e : Nat) (s : State) :
    (deleteOwn e s).diskOk = s.diskOk ∧ (deleteOwn e s).tx = s.tx ∧ (deleteOwn e s).out = s.out ∧
    (deleteOwn e s).conns = s.conns ∧ (deleteOwn e s).resume = s.resume ∧
    ∀ r ∈ (deleteOwn e s).rows, r ∈ s.rows := by
  unfold deleteOwn
  split
  · exact ⟨rfl, rfl, rfl, rfl, rfl, fun _ hr => hr⟩
  · exact deleteRow_facts _ _

theorem Inv.deleteRow {c : Nat} {used : List Str} {s : State} (h : Inv c used s) (x : Str) :
    Inv c used (deleteRow x s) := by
  obtain ⟨h1, h2, h3, _, _, h4⟩ := deleteRow_facts x s
  exact h.fewer_rows h1 h2 h4 h3

theorem Inv.deleteOwn {c : Nat} {used : List Str} {s : State} (h : Inv c used s) (e : Nat) :
    Inv c used (deleteOwn e s) := by
  obtain ⟨h1, h2, h3, _, _, h4⟩ := deleteOwn_facts e s
  exact h.fewer_rows h1 h2 h4 h3

theorem setTx_tx (s : State) (e : Nat) (t : Option Tx) (e' : Nat) :
    (setTx s e t).tx e' = if e' = e then t else s.tx e' := rfl

theorem Inv.setNone {c : Nat} {used : List Str} {s : State} (h : Inv c used s) (e : Nat) :
    Inv c used (setTx s e none) where
  disk := h.disk
  mem e' t ht := by
    rw [setTx_tx] at ht
    split at ht
    · cases ht
    · exact h.mem e' t ht
  row := h.row
  sync e' t r ht hr := by
    rw [setTx_tx] at ht
    split at ht
    · cases ht
    · exact h.sync e' t r ht hr
  uniq e1 e2 t t' ht ht' := by
    rw [setTx_tx] at ht ht'
    split at ht
    · cases ht
    · split at ht'
      · cases ht'
      · exact h.uniq e1 e2 t t' ht ht'
  rows := h.rows
  evses := h.evses
  sorted := h.sorted
  bound := h.bound
  fresh := h.fresh

/-- A new transaction, or the same one with other contents, at EVSE `e`. -/
theorem Inv.setSome {c : Nat} {used : List Str} {s : State} (h : Inv c used s) (e : Nat) (t : Tx)
    (hg : Good c s.out t.id t.seqNo) (hu : t.id ∈ used)
    (hs : ∀ r ∈ s.rows, r.txId = t.id → t.dbEnabled = true ∧ r.seqNo = t.seqNo ∧ r.evse = e)
    (hq : ∀ e' t', s.tx e' = some t' → t'.id = t.id → e' = e) :
    Inv c used (setTx s e (some t)) where
  disk := h.disk
  mem e' t' ht := by
    rw [setTx_tx] at ht
    split at ht
    · cases ht; exact ⟨hg, hu⟩
    · exact h.mem e' t' ht
  row := h.row
  sync e' t' r ht hr hx := by
    rw [setTx_tx] at ht
    split at ht
    · rename_i he; cases ht; rw [he]; exact hs r hr hx
    · exact h.sync e' t' r ht hr hx
  uniq e1 e2 t1 t2 ht ht' hx := by
    rw [setTx_tx] at ht ht'
    split at ht
    · rename_i he
      cases ht
      split at ht'
      · rename_i he'; rw [he, he']
      · rw [he]; exact (hq e2 t2 ht' hx.symm).symm
    · split at ht'
      · rename_i he'
        cases ht'
        rw [he']; exact hq e1 t1 ht hx
      · exact h.uniq e1 e2 t1 t2 ht ht' hx
  rows := h.rows
  evses := h.evses
  sorted := h.sorted
  bound := h.bound
  fresh := h.fresh

theorem Inv.setSame {c : Nat} {used : List Str} {s : State} (h : Inv c used s) (e : Nat) (t t' : Tx)
    (ht : s.tx e = some t) (h1 : t'.id = t.id) (h2 : t'.seqNo = t.seqNo) (h3 : t'.dbEnabled = t.dbEnabled) :
    Inv c used (setTx s e (some t')) := by
  refine h.setSome e t' ?_ ?_ ?_ ?_
  · rw [h1, h2]; exact (h.mem e t ht).1
  · rw [h1]; exact (h.mem e t ht).2
  · intro r hr hx
    rw [h1] at hx
    rw [h2, h3]
    exact h.sync e t r ht hr hx
  · intro e' t'' ht'' hx
    exact h.uniq e' e t'' t ht'' ht (by rw [hx, h1])

/-- Rows changed in columns other than id, EVSE and sequence number. -/
theorem Inv.updateRows_same {c : Nat} {used : List Str} {s : State} (h : Inv c used s) (x : Str) (f : Row → Row)
    (hf : ∀ r, (f r).txId = r.txId ∧ (f r).seqNo = r.seqNo ∧ (f r).evse = r.evse) :
    Inv c used (updateRows s x f) := by
  have key : ∀ r ∈ (updateRows s x f).rows, ∃ r0 ∈ s.rows, r = (if r0.txId = x then f r0 else r0) ∧
      r.txId = r0.txId ∧ r.seqNo = r0.seqNo ∧ r.evse = r0.evse := by
    intro r hr
    unfold updateRows at hr
    rw [if_pos h.disk] at hr
    simp only [List.mem_map] at hr
    obtain ⟨r0, hr0, he⟩ := hr
    refine ⟨r0, hr0, he.symm, ?_⟩
    by_cases hx : r0.txId = x
    · rw [if_pos hx] at he
      rw [← he]; exact hf r0
    · rw [if_neg hx] at he
      rw [← he]; exact ⟨rfl, rfl, rfl⟩
  have h1 : (updateRows s x f).tx = s.tx := by unfold updateRows; split <;> rfl
  have h2 : (updateRows s x f).out = s.out := by unfold updateRows; split <;> rfl
  have h3 : (updateRows s x f).diskOk = s.diskOk := by unfold updateRows; split <;> rfl
  constructor
  · rw [h3]; exact h.disk
  · intro e t ht; rw [h1] at ht; rw [h2]; exact h.mem e t ht
  · intro r hr
    obtain ⟨r0, hr0, _, hi, hs, _⟩ := key r hr
    rw [hi, hs, h2]; exact h.row r0 hr0
  · intro e t r ht hr hx
    rw [h1] at ht
    obtain ⟨r0, hr0, _, hi, hs, he⟩ := key r hr
    rw [hs, he]; exact h.sync e t r0 ht hr0 (by rw [← hi]; exact hx)
  · intro e e' t t' ht ht'; rw [h1] at ht ht'; exact h.uniq e e' t t' ht ht'
  · intro r r' hr hr' hx
    obtain ⟨r0, hr0, hv, hi, _, _⟩ := key r hr
    obtain ⟨r1, hr1, hv', hi', _, _⟩ := key r' hr'
    have : r0 = r1 := h.rows r0 r1 hr0 hr1 (by rw [← hi, ← hi', hx])
    rw [hv, hv', this]
  · intro r r' hr hr' hx
    obtain ⟨r0, hr0, hv, _, _, hi⟩ := key r hr
    obtain ⟨r1, hr1, hv', _, _, hi'⟩ := key r' hr'
    have : r0 = r1 := h.evses r0 r1 hr0 hr1 (by rw [← hi, ← hi', hx])
    rw [hv, hv', this]
  · intro y; rw [h2]; exact h.sorted y
  · intro y; rw [h2]; exact h.bound y
  · intro y hy; rw [h2]; exact h.fresh y hy

theorem Inv.markTokenSent {c : Nat} {used : List Str} {s : State} (h : Inv c used s) (e : Nat) :
    Inv c used (markTokenSent e s) := by
  unfold Tx.markTokenSent
  cases ht : s.tx e with
  | none => exact h
  | some t =>
    dsimp only
    have h' := h.setSame e t { t with idTokenSent := true } ht rfl rfl rfl
    split
    · exact h'.updateRows_same t.id _ (fun r => ⟨rfl, rfl, rfl⟩)
    · exact h'

/-- Inserting the row of the transaction just opened. -/
theorem Inv.insertRow {c : Nat} {used : List Str} {s : State} (h : Inv c used s) (e : Nat) (t : Tx)
    (ht : s.tx e = some t) (hdb : t.dbEnabled = true) : Inv c used (insertRow e t s) := by
  unfold Tx.insertRow
  split
  · rename_i hi
    have hi' : ∀ r ∈ s.rows, r.evse ≠ e ∧ r.txId ≠ t.id := by
      intro r hr
      simp only [canInsert, Bool.and_eq_true, List.all_eq_true] at hi
      have := hi.2 r hr
      simpa using this
    constructor
    · exact h.disk
    · exact h.mem
    · intro r hr
      rcases List.mem_append.mp hr with hr | hr
      · exact h.row r hr
      · have : r = rowOf e t := by simpa using hr
        rw [this]
        exact h.mem e t ht
    · intro e' t' r ht' hr hx
      rcases List.mem_append.mp hr with hr | hr
      · exact h.sync e' t' r ht' hr hx
      · have hr' : r = rowOf e t := by simpa using hr
        rw [hr'] at hx ⊢
        have hee : e' = e := h.uniq e' e t' t ht' ht hx.symm
        rw [hee] at ht'
        rw [ht] at ht'
        cases ht'
        exact ⟨hdb, rfl, hee.symm⟩
    · exact h.uniq
    · intro r r' hr hr' hx
      rcases List.mem_append.mp hr with hr | hr <;> rcases List.mem_append.mp hr' with hr' | hr'
      · exact h.rows r r' hr hr' hx
      · have h2 : r' = rowOf e t := by simpa using hr'
        rw [h2] at hx
        exact absurd hx (hi' r hr).2
      · have h2 : r = rowOf e t := by simpa using hr
        rw [h2] at hx
        exact absurd hx.symm (hi' r' hr').2
      · have h2 : r = rowOf e t := by simpa using hr
        have h3 : r' = rowOf e t := by simpa using hr'
        rw [h2, h3]
    · intro r r' hr hr' hx
      rcases List.mem_append.mp hr with hr | hr <;> rcases List.mem_append.mp hr' with hr' | hr'
      · exact h.evses r r' hr hr' hx
      · have h2 : r' = rowOf e t := by simpa using hr'
        rw [h2] at hx
        exact absurd hx (hi' r hr).1
      · have h2 : r = rowOf e t := by simpa using hr
        rw [h2] at hx
        exact absurd hx.symm (hi' r' hr').1
      · have h2 : r = rowOf e t := by simpa using hr
        have h3 : r' = rowOf e t := by simpa using hr'
        rw [h2, h3]
    · exact h.sorted
    · exact h.bound
    · exact h.fresh
  · exact h

/-- Taking a number. -/
theorem Inv.bump {c : Nat} {used : List Str} {s : State} (h : Inv c used s) (e : Nat) :
    Inv (c + 1) used (bump e s) := by
  cases ht : s.tx e with
  | none => rw [bump_none e s ht]; exact h.mono (by omega)
  | some t =>
    obtain ⟨h1, h2, h3, _, _, h4⟩ := bump_some e s t ht h.disk
    have hgt := (h.mem e t ht).1
    have hg' : Good (c + 1) s.out t.id (t.seqNo + 1) :=
      ⟨fun a ha => by have := hgt.1 a ha; omega, by have := hgt.2; omega⟩
    have hrow : ∀ r ∈ (Tx.bump e s).rows, ∃ r0 ∈ s.rows, r.txId = r0.txId ∧ r.evse = r0.evse ∧
        r = (if t.dbEnabled = true ∧ r0.txId = t.id then { r0 with seqNo := t.seqNo + 1 } else r0) := by
      intro r hr
      rw [h4] at hr
      by_cases hdb : t.dbEnabled = true
      · rw [if_pos hdb] at hr
        simp only [List.mem_map] at hr
        obtain ⟨r0, hr0, he⟩ := hr
        refine ⟨r0, hr0, ?_, ?_, ?_⟩
        · rw [← he]; split <;> rfl
        · rw [← he]; split <;> rfl
        · simp [hdb, he.symm]
      · rw [if_neg hdb] at hr
        exact ⟨r, hr, rfl, rfl, by simp [hdb]⟩
    have hmem : ∀ e' t', (Tx.bump e s).tx e' = some t' →
        (e' = e ∧ t' = { t with seqNo := t.seqNo + 1 }) ∨ (e' ≠ e ∧ s.tx e' = some t') := by
      intro e' t' ht'
      rw [h1] at ht'
      by_cases he : e' = e
      · simp only [he, if_true] at ht'
        exact Or.inl ⟨he, (Option.some.inj ht').symm⟩
      · simp only [he, if_false] at ht'
        exact Or.inr ⟨he, ht'⟩
    constructor
    · exact h3
    · intro e' t' ht'
      rw [h2]
      rcases hmem e' t' ht' with ⟨_, ht''⟩ | ⟨_, ht''⟩
      · rw [ht'']; exact ⟨hg', (h.mem e t ht).2⟩
      · exact ⟨(h.mem e' t' ht'').1.mono (by omega), (h.mem e' t' ht'').2⟩
    · intro r hr
      obtain ⟨r0, hr0, hi, _, hv⟩ := hrow r hr
      rw [h2]
      split at hv
      · rename_i hc
        have : r.seqNo = t.seqNo + 1 := by rw [hv]
        rw [this, hi, hc.2]
        exact ⟨hg', (h.mem e t ht).2⟩
      · rw [hv]
        exact ⟨(h.row r0 hr0).1.mono (by omega), (h.row r0 hr0).2⟩
    · intro e' t' r ht' hr hx
      obtain ⟨r0, hr0, hi, hev, hv⟩ := hrow r hr
      rcases hmem e' t' ht' with ⟨he, ht''⟩ | ⟨he, ht''⟩
      · have hx0 : r0.txId = t.id := by rw [← hi, hx, ht'']
        obtain ⟨hdb, _, hee⟩ := h.sync e t r0 ht hr0 hx0
        rw [if_pos ⟨hdb, hx0⟩] at hv
        rw [ht'', hv, he]
        exact ⟨hdb, rfl, hee⟩
      · have hx0 : r0.txId = t'.id := by rw [← hi, hx]
        obtain ⟨hdb, hsq, hee⟩ := h.sync e' t' r0 ht'' hr0 hx0
        split at hv
        · rename_i hc
          have : e' = e := h.uniq e' e t' t ht'' ht (by rw [← hx0, hc.2])
          exact absurd this he
        · rw [hv]
          exact ⟨hdb, hsq, hee⟩
    · intro e1 e2 t1 t2 ht1 ht2 hx
      rcases hmem e1 t1 ht1 with ⟨he1, h1'⟩ | ⟨he1, h1'⟩ <;> rcases hmem e2 t2 ht2 with ⟨he2, h2'⟩ | ⟨he2, h2'⟩
      · rw [he1, he2]
      · rw [he1]; exact h.uniq e e2 t t2 ht h2' (by rw [← hx, h1'])
      · rw [he2]; exact h.uniq e1 e t1 t h1' ht (by rw [hx, h2'])
      · exact h.uniq e1 e2 t1 t2 h1' h2' hx
    · intro r r' hr hr' hx
      obtain ⟨r0, hr0, hi, _, hv⟩ := hrow r hr
      obtain ⟨r1, hr1, hi', _, hv'⟩ := hrow r' hr'
      have : r0 = r1 := h.rows r0 r1 hr0 hr1 (by rw [← hi, ← hi', hx])
      rw [hv, hv', this]
    · intro r r' hr hr' hx
      obtain ⟨r0, hr0, _, hi, hv⟩ := hrow r hr
      obtain ⟨r1, hr1, _, hi', hv'⟩ := hrow r' hr'
      have : r0 = r1 := h.evses r0 r1 hr0 hr1 (by rw [← hi, ← hi', hx])
      rw [hv, hv', this]
    · intro x; rw [h2]; exact h.sorted x
    · intro x a ha; rw [h2] at ha ⊢; have := h.bound x a ha; omega
    · intro x hx; rw [h2]; exact h.fresh x hx

/-- Taking a number and sending the event with it. -/
theorem Inv.bump_send {c : Nat} {used : List Str} {s : State} (h : Inv c used s) (e : Nat) (ty : EventType)
    (tr : Trigger) (w : Bool) (tok : Option Token) : Inv c used (send e ty tr w tok (Tx.bump e s)) := by
  cases ht : s.tx e with
  | none =>
    rw [bump_none e s ht, send_none _ _ _ _ _ _ ht]
    exact h
  | some t =>
    have hb := h.bump e
    obtain ⟨h1, h2, h3, _, _, h4⟩ := bump_some e s t ht h.disk
    have ht' : (Tx.bump e s).tx e = some { t with seqNo := t.seqNo + 1 } := by rw [h1]; simp
    obtain ⟨ev, _, hid, hsq, _, _, ho, htx, hrw, hdk, _, _⟩ := send_some e ty tr w tok _ _ ht'
    have hsq' : ev.seqNo = t.seqNo := by rw [hsq]; rfl
    have hid' : ev.txId = t.id := hid
    have hgt := (h.mem e t ht).1
    have hseq : ∀ x, seqNos (send e ty tr w tok (Tx.bump e s)).out x =
        if t.id = x then seqNos s.out x ++ [t.seqNo] else seqNos s.out x := by
      intro x; rw [ho, seqNos_event, h2, hsq', hid']
    have hgood : ∀ n, Good (c + 1) s.out t.id n → t.seqNo < n →
        Good c (send e ty tr w tok (Tx.bump e s)).out t.id n := by
      intro n hn hlt
      refine ⟨?_, ?_⟩
      · intro a ha
        rw [hseq, if_pos rfl] at ha
        rcases List.mem_append.mp ha with ha | ha
        · exact hn.1 a ha
        · have : a = t.seqNo := by simpa using ha
          omega
      · rw [hseq, if_pos rfl]
        have := hn.2
        simp; omega
    have hother : ∀ x n, x ≠ t.id → Good c s.out x n →
        Good c (send e ty tr w tok (Tx.bump e s)).out x n := by
      intro x n hx hn
      unfold Good at *
      rw [hseq, if_neg (fun h => hx h.symm)]
      exact hn
    have hg' : Good (c + 1) s.out t.id (t.seqNo + 1) :=
      ⟨fun a ha => by have := hgt.1 a ha; omega, by have := hgt.2; omega⟩
    constructor
    · rw [hdk]; exact h3
    · intro e' t' ht2
      rw [htx, h1] at ht2
      by_cases he : e' = e
      · simp only [he, if_true] at ht2
        rw [← Option.some.inj ht2]
        exact ⟨hgood _ hg' (by dsimp only; omega), (h.mem e t ht).2⟩
      · simp only [he, if_false] at ht2
        refine ⟨hother _ _ ?_ (h.mem e' t' ht2).1, (h.mem e' t' ht2).2⟩
        intro hx
        exact he (h.uniq e' e t' t ht2 ht hx)
    · intro r hr
      rw [hrw] at hr
      have hr0 := hr
      rw [h4] at hr
      by_cases hx : r.txId = t.id
      · have hs := hb.sync e _ r ht' hr0 hx
        have hs2 : r.seqNo = t.seqNo + 1 := hs.2.1
        rw [hx, hs2]
        exact ⟨hgood _ hg' (by omega), (h.mem e t ht).2⟩
      · have hr1 : r ∈ s.rows := by
          split at hr
          · simp only [List.mem_map] at hr
            obtain ⟨r0, hr0', he⟩ := hr
            by_cases hx0 : r0.txId = t.id
            · rw [if_pos hx0] at he
              exact absurd (by rw [← he]; exact hx0) hx
            · rw [if_neg hx0] at he
              rw [← he]; exact hr0'
          · exact hr
        exact ⟨hother _ _ hx (h.row r hr1).1, (h.row r hr1).2⟩
    · intro e' t' r ht2 hr
      rw [htx] at ht2; rw [hrw] at hr
      exact hb.sync e' t' r ht2 hr
    · intro e1 e2 t1 t2 ht1 ht2
      rw [htx] at ht1 ht2
      exact hb.uniq e1 e2 t1 t2 ht1 ht2
    · intro r r' hr hr'
      rw [hrw] at hr hr'
      exact hb.rows r r' hr hr'
    · intro r r' hr hr'
      rw [hrw] at hr hr'
      exact hb.evses r r' hr hr'
    · intro x
      rw [hseq]
      split
      · rename_i hx
        rw [List.pairwise_append]
        refine ⟨h.sorted x, by simp, ?_⟩
        intro a ha b hb'
        have : b = t.seqNo := by simpa using hb'
        rw [this]
        exact hgt.1 a (by rw [hx]; exact ha)
      · exact h.sorted x
    · intro x a ha
      rw [hseq] at ha ⊢
      split at ha
      · rename_i hx
        rw [if_pos hx]
        rcases List.mem_append.mp ha with ha | ha
        · have := h.bound x a ha
          simp; omega
        · have h5 : a = t.seqNo := by simpa using ha
          have h6 := hgt.2
          rw [hx] at h6
          simp; omega
      · rename_i hx
        rw [if_neg hx]
        exact h.bound x a ha
    · intro x hx
      rw [hseq]
      split
      · rename_i he
        rw [← he] at hx
        exact absurd (h.mem e t ht).2 hx
      · exact h.fresh x hx

/-! ## Chains of steps -/

theorem exec_cons (s : State) (f : State → State) (l : List (State → State)) :
    exec s (f :: l) = exec (f s) l := rfl

theorem exec_nil (s : State) : exec s [] = s := rfl

theorem exec_append (s : State) (l l' : List (State → State)) :
    exec s (l ++ l') = exec (exec s l) l' := by simp [exec, List.foldl_append]

/-- All steps lead to the invariant with slack `c`, any number of them to slack `c + 1`. -/
structure Safe (c : Nat) (used : List Str) (s : State) (l : List (State → State)) : Prop where
  whole : Inv c used (exec s l)
  part : ∀ k, Inv (c + 1) used (exec s (l.take k))

theorem Safe.nil {c : Nat} {used : List Str} {s : State} (h : Inv c used s) : Safe c used s [] :=
  ⟨h, fun k => by rw [List.take_nil]; exact (h.mono (by omega) : Inv (c + 1) used s)⟩

theorem Safe.cons {c : Nat} {used : List Str} {s : State} {f : State → State} {l : List (State → State)}
    (h : Inv c used s) (h' : Safe c used (f s) l) : Safe c used s (f :: l) := by
  refine ⟨h'.whole, ?_⟩
  intro k
  cases k with
  | zero => exact (h.mono (by omega) : Inv (c + 1) used s)
  | succ k => exact h'.part k

theorem Safe.pair {c : Nat} {used : List Str} {s : State} {f g : State → State} {l : List (State → State)}
    (h : Inv c used s) (hf : Inv (c + 1) used (f s)) (h' : Safe c used (g (f s)) l) :
    Safe c used s (f :: g :: l) := by
  refine ⟨h'.whole, ?_⟩
  intro k
  cases k with
  | zero => exact (h.mono (by omega) : Inv (c + 1) used s)
  | succ k =>
    cases k with
    | zero => exact hf
    | succ k => exact h'.part k

theorem Safe.events {c : Nat} {used : List Str} (ty : EventType) (tr : Trigger) (w : Bool)
    (tok : Option Token) : ∀ (l : List Nat) (s : State), Inv c used s →
    Safe c used s (l.flatMap (fun e => [Tx.bump e, send e ty tr w tok])) := by
  intro l
  induction l with
  | nil => intro s h; exact Safe.nil h
  | cons e l ih =>
    intro s h
    rw [List.flatMap_cons]
    exact Safe.pair h (h.bump e) (ih _ (h.bump_send e ty tr w tok))

theorem Safe.emits {c : Nat} {used : List Str} (f : Nat → Out) (hf : ∀ n, (f n).event? = none)
    (rest : List (State → State)) : ∀ (l : List Nat) (s : State), Inv c used s →
    (∀ s', Inv c used s' → Safe c used s' rest) →
    Safe c used s (l.map (fun e => fun s => emit s (f e)) ++ rest) := by
  intro l
  induction l with
  | nil => intro s h hr; exact hr s h
  | cons e l ih =>
    intro s h hr
    exact Safe.cons h (ih _ (h.emit_other (f e) (hf e)) hr)

/-! ## Restart -/

theorem Inv.powerOff {c : Nat} {used : List Str} {s : State} (h : Inv c used s) :
    Inv c used (powerOff s) where
  disk := h.disk
  mem e t ht := by cases ht
  row := h.row
  sync e t r ht := by cases ht
  uniq e e' t t' ht := by cases ht
  rows := h.rows
  evses := h.evses
  sorted := h.sorted
  bound := h.bound
  fresh := h.fresh

theorem Inv.bootEvse {c : Nat} {used : List Str} {s : State} (h : Inv c used s) (e : Nat) :
    Inv c used (bootEvse s e) := by
  unfold Tx.bootEvse
  cases hr : getRow s e with
  | none => exact h
  | some r =>
    obtain ⟨hm, he⟩ := getRow_mem hr
    dsimp only
    split
    · refine h.setSome e _ (h.row r hm).1 (h.row r hm).2 ?_ ?_
      · intro r' hr' hx
        have : r' = r := h.rows r' r hr' hm hx
        rw [this]
        exact ⟨rfl, rfl, he⟩
      · intro e' t' ht' hx
        have := (h.sync e' t' r ht' hm hx.symm).2.2
        rw [← this, he]
    · exact h.deleteRow _

theorem Inv.bootAll {c : Nat} {used : List Str} {s : State} (h : Inv c used s) (conns : List Nat) :
    Inv c used (bootAll conns s) := by
  unfold Tx.bootAll
  have h0 : Inv c used { Tx.powerOff s with conns := conns } := h.powerOff.congr rfl rfl rfl (fun _ => rfl)
  revert h0
  generalize ({ Tx.powerOff s with conns := conns } : State) = s0
  generalize evseIds conns = l
  induction l generalizing s0 with
  | nil => intro h0; exact h0
  | cons e l ih => intro h0; exact ih _ (h0.bootEvse e)

/-! ## Every operation -/

theorem afterFinish_facts (e : Nat) (s : State) :
    (afterFinish e s).tx = s.tx ∧ (afterFinish e s).rows = s.rows ∧ (afterFinish e s).diskOk = s.diskOk ∧
    ∀ x, events (afterFinish e s).out x = events s.out x := by
  unfold afterFinish
  split
  · exact ⟨rfl, rfl, rfl, fun _ => rfl⟩
  · split
    · split
      · exact ⟨rfl, rfl, rfl, fun x => events_emit_other _ _ rfl x⟩
      · exact ⟨rfl, rfl, rfl, fun _ => rfl⟩
    · split
      · exact ⟨rfl, rfl, rfl, fun x => events_emit_other _ _ rfl x⟩
      · exact ⟨rfl, rfl, rfl, fun x => events_emit_other _ _ rfl x⟩

theorem Inv.afterFinish {c : Nat} {used : List Str} {s : State} (h : Inv c used s) (e : Nat) :
    Inv c used (afterFinish e s) := by
  obtain ⟨h1, h2, h3, h4⟩ := afterFinish_facts e s
  exact h.congr h3 h1 h2 (fun x => by simp [seqNos, h4])

/-- The id an operation uses for a new transaction. -/
def opId : Op → List Str
  | .start _ _ x _ _ _ _ => [x]
  | _ => []

theorem safe_steps {c : Nat} {used : List Str} {s : State} (h : Inv c used s) (o : Op)
    (hf : ∀ x ∈ opId o, x ∉ used) (hd : o ≠ .disk false) : Safe c (opId o ++ used) s (steps s o) := by
  have hup : Inv c (opId o ++ used) s := h.used_mono (fun x hx => List.mem_append_right _ hx)
  cases o with
  | start e k x tr tok rid ch =>
    have hxu : x ∉ used := hf x (by simp [opId])
    simp only [steps]
    split
    · exact Safe.cons hup (Safe.nil (hup.emit_other _ rfl))
    · have hnorow : ∀ r ∈ s.rows, r.txId ≠ x := by
        intro r hr hx
        exact hxu (hx ▸ (h.row r hr).2)
      have hseq : seqNos s.out x = [] := h.fresh x hxu
      have h1 : Inv c (opId (.start e k x tr tok rid ch) ++ used) (setTx s e (some (newTx s k x tok rid ch))) := by
        refine hup.setSome e _ ?_ ?_ ?_ ?_
        · exact ⟨by simp [newTx, hseq], by simp [newTx]⟩
        · simp [newTx, opId]
        · intro r hr hx
          exact absurd hx (hnorow r hr)
        · intro e' t' ht' hx
          exact absurd ((h.mem e' t' ht').2) (by rw [hx]; exact hxu)
      have fin : ∀ s', Inv c (opId (.start e k x tr tok rid ch) ++ used) s' →
          Safe c (opId (.start e k x tr tok rid ch) ++ used) s'
            (if openThrows s e (newTx s k x tok rid ch) then [fun s => emit s .threw]
             else [Tx.bump e, send e .started tr true tok]) := by
        intro s' hs'
        split
        · exact Safe.cons hs' (Safe.nil (hs'.emit_other _ rfl))
        · exact Safe.pair hs' (hs'.bump e) (Safe.nil (hs'.bump_send e _ _ _ _))
      have htx1 : (setTx s e (some (newTx s k x tok rid ch))).tx e = some (newTx s k x tok rid ch) := by
        simp [setTx]
      unfold openSteps
      by_cases hres : s.resume = true
      · rw [if_neg (by simp [hres])]
        have hdb : (newTx s k x tok rid ch).dbEnabled = true := hres
        split
        · exact Safe.cons hup (Safe.cons h1 (fin _ (h1.insertRow e _ htx1 hdb)))
        · have h2 := h1.deleteOwn e
          have htx2 : (deleteOwn e (setTx s e (some (newTx s k x tok rid ch)))).tx e =
              some (newTx s k x tok rid ch) := by
            rw [(deleteOwn_facts e _).2.1]; exact htx1
          exact Safe.cons hup (Safe.cons h1 (Safe.cons h2 (fin _ (h2.insertRow e _ htx2 hdb))))
      · rw [if_pos (by simp [hres])]
        exact Safe.cons hup (fin _ h1)
  | authorized e tok =>
    simp only [steps]
    split
    · exact Safe.cons hup (Safe.nil (hup.emit_other _ rfl))
    · split
      · exact Safe.nil hup
      · split
        · exact Safe.nil hup
        · have h1 := hup.markTokenSent e
          exact Safe.cons hup (Safe.pair h1 (h1.bump e) (Safe.nil (h1.bump_send e _ _ _ _)))
  | charging e st tr =>
    simp only [steps]
    split
    · exact Safe.cons hup (Safe.nil (hup.emit_other _ rfl))
    · split
      · exact Safe.nil hup
      · rename_i t ht
        split
        · exact Safe.nil hup
        · have h1 := hup.setSame e t { t with charging := some st } ht rfl rfl rfl
          exact Safe.cons hup (Safe.pair h1 (h1.bump e) (Safe.nil (h1.bump_send e _ _ _ _)))
  | meter e =>
    simp only [steps]
    split
    · exact Safe.nil hup
    · exact Safe.pair hup (hup.bump e) (Safe.nil (hup.bump_send e _ _ _ _))
  | triggerMessage oe =>
    cases oe with
    | none => exact Safe.events _ _ _ _ _ _ hup
    | some e =>
      simp only [steps]
      split
      · exact Safe.cons hup (Safe.nil (hup.emit_other _ rfl))
      · exact Safe.pair hup (hup.bump e) (Safe.nil (hup.bump_send e _ _ _ _))
  | finish e tr tok ch =>
    simp only [steps]
    split
    · exact Safe.cons hup (Safe.nil (hup.emit_other _ rfl))
    · split
      · exact Safe.nil hup
      · rename_i t ht
        have h1 := hup.setSame e t { t with charging := some ch, stopped := true } ht rfl rfl rfl
        have h2 := h1.bump_send e .ended tr false (if tr = .stopAuthorized then tok else none)
        have h3 := h2.deleteRow t.id
        have h4 := h3.setNone e
        exact Safe.cons hup (Safe.pair h1 (h1.bump e)
          (Safe.cons h2 (Safe.cons h3 (Safe.cons h4 (Safe.nil (h4.afterFinish e))))))
  | resetReq oe ty al ar =>
    simp only [steps]
    split
    · exact Safe.cons hup (Safe.nil (hup.emit_other _ rfl))
    · have tail : ∀ s', Inv c (opId (.resetReq oe ty al ar) ++ used) s' →
          Safe c (opId (.resetReq oe ty al ar) ++ used) s'
            (if resetStatus s oe ty al ar = .accepted then [fun s => emit s (.reset oe .immediate)] else []) := by
        intro s' hs'
        split
        · exact Safe.cons hs' (Safe.nil (hs'.emit_other _ rfl))
        · exact Safe.nil hs'
      have mid : ∀ s', Inv c (opId (.resetReq oe ty al ar) ++ used) s' →
          Safe c (opId (.resetReq oe ty al ar) ++ used) s'
            ((if resetStatus s oe ty al ar = .rejected ∨ (resetActive s oe).isEmpty then []
              else if ty = .immediate then (resetActive s oe).map (fun e => fun s => emit s (.stop e))
              else (resetIdle s oe).map (fun e => fun s => emit s (.unavailable e))) ++
            (if resetStatus s oe ty al ar = .accepted then [fun s => emit s (.reset oe .immediate)] else [])) := by
        intro s' hs'
        split
        · exact tail s' hs'
        · split
          · exact Safe.emits Out.stop (fun _ => rfl) _ _ _ hs' tail
          · exact Safe.emits Out.unavailable (fun _ => rfl) _ _ _ hs' tail
      rw [List.append_assoc, List.append_assoc]
      split
      · have h1 : Inv c (opId (.resetReq oe ty al ar) ++ used) (schedule oe s) :=
          hup.congr rfl rfl rfl (fun _ => rfl)
        exact Safe.cons hup (Safe.cons h1 (mid _ (h1.emit_other _ rfl)))
      · exact Safe.cons hup (mid _ (hup.emit_other _ rfl))
  | remoteStart e tok rid => exact Safe.cons hup (Safe.nil (hup.congr rfl rfl rfl (fun _ => rfl)))
  | setResume b => exact Safe.cons hup (Safe.nil (hup.congr rfl rfl rfl (fun _ => rfl)))
  | disk ok =>
    cases ok with
    | false => exact absurd rfl hd
    | true => exact Safe.cons hup (Safe.nil (hup.congr h.disk.symm rfl rfl (fun _ => rfl)))
  | boot conns => exact Safe.cons hup (Safe.nil (hup.bootAll conns))

theorem startedId_opId (c : Cmd) : (startedId c).toList = opId (opOf c) := by
  cases c with
  | op o => cases o <;> rfl
  | cut o k => cases o <;> rfl

theorem Inv.step {n : Nat} {used : List Str} {s : State} (h : Inv n used s) (c : Cmd)
    (hf : ∀ x, startedId c = some x → x ∉ used) (hd : opOf c ≠ .disk false) :
    Inv (n + if isCut c then 1 else 0) ((startedId c).toList ++ used) (Tx.step s c) := by
  have hf' : ∀ x ∈ opId (opOf c), x ∉ used := by
    intro x hx
    rw [← startedId_opId] at hx
    exact hf x (by simpa using hx)
  have hs := safe_steps h (opOf c) hf' hd
  rw [startedId_opId]
  cases c with
  | op o => exact hs.whole
  | cut o k => exact (hs.part k).bootAll _

theorem Inv.run : ∀ (h : List Cmd) (n : Nat) (used : List Str) (s : State), Inv n used s →
    (h.filterMap startedId).Nodup → (∀ x ∈ h.filterMap startedId, x ∉ used) → DiskFine h →
    ∃ used', Inv (n + cuts h) used' (Tx.run s h) := by
  intro h
  induction h with
  | nil => intro n used s hi _ _ _; exact ⟨used, hi⟩
  | cons c h ih =>
    intro n used s hi hn hu hd
    have hd' : DiskFine h := fun c' hc' => hd c' (List.mem_cons_of_mem _ hc')
    have hstep := hi.step c (fun x hx => hu x (by simp [hx])) (hd c (by simp))
    have key : ∃ used', Inv (n + (if isCut c then 1 else 0) + cuts h) used' (Tx.run (Tx.step s c) h) := by
      refine ih _ _ _ hstep ?_ ?_ hd'
      · cases hc : startedId c with
        | none => simpa [hc] using hn
        | some x =>
          simp only [List.filterMap_cons, hc, List.nodup_cons] at hn
          exact hn.2
      · intro y hy
        cases hc : startedId c with
        | none =>
          have := hu y (by simp only [List.filterMap_cons, hc]; exact hy)
          simpa using this
        | some x =>
          have h1 := hu y (by simp only [List.filterMap_cons, hc]; exact List.mem_cons_of_mem _ hy)
          simp only [List.filterMap_cons, hc, List.nodup_cons] at hn
          intro hmem
          rcases List.mem_append.mp hmem with hm | hm
          · have : y = x := by simpa using hm
            exact hn.1 (this ▸ hy)
          · exact h1 hm
    obtain ⟨u, hu'⟩ := key
    refine ⟨u, ?_⟩
    have : n + cuts (c :: h) = n + (if isCut c then 1 else 0) + cuts h := by
      unfold cuts
      rw [List.countP_cons]
      split <;> omega
    rw [this]
    exact hu'

theorem Inv.clean (conns : List Nat) (resume : Bool) : Inv 0 [] (clean conns resume) where
  disk := rfl
  mem e t ht := by cases ht
  row r hr := by cases hr
  sync e t r ht := by cases ht
  uniq e e' t t' ht := by cases ht
  rows r r' hr := by cases hr
  evses r r' hr := by cases hr
  sorted x := by simp [Tx.clean, seqNos, events]
  bound x a ha := by simp [Tx.clean, seqNos, events] at ha
  fresh x _ := by simp [Tx.clean, seqNos, events]

/-- An increasing list of numbers below its length is 0, 1, 2, ... -/
theorem eq_range_of_sorted : ∀ (l : List Nat), l.Pairwise (· < ·) → (∀ a ∈ l, a < l.length) →
    l = List.range l.length := by
  have key : ∀ (l : List Nat) (k : Nat), l.Pairwise (· < ·) → (∀ a ∈ l, k ≤ a) →
      (∀ a ∈ l, a < k + l.length) → l = List.range' k l.length := by
    intro l
    induction l with
    | nil => intro k _ _ _; rfl
    | cons b l ih =>
      intro k hp hk hb
      rw [List.pairwise_cons] at hp
      have hkb := hk b (by simp)
      -- the tail lies above b and below k + 1 + length
      have htail : ∀ a ∈ l, k + 1 ≤ a := fun a ha => by have := hp.1 a ha; omega
      have hl := ih (k + 1) hp.2 htail
        (fun a ha => by have := hb a (List.mem_cons_of_mem _ ha); simp only [List.length_cons] at this; omega)
      have hbk : b = k := by
        rcases Nat.lt_or_ge k b with hlt | hge
        · exfalso
          cases hl' : l with
          | nil => rw [hl'] at hb; have := hb b (by simp); simp at this; omega
          | cons d l' =>
            have hd : d ∈ l := by rw [hl']; simp
            have h1 := hp.1 d hd
            rw [hl, hl', List.length_cons, List.range'_succ] at hd
            have : l.head? = some (k + 1) := by
              rw [hl, hl', List.length_cons, List.range'_succ]; rfl
            rw [hl'] at this
            have : d = k + 1 := by simpa using this
            omega
        · omega
      rw [hbk, List.length_cons, List.range'_succ, ← hl]
  intro l hp hb
  rw [List.range_eq_range']
  exact key l 0 hp (fun _ _ => Nat.zero_le _) (fun a ha => by have := hb a ha; omega)

end Verif.Tx
