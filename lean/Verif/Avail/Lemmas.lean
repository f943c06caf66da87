import Verif.Avail.Spec

/- Helper lemmas about availability. -/
set_option linter.constructorNameAsVariable false

namespace Verif.Avail

/-! ## Ids -/

theorem mem_evseIds (conns : List Nat) (e : Nat) : e ∈ evseIds conns ↔ 1 ≤ e ∧ e ≤ conns.length := by
  unfold evseIds
  rw [List.mem_map]
  constructor
  · rintro ⟨a, ha, rfl⟩
    have := List.mem_range.mp ha
    omega
  · intro h
    exact ⟨e - 1, List.mem_range.mpr (by omega), by omega⟩

theorem mem_connIds (conns : List Nat) (e c : Nat) : c ∈ connIds conns e ↔ 1 ≤ c ∧ c ≤ numConns conns e := by
  unfold connIds
  rw [List.mem_map]
  constructor
  · rintro ⟨a, ha, rfl⟩
    have := List.mem_range.mp ha
    omega
  · intro h
    exact ⟨c - 1, List.mem_range.mpr (by omega), by omega⟩

theorem mem_allConns (conns : List Nat) (e c : Nat) :
    (e, c) ∈ allConns conns ↔ 1 ≤ e ∧ e ≤ conns.length ∧ 1 ≤ c ∧ c ≤ numConns conns e := by
  unfold allConns
  rw [List.mem_flatMap]
  constructor
  · rintro ⟨e', he', hp⟩
    obtain ⟨c', hc', h⟩ := List.mem_map.mp hp
    obtain ⟨rfl, rfl⟩ := Prod.mk.inj h
    have h1 := (mem_evseIds _ _).mp he'
    have h2 := (mem_connIds _ _ _).mp hc'
    exact ⟨h1.1, h1.2, h2.1, h2.2⟩
  · rintro ⟨h1, h2, h3, h4⟩
    exact ⟨e, (mem_evseIds _ _).mpr ⟨h1, h2⟩, List.mem_map.mpr ⟨c, (mem_connIds _ _ _).mpr ⟨h3, h4⟩, rfl⟩⟩

theorem exists_iff (conns : List Nat) (e c : Nat) : exists_ conns e c = true ↔ (e, c) ∈ allConns conns := by
  rw [mem_allConns]
  simp [exists_]

theorem effConn_eq (s : State) (e c : Nat) : effConn s e c = (effEvse s e && s.conn e c) := by
  unfold effConn
  cases effEvse s e <;> rfl

theorem effEvse_eq (s : State) (e : Nat) : effEvse s e = (s.cs && s.evse e) := by
  unfold effEvse
  cases s.cs <;> rfl

/-! ## Callbacks change only what was last handed to them -/

def isCall : Out → Bool
  | .csChanged _ => true
  | .evseChanged _ _ => true
  | .connChanged _ _ _ => true
  | _ => false

/-- Only the caches of the callbacks change, and callbacks are called. -/
def Calls (s s' : State) : Prop :=
  ∃ a b c l, s' = { s with lastCs := a, lastEvse := b, lastConn := c, out := s.out ++ l } ∧ ∀ o ∈ l, isCall o = true

theorem Calls.refl (s : State) : Calls s s := ⟨s.lastCs, s.lastEvse, s.lastConn, [], by simp, by simp⟩

theorem Calls.trans {s1 s2 s3 : State} (h : Calls s1 s2) (h' : Calls s2 s3) : Calls s1 s3 := by
  obtain ⟨a, b, c, l, rfl, hl⟩ := h
  obtain ⟨a', b', c', l', rfl, hl'⟩ := h'
  refine ⟨a', b', c', l ++ l', by simp, ?_⟩
  intro o ho
  rcases List.mem_append.mp ho with ho | ho
  · exact hl o ho
  · exact hl' o ho

theorem Calls.trigConn (only : Bool) (e : Nat) (s : State) (c : Nat) : Calls s (trigConn only e s c) := by
  unfold Avail.trigConn
  dsimp only
  split
  · exact ⟨_, _, _, [.connChanged e c (effConn s e c)], rfl, by simp [isCall]⟩
  · exact Calls.refl s

theorem Calls.foldl {α : Type} (f : State → α → State) (hf : ∀ s a, Calls s (f s a)) (l : List α) (s : State) :
    Calls s (l.foldl f s) := by
  induction l generalizing s with
  | nil => exact Calls.refl s
  | cons a l ih => exact (hf s a).trans (ih _)

theorem Calls.trigEvse (only : Bool) (s : State) (e : Nat) : Calls s (trigEvse only s e) := by
  unfold Avail.trigEvse
  dsimp only
  split
  · refine Calls.trans ?_ (Calls.foldl _ (fun s c => Calls.trigConn only e s c) _ _)
    exact ⟨_, _, _, [.evseChanged e (effEvse s e)], rfl, by simp [isCall]⟩
  · exact Calls.refl s

theorem Calls.trigCs (only : Bool) (s : State) : Calls s (trigCs only s) := by
  unfold Avail.trigCs
  dsimp only
  split
  · refine Calls.trans ?_ (Calls.foldl _ (fun s c => Calls.trigEvse only s c) _ _)
    exact ⟨_, _, _, [.csChanged s.cs], rfl, by simp [isCall]⟩
  · exact Calls.refl s

/-- Fields left alone by callbacks. -/
theorem Calls.same {s s' : State} (h : Calls s s') :
    s'.conns = s.conns ∧ s'.cs = s.cs ∧ s'.evse = s.evse ∧ s'.conn = s.conn ∧ s'.flags = s.flags ∧
    s'.lastReported = s.lastReported ∧ s'.db = s.db ∧ s'.online = s.online ∧ s'.tx = s.tx ∧ s'.sched = s.sched := by
  obtain ⟨a, b, c, l, rfl, _⟩ := h
  exact ⟨rfl, rfl, rfl, rfl, rfl, rfl, rfl, rfl, rfl, rfl⟩

theorem Calls.out {s s' : State} (h : Calls s s') : ∃ l, s'.out = s.out ++ l ∧ ∀ o ∈ l, isCall o = true := by
  obtain ⟨a, b, c, l, rfl, hl⟩ := h
  exact ⟨l, rfl, hl⟩

/-! ## Temporary changes -/

/-- Only statuses change, nothing is persisted. -/
structure Temp (s s' : State) : Prop where
  conns : s'.conns = s.conns
  flags : s'.flags = s.flags
  lastReported : s'.lastReported = s.lastReported
  db : s'.db = s.db
  online : s'.online = s.online
  tx : s'.tx = s.tx
  sched : s'.sched = s.sched
  out : ∃ l, s'.out = s.out ++ l ∧ ∀ o ∈ l, isCall o = true

theorem Temp.refl (s : State) : Temp s s := ⟨rfl, rfl, rfl, rfl, rfl, rfl, rfl, [], by simp, by simp⟩

theorem Temp.trans {s1 s2 s3 : State} (h : Temp s1 s2) (h' : Temp s2 s3) : Temp s1 s3 := by
  obtain ⟨l, h1, h2⟩ := h.out
  obtain ⟨l', h1', h2'⟩ := h'.out
  refine ⟨by rw [h'.conns, h.conns], by rw [h'.flags, h.flags], by rw [h'.lastReported, h.lastReported],
    by rw [h'.db, h.db], by rw [h'.online, h.online], by rw [h'.tx, h.tx], by rw [h'.sched, h.sched],
    l ++ l', by rw [h1', h1, List.append_assoc], ?_⟩
  intro o ho
  rcases List.mem_append.mp ho with ho | ho
  · exact h2 o ho
  · exact h2' o ho

theorem Temp.of_calls {s s' s'' : State} (h : Calls s' s'') (h0 : Temp s s') : Temp s s'' := by
  refine h0.trans ?_
  obtain ⟨h1, _, _, _, h5, h6, h7, h8, h9, h10⟩ := h.same
  exact ⟨h1, h5, h6, h7, h8, h9, h10, h.out⟩

theorem Temp.foldl {α : Type} (f : State → α → State) (hf : ∀ s a, Temp s (f s a)) (l : List α) (s : State) :
    Temp s (l.foldl f s) := by
  induction l generalizing s with
  | nil => exact Temp.refl s
  | cons a l ih => exact (hf s a).trans (ih _)

theorem setCs_fields (op persist : Bool) (s : State) :
    (setCs op persist s).conns = s.conns ∧ (setCs op persist s).cs = op ∧ (setCs op persist s).evse = s.evse ∧
    (setCs op persist s).conn = s.conn ∧ (setCs op persist s).flags = s.flags ∧
    (setCs op persist s).lastReported = s.lastReported ∧
    (setCs op persist s).db = (if persist then upd2 s.db 0 0 (some op) else s.db) ∧
    (setCs op persist s).online = s.online ∧ (setCs op persist s).tx = s.tx ∧ (setCs op persist s).sched = s.sched := by
  obtain ⟨h1, h2, h3, h4, h5, h6, h7, h8, h9, h10⟩ := (Calls.trigCs true (store { s with cs := op } 0 0 op persist)).same
  unfold setCs
  rw [h1, h2, h3, h4, h5, h6, h7, h8, h9, h10]
  cases persist <;> exact ⟨rfl, rfl, rfl, rfl, rfl, rfl, rfl, rfl, rfl, rfl⟩

theorem setEvse_fields (e : Nat) (op persist : Bool) (s : State) :
    (setEvse e op persist s).conns = s.conns ∧ (setEvse e op persist s).cs = s.cs ∧
    (setEvse e op persist s).evse = upd s.evse e op ∧
    (setEvse e op persist s).conn = s.conn ∧ (setEvse e op persist s).flags = s.flags ∧
    (setEvse e op persist s).lastReported = s.lastReported ∧
    (setEvse e op persist s).db = (if persist then upd2 s.db e 0 (some op) else s.db) ∧
    (setEvse e op persist s).online = s.online ∧ (setEvse e op persist s).tx = s.tx ∧
    (setEvse e op persist s).sched = s.sched := by
  obtain ⟨h1, h2, h3, h4, h5, h6, h7, h8, h9, h10⟩ :=
    (Calls.trigEvse true (store { s with evse := upd s.evse e op } e 0 op persist) e).same
  unfold setEvse
  rw [h1, h2, h3, h4, h5, h6, h7, h8, h9, h10]
  cases persist <;> exact ⟨rfl, rfl, rfl, rfl, rfl, rfl, rfl, rfl, rfl, rfl⟩

theorem setConn_fields (e c : Nat) (op persist : Bool) (s : State) :
    (setConn e c op persist s).conns = s.conns ∧ (setConn e c op persist s).cs = s.cs ∧
    (setConn e c op persist s).evse = s.evse ∧
    (setConn e c op persist s).conn = upd2 s.conn e c op ∧ (setConn e c op persist s).flags = s.flags ∧
    (setConn e c op persist s).lastReported = s.lastReported ∧
    (setConn e c op persist s).db = (if persist then upd2 s.db e c (some op) else s.db) ∧
    (setConn e c op persist s).online = s.online ∧ (setConn e c op persist s).tx = s.tx ∧
    (setConn e c op persist s).sched = s.sched := by
  obtain ⟨h1, h2, h3, h4, h5, h6, h7, h8, h9, h10⟩ :=
    (Calls.trigConn true e (store { s with conn := upd2 s.conn e c op } e c op persist) c).same
  unfold setConn
  rw [h1, h2, h3, h4, h5, h6, h7, h8, h9, h10]
  cases persist <;> exact ⟨rfl, rfl, rfl, rfl, rfl, rfl, rfl, rfl, rfl, rfl⟩

theorem store_out (s : State) (e c : Nat) (op persist : Bool) : (store s e c op persist).out = s.out := by
  unfold store; split <;> rfl

theorem setCs_out (op persist : Bool) (s : State) :
    ∃ l, (setCs op persist s).out = s.out ++ l ∧ ∀ o ∈ l, isCall o = true := by
  obtain ⟨l, h1, h2⟩ := (Calls.trigCs true (store { s with cs := op } 0 0 op persist)).out
  exact ⟨l, by unfold setCs; rw [h1, store_out], h2⟩

theorem setEvse_out (e : Nat) (op persist : Bool) (s : State) :
    ∃ l, (setEvse e op persist s).out = s.out ++ l ∧ ∀ o ∈ l, isCall o = true := by
  obtain ⟨l, h1, h2⟩ := (Calls.trigEvse true (store { s with evse := upd s.evse e op } e 0 op persist) e).out
  exact ⟨l, by unfold setEvse; rw [h1, store_out], h2⟩

theorem setConn_out (e c : Nat) (op persist : Bool) (s : State) :
    ∃ l, (setConn e c op persist s).out = s.out ++ l ∧ ∀ o ∈ l, isCall o = true := by
  obtain ⟨l, h1, h2⟩ := (Calls.trigConn true e (store { s with conn := upd2 s.conn e c op } e c op persist) c).out
  exact ⟨l, by unfold setConn; rw [h1, store_out], h2⟩

theorem Temp.setEvse (e : Nat) (op : Bool) (s : State) : Temp s (setEvse e op false s) := by
  obtain ⟨h1, _, _, _, h5, h6, h7, h8, h9, h10⟩ := setEvse_fields e op false s
  exact ⟨h1, h5, h6, h7, h8, h9, h10, setEvse_out e op false s⟩

theorem Temp.setConn (e c : Nat) (op : Bool) (s : State) : Temp s (setConn e c op false s) := by
  obtain ⟨h1, _, _, _, h5, h6, h7, h8, h9, h10⟩ := setConn_fields e c op false s
  exact ⟨h1, h5, h6, h7, h8, h9, h10, setConn_out e c op false s⟩

theorem Temp.restoreConn (e c : Nat) (s : State) : Temp s (restoreConn e c s) := by
  unfold Avail.restoreConn
  split
  · exact Temp.setConn e c _ s
  · exact Temp.refl s

theorem Temp.blockEvse (s : State) (e : Nat) : Temp s (blockEvse s e) :=
  Temp.foldl _ (fun s c => Temp.setConn e c false s) _ s

theorem Temp.blockIdle (t : Target) (s : State) : Temp s (blockIdle t s) := by
  unfold Avail.blockIdle
  split
  · refine Temp.foldl _ ?_ _ s
    intro s e
    split
    · exact Temp.refl s
    · exact Temp.setEvse e false s
  · refine Temp.foldl _ ?_ _ s
    intro s c
    split
    · exact Temp.refl s
    · exact Temp.setConn _ c false s

theorem Temp.firmwareRestore (s : State) : Temp s (firmwareRestore s) :=
  Temp.foldl (fun s (p : Nat × Nat) => Avail.restoreConn p.1 p.2 s) (fun s p => Temp.restoreConn p.1 p.2 s) _ s

/-! ## What a change executed does -/

theorem execute_fields (t : Target) (op persist : Bool) (s : State) :
    (execute t op persist s).conns = s.conns ∧ (execute t op persist s).flags = s.flags ∧
    (execute t op persist s).lastReported = s.lastReported ∧ (execute t op persist s).online = s.online ∧
    (execute t op persist s).tx = s.tx ∧ (execute t op persist s).sched = s.sched ∧
    (∃ l, (execute t op persist s).out = s.out ++ l ∧ ∀ o ∈ l, isCall o = true) := by
  cases t with
  | station =>
    obtain ⟨h1, _, _, _, h5, h6, _, h8, h9, h10⟩ := setCs_fields op persist s
    exact ⟨h1, h5, h6, h8, h9, h10, setCs_out op persist s⟩
  | evse e =>
    obtain ⟨h1, _, _, _, h5, h6, _, h8, h9, h10⟩ := setEvse_fields e op persist s
    exact ⟨h1, h5, h6, h8, h9, h10, setEvse_out e op persist s⟩
  | conn e c =>
    obtain ⟨h1, _, _, _, h5, h6, _, h8, h9, h10⟩ := setConn_fields e c op persist s
    exact ⟨h1, h5, h6, h8, h9, h10, setConn_out e c op persist s⟩

/-- The row of a component. -/
def rowKey : Target → Nat × Nat
  | .station => (0, 0)
  | .evse e => (e, 0)
  | .conn e c => (e, c)

theorem execute_db (t : Target) (op persist : Bool) (s : State) :
    (execute t op persist s).db =
      if persist then upd2 s.db (rowKey t).1 (rowKey t).2 (some op) else s.db := by
  cases t with
  | station => exact (setCs_fields op persist s).2.2.2.2.2.2.1
  | evse e => exact (setEvse_fields e op persist s).2.2.2.2.2.2.1
  | conn e c => exact (setConn_fields e c op persist s).2.2.2.2.2.2.1

theorem execute_individual (t : Target) (op persist : Bool) (s : State) (t' : Target) :
    individual (execute t op persist s) t' = if t' = t then op else individual s t' := by
  cases t with
  | station =>
    obtain ⟨_, h2, h3, h4, _⟩ := setCs_fields op persist s
    cases t' <;> simp only [individual, execute, h2, h3, h4, reduceCtorEq, if_true, if_false]
  | evse e =>
    obtain ⟨_, h2, h3, h4, _⟩ := setEvse_fields e op persist s
    cases t' <;> simp only [individual, execute, h2, h3, h4, reduceCtorEq, if_true, if_false, upd, Target.evse.injEq]
  | conn e c =>
    obtain ⟨_, h2, h3, h4, _⟩ := setConn_fields e c op persist s
    cases t' <;> simp only [individual, execute, h2, h3, h4, reduceCtorEq, if_true, if_false, upd2, Target.conn.injEq]

/-! ## Targets of requests -/

theorem target_naming {conns : List Nat} {r : Req} {t : Target} (h : target conns r = some (some t)) :
    r.evse = naming t ∧ Exists conns t := by
  unfold target at h
  cases hr : r.evse with
  | none =>
    rw [hr] at h
    cases h
    exact ⟨rfl, trivial⟩
  | some p =>
    obtain ⟨e, c⟩ := p
    rw [hr] at h
    dsimp only at h
    split at h
    · cases h
    · rename_i h1
      cases c with
      | none =>
        dsimp only at h
        split at h
        · cases h
        · rename_i h2
          cases h
          exact ⟨by simp only [naming]; congr 2; omega, by simp only [Exists]; omega⟩
      | some c =>
        dsimp only at h
        split at h
        · cases h
        · rename_i h2
          split at h
          · cases h
          · rename_i h3
            split at h
            · cases h
            · rename_i h4
              cases h
              refine ⟨by simp only [naming]; congr 2 <;> first | omega | (congr 1; omega), ?_⟩
              simp only [Exists]; omega

theorem target_of_naming {conns : List Nat} {r : Req} {t : Target} (h : r.evse = naming t) (he : Exists conns t) :
    target conns r = some (some t) := by
  unfold target
  rw [h]
  cases t with
  | station => rfl
  | evse e =>
    simp only [naming]
    simp only [Exists] at he
    rw [if_neg (by omega), if_neg (by omega)]
    simp
  | conn e c =>
    simp only [naming]
    simp only [Exists] at he
    rw [if_neg (by omega), if_neg (by omega)]
    have : ((e : Int)).toNat = e := by omega
    rw [this, if_neg (by omega), if_neg (by omega)]
    simp

theorem naming_inj {t t' : Target} (h : naming t = naming t') : t = t' := by
  cases t <;> cases t' <;> simp [naming] at h ⊢
  · omega
  · omega

theorem keyOf_zero {conns : List Nat} {t : Target} (he : Exists conns t) : keyOf t = 0 ↔ t = .station := by
  cases t <;> simp [keyOf, evseOf, Exists] at he ⊢ <;> omega

theorem naming_fst (t : Target) (conns : List Nat) (he : Exists conns t) (t' : Target) (he' : Exists conns t') :
    (naming t).map Prod.fst = (naming t').map Prod.fst ↔ keyOf t = keyOf t' := by
  cases t <;> cases t' <;> simp [naming, keyOf, evseOf, Exists] at he he' ⊢ <;> omega

theorem anyActive_iff (s : State) (t : Target) : anyActive s (evseOf t) = true ↔ Busy s t := by
  cases t with
  | station =>
    simp only [evseOf, anyActive, Busy, List.any_eq_true]
    constructor
    · rintro ⟨e, he, ha⟩
      exact ⟨e, ((mem_evseIds _ _).mp he).1, ((mem_evseIds _ _).mp he).2, ha⟩
    · rintro ⟨e, h1, h2, h3⟩
      exact ⟨e, (mem_evseIds _ _).mpr ⟨h1, h2⟩, h3⟩
  | evse e => exact Iff.rfl
  | conn e c => exact Iff.rfl

/-! ## Callbacks follow the effective status -/

theorem callsCs_append (o o' : List Out) : callsCs (o ++ o') = callsCs o ++ callsCs o' := by
  simp [callsCs, List.filterMap_append]

theorem callsEvse_append (o o' : List Out) (e : Nat) : callsEvse (o ++ o') e = callsEvse o e ++ callsEvse o' e := by
  simp [callsEvse, List.filterMap_append]

theorem callsConn_append (o o' : List Out) (e c : Nat) :
    callsConn (o ++ o') e c = callsConn o e c ++ callsConn o' e c := by
  simp [callsConn, List.filterMap_append]

theorem notes_append (o o' : List Out) (e c : Nat) : notes (o ++ o') e c = notes o e c ++ notes o' e c := by
  simp [notes, List.filterMap_append]

theorem Tracks.snoc {l : List Bool} {b b' : Bool} (h : Tracks l b) (hne : b ≠ b') : Tracks (l ++ [b']) b' := by
  refine ⟨by simp, ?_⟩
  intro p x y q he
  rcases List.eq_nil_or_concat q with hq | ⟨q', z, hq⟩
  · subst hq
    have h1 : l ++ [b'] = (p ++ [x]) ++ [y] := by rw [he]; simp
    obtain ⟨h2, h3⟩ := List.append_inj' h1 rfl
    have h4 := h.1
    rw [h2] at h4
    simp at h4 h3
    rw [h4, ← h3]
    exact hne
  · subst hq
    have h1 : l ++ [b'] = (p ++ x :: y :: q') ++ [z] := by rw [he]; simp
    exact h.2 p x y q' (List.append_inj' h1 rfl).1

/-- The calls since output `n` follow the caches. -/
structure TInv (n : Nat) (s : State) : Prop where
  le : n ≤ s.out.length
  cs : Tracks (callsCs (s.out.drop n)) s.lastCs
  ev : ∀ e ∈ evseIds s.conns, Tracks (callsEvse (s.out.drop n) e) (s.lastEvse e)
  co : ∀ e c, (e, c) ∈ allConns s.conns → Tracks (callsConn (s.out.drop n) e c) (s.lastConn e c)

theorem TInv.trigConn {n : Nat} {s : State} (h : TInv n s) (e c : Nat) : TInv n (trigConn true e s c) := by
  unfold Avail.trigConn
  dsimp only
  split
  · rename_i hne
    have hne' : s.lastConn e c ≠ effConn s e c := by simpa using hne
    have hdrop : (s.out ++ [Out.connChanged e c (effConn s e c)]).drop n =
        s.out.drop n ++ [Out.connChanged e c (effConn s e c)] := List.drop_append_of_le_length h.le
    refine ⟨?_, ?_, ?_, ?_⟩
    · simp only [emit, List.length_append]; have := h.le; omega
    · simp only [emit]; rw [hdrop, callsCs_append]; simpa [callsCs] using h.cs
    · intro e' he'
      simp only [emit]; rw [hdrop, callsEvse_append]; simpa [callsEvse] using h.ev e' he'
    · intro e' c' hp
      simp only [emit]
      rw [hdrop, callsConn_append]
      by_cases hec : e' = e ∧ c' = c
      · obtain ⟨rfl, rfl⟩ := hec
        have := (h.co e' c' hp).snoc hne'
        simpa [callsConn, upd2] using this
      · have h1 : callsConn [Out.connChanged e c (effConn s e c)] e' c' = [] := by
          simp only [callsConn, List.filterMap_cons, List.filterMap_nil]
          rw [if_neg (fun hh => hec ⟨hh.1.symm, hh.2.symm⟩)]
        rw [h1, List.append_nil]
        simp only [upd2]
        rw [if_neg hec]
        exact h.co e' c' hp
  · exact h

theorem TInv.foldConn {n : Nat} {s : State} (h : TInv n s) (e : Nat) (l : List Nat) :
    TInv n (l.foldl (Avail.trigConn true e) s) := by
  induction l generalizing s with
  | nil => exact h
  | cons c l ih => exact ih (h.trigConn e c)

theorem TInv.trigEvse {n : Nat} {s : State} (h : TInv n s) (e : Nat) : TInv n (trigEvse true s e) := by
  unfold Avail.trigEvse
  dsimp only
  split
  · rename_i hne
    have hne' : s.lastEvse e ≠ effEvse s e := by simpa using hne
    have hdrop : (s.out ++ [Out.evseChanged e (effEvse s e)]).drop n =
        s.out.drop n ++ [Out.evseChanged e (effEvse s e)] := List.drop_append_of_le_length h.le
    refine TInv.foldConn (s := { emit s (.evseChanged e (effEvse s e)) with lastEvse := upd s.lastEvse e (effEvse s e) }) ⟨?_, ?_, ?_, ?_⟩ e _
    · simp only [emit, List.length_append]; have := h.le; omega
    · simp only [emit]; rw [hdrop, callsCs_append]; simpa [callsCs] using h.cs
    · intro e' he'
      simp only [emit]
      rw [hdrop, callsEvse_append]
      by_cases hee : e' = e
      · subst hee
        have := (h.ev e' he').snoc hne'
        simpa [callsEvse, upd] using this
      · have h1 : callsEvse [Out.evseChanged e (effEvse s e)] e' = [] := by
          simp only [callsEvse, List.filterMap_cons, List.filterMap_nil]
          rw [if_neg (fun hh => hee hh.symm)]
        rw [h1, List.append_nil]
        simp only [upd]
        rw [if_neg hee]
        exact h.ev e' he'
    · intro e' c' hp
      simp only [emit]; rw [hdrop, callsConn_append]; simpa [callsConn] using h.co e' c' hp
  · exact h

theorem TInv.foldEvse {n : Nat} {s : State} (h : TInv n s) (l : List Nat) :
    TInv n (l.foldl (Avail.trigEvse true) s) := by
  induction l generalizing s with
  | nil => exact h
  | cons e l ih => exact ih (h.trigEvse e)

theorem TInv.trigCs {n : Nat} {s : State} (h : TInv n s) : TInv n (trigCs true s) := by
  unfold Avail.trigCs
  dsimp only
  split
  · rename_i hne
    have hne' : s.lastCs ≠ s.cs := by simpa using hne
    have hdrop : (s.out ++ [Out.csChanged s.cs]).drop n = s.out.drop n ++ [Out.csChanged s.cs] :=
      List.drop_append_of_le_length h.le
    refine TInv.foldEvse (s := { emit s (.csChanged s.cs) with lastCs := s.cs }) ⟨?_, ?_, ?_, ?_⟩ _
    · simp only [emit, List.length_append]; have := h.le; omega
    · simp only [emit]
      rw [hdrop, callsCs_append]
      have := h.cs.snoc hne'
      simpa [callsCs] using this
    · intro e' he'
      simp only [emit]; rw [hdrop, callsEvse_append]; simpa [callsEvse] using h.ev e' he'
    · intro e' c' hp
      simp only [emit]; rw [hdrop, callsConn_append]; simpa [callsConn] using h.co e' c' hp
  · exact h

/-- Only the caches and the outputs matter; other outputs may be added. -/
theorem TInv.congr {n : Nat} {s s' : State} (h : TInv n s) (h1 : s'.conns = s.conns) (h2 : s'.lastCs = s.lastCs)
    (h3 : s'.lastEvse = s.lastEvse) (h4 : s'.lastConn = s.lastConn)
    (h5 : ∃ l, s'.out = s.out ++ l ∧ ∀ o ∈ l, isCall o = false) : TInv n s' := by
  obtain ⟨l, hl, hno⟩ := h5
  have hd : s'.out.drop n = s.out.drop n ++ l := by rw [hl]; exact List.drop_append_of_le_length h.le
  refine ⟨by rw [hl, List.length_append]; have := h.le; omega, ?_, ?_, ?_⟩
  · rw [hd, h2, callsCs_append]
    have : callsCs l = [] := by
      unfold callsCs
      rw [List.filterMap_eq_nil_iff]
      intro o ho
      have := hno o ho
      cases o <;> simp [isCall] at this ⊢
    rw [this, List.append_nil]; exact h.cs
  · intro e he
    rw [h1] at he
    rw [hd, h3, callsEvse_append]
    have : callsEvse l e = [] := by
      unfold callsEvse
      rw [List.filterMap_eq_nil_iff]
      intro o ho
      have := hno o ho
      cases o <;> simp [isCall] at this ⊢
    rw [this, List.append_nil]; exact h.ev e he
  · intro e c hp
    rw [h1] at hp
    rw [hd, h4, callsConn_append]
    have : callsConn l e c = [] := by
      unfold callsConn
      rw [List.filterMap_eq_nil_iff]
      intro o ho
      have := hno o ho
      cases o <;> simp [isCall] at this ⊢
    rw [this, List.append_nil]; exact h.co e c hp

/-- The caches hold the effective statuses. -/
structure CInv (s : State) : Prop where
  cs : s.lastCs = s.cs
  ev : ∀ e ∈ evseIds s.conns, s.lastEvse e = effEvse s e
  co : ∀ e c, (e, c) ∈ allConns s.conns → s.lastConn e c = effConn s e c

theorem trigConn_last (e : Nat) (s : State) (c e' c' : Nat) :
    (trigConn true e s c).lastConn e' c' = if e' = e ∧ c' = c then effConn s e c else s.lastConn e' c' := by
  unfold trigConn
  dsimp only
  split
  · rfl
  · rename_i h
    have h' : s.lastConn e c = effConn s e c := by simpa using h
    split
    · rename_i hec; rw [hec.1, hec.2]; exact h'
    · rfl

theorem effConn_calls {s s' : State} (h : Calls s s') (e c : Nat) : effConn s' e c = effConn s e c := by
  obtain ⟨_, h2, h3, h4, _⟩ := h.same
  rw [effConn_eq, effConn_eq, effEvse_eq, effEvse_eq, h2, h3, h4]

theorem effEvse_calls {s s' : State} (h : Calls s s') (e : Nat) : effEvse s' e = effEvse s e := by
  obtain ⟨_, h2, h3, h4, _⟩ := h.same
  rw [effEvse_eq, effEvse_eq, h2, h3]

theorem foldConn_last (e : Nat) (l : List Nat) (s : State) (e' c' : Nat) :
    (l.foldl (trigConn true e) s).lastConn e' c' =
      (if e' = e ∧ c' ∈ l then effConn s e' c' else s.lastConn e' c') ∧
    (l.foldl (trigConn true e) s).lastEvse = s.lastEvse ∧ (l.foldl (trigConn true e) s).lastCs = s.lastCs := by
  induction l generalizing s with
  | nil => simp
  | cons c l ih =>
    obtain ⟨i1, i2, i3⟩ := ih (trigConn true e s c)
    have hle : (trigConn true e s c).lastEvse = s.lastEvse ∧ (trigConn true e s c).lastCs = s.lastCs := by
      unfold trigConn; dsimp only; split <;> exact ⟨rfl, rfl⟩
    refine ⟨?_, by rw [List.foldl_cons, i2, hle.1], by rw [List.foldl_cons, i3, hle.2]⟩
    rw [List.foldl_cons, i1, effConn_calls (Calls.trigConn true e s c), trigConn_last]
    by_cases h1 : e' = e
    · by_cases h2 : c' = c
      · subst h1; subst h2; simp
      · subst h1; simp [h2]
    · simp [h1]

theorem trigEvse_last (s : State) (e : Nat) :
    (∀ e', (trigEvse true s e).lastEvse e' = if e' = e then effEvse s e else s.lastEvse e') ∧
    (trigEvse true s e).lastCs = s.lastCs ∧
    (∀ e' c', (trigEvse true s e).lastConn e' c' =
      if e' = e ∧ c' ∈ connIds s.conns e ∧ s.lastEvse e ≠ effEvse s e then effConn s e' c' else s.lastConn e' c') := by
  unfold trigEvse
  dsimp only
  split
  · rename_i hne
    have hne' : s.lastEvse e ≠ effEvse s e := by simpa using hne
    have key := foldConn_last e (connIds s.conns e)
      { emit s (.evseChanged e (effEvse s e)) with lastEvse := upd s.lastEvse e (effEvse s e) }
    refine ⟨?_, ?_, ?_⟩
    · intro e'
      have := (key e' 0).2.1
      have h2 := congrFun this e'
      exact h2
    · exact (key 0 0).2.2
    · intro e' c'
      have h1 := (key e' c').1
      refine Eq.trans h1 ?_
      by_cases hc : e' = e ∧ c' ∈ connIds s.conns e
      · rw [if_pos hc, if_pos ⟨hc.1, hc.2, hne'⟩]; rfl
      · rw [if_neg hc, if_neg (fun hh => hc ⟨hh.1, hh.2.1⟩)]; rfl
  · rename_i h
    have h' : s.lastEvse e = effEvse s e := by simpa using h
    refine ⟨?_, rfl, ?_⟩
    · intro e'
      split
      · rename_i hee; rw [hee]; exact h'
      · rfl
    · intro e' c'
      rw [if_neg (fun hh => hh.2.2 h')]

/-- Connector caches of one EVSE are right if its own cache is right; otherwise they are about to be
recomputed. -/
theorem foldEvse_last (l : List Nat) (s : State)
    (h : ∀ e ∈ l, ∀ c ∈ connIds s.conns e, s.lastEvse e = effEvse s e → s.lastConn e c = effConn s e c) :
    (l.foldl (trigEvse true) s).lastCs = s.lastCs ∧
    (∀ e ∈ l, (l.foldl (trigEvse true) s).lastEvse e = effEvse s e ∧
      ∀ c ∈ connIds s.conns e, (l.foldl (trigEvse true) s).lastConn e c = effConn s e c) ∧
    (∀ e, e ∉ l → (l.foldl (trigEvse true) s).lastEvse e = s.lastEvse e ∧
      ∀ c, (l.foldl (trigEvse true) s).lastConn e c = s.lastConn e c) := by
  induction l generalizing s with
  | nil => simp
  | cons a l ih =>
    obtain ⟨t1, t2, t3⟩ := trigEvse_last s a
    have hcalls := Calls.trigEvse true s a
    have hconns : (trigEvse true s a).conns = s.conns := hcalls.same.1
    have haok : (trigEvse true s a).lastEvse a = effEvse s a ∧
        ∀ c ∈ connIds s.conns a, (trigEvse true s a).lastConn a c = effConn s a c := by
      refine ⟨by rw [t1, if_pos rfl], ?_⟩
      intro c hc
      rw [t3]
      by_cases hne : s.lastEvse a = effEvse s a
      · rw [if_neg (fun hh => hh.2.2 hne)]
        exact h a (by simp) c hc hne
      · rw [if_pos ⟨rfl, hc, hne⟩]
    have hother : ∀ e, e ≠ a → (trigEvse true s a).lastEvse e = s.lastEvse e ∧
        ∀ c, (trigEvse true s a).lastConn e c = s.lastConn e c := by
      intro e he
      exact ⟨by rw [t1, if_neg he], fun c => by rw [t3, if_neg (fun hh => he hh.1)]⟩
    have ih' := ih (trigEvse true s a) (by
      intro e he c hc hle
      rw [hconns] at hc
      rw [effEvse_calls hcalls] at hle
      rw [effConn_calls hcalls]
      by_cases hea : e = a
      · subst hea; exact haok.2 c hc
      · rw [(hother e hea).1] at hle
        rw [(hother e hea).2]
        exact h e (List.mem_cons_of_mem _ he) c hc hle)
    obtain ⟨i1, i2, i3⟩ := ih'
    rw [List.foldl_cons]
    refine ⟨by rw [i1, t2], ?_, ?_⟩
    · intro e he
      by_cases hel : e ∈ l
      · obtain ⟨j1, j2⟩ := i2 e hel
        refine ⟨by rw [j1, effEvse_calls hcalls], ?_⟩
        intro c hc
        rw [j2 c (by rw [hconns]; exact hc), effConn_calls hcalls]
      · have hea : e = a := by
          rcases List.mem_cons.mp he with h' | h'
          · exact h'
          · exact absurd h' hel
        subst hea
        obtain ⟨j1, j2⟩ := i3 e hel
        refine ⟨by rw [j1]; exact haok.1, ?_⟩
        intro c hc
        rw [j2 c]; exact haok.2 c hc
    · intro e he
      have hea : e ≠ a := fun hh => he (by simp [hh])
      have hel : e ∉ l := fun hh => he (List.mem_cons_of_mem _ hh)
      obtain ⟨j1, j2⟩ := i3 e hel
      refine ⟨by rw [j1, (hother e hea).1], ?_⟩
      intro c
      rw [j2 c, (hother e hea).2]

theorem mem_all (conns : List Nat) (e c : Nat) :
    (e, c) ∈ allConns conns ↔ e ∈ evseIds conns ∧ c ∈ connIds conns e := by
  rw [mem_allConns, mem_evseIds, mem_connIds]
  constructor
  · rintro ⟨h1, h2, h3, h4⟩; exact ⟨⟨h1, h2⟩, h3, h4⟩
  · rintro ⟨⟨h1, h2⟩, h3, h4⟩; exact ⟨h1, h2, h3, h4⟩

theorem CInv.setConn {s : State} (h : CInv s) (e c : Nat) (op persist : Bool) : CInv (setConn e c op persist s) := by
  obtain ⟨f1, f2, f3, f4, _⟩ := setConn_fields e c op persist s
  have hcalls := Calls.trigConn true e (store { s with conn := upd2 s.conn e c op } e c op persist) c
  have hst : ∀ x y, (store { s with conn := upd2 s.conn e c op } e c op persist).lastConn x y = s.lastConn x y := by
    intro x y; unfold store; split <;> rfl
  have hle : (Avail.setConn e c op persist s).lastEvse = s.lastEvse ∧ (Avail.setConn e c op persist s).lastCs = s.lastCs := by
    unfold Avail.setConn Avail.trigConn
    dsimp only
    split <;> (unfold store; split <;> exact ⟨rfl, rfl⟩)
  refine ⟨by rw [hle.2, f2]; exact h.cs, ?_, ?_⟩
  · intro e' he'
    rw [f1] at he'
    rw [hle.1, h.ev e' he', effEvse_eq, effEvse_eq, f2, f3]
  · intro e' c' hp
    rw [f1] at hp
    have hlast : (Avail.setConn e c op persist s).lastConn e' c' =
        if e' = e ∧ c' = c then effConn (store { s with conn := upd2 s.conn e c op } e c op persist) e c
        else s.lastConn e' c' := by
      unfold Avail.setConn
      rw [trigConn_last, hst]
    rw [hlast]
    have heff : effConn (Avail.setConn e c op persist s) e' c' =
        effConn (store { s with conn := upd2 s.conn e c op } e c op persist) e' c' := effConn_calls hcalls e' c'
    by_cases hec : e' = e ∧ c' = c
    · rw [if_pos hec, heff, hec.1, hec.2]
    · rw [if_neg hec, h.co e' c' hp, effConn_eq, effConn_eq, effEvse_eq, effEvse_eq, f2, f3, f4]
      simp only [upd2]
      rw [if_neg hec]

theorem CInv.setEvse {s : State} (h : CInv s) (e : Nat) (he : e ∈ evseIds s.conns) (op persist : Bool) :
    CInv (setEvse e op persist s) := by
  obtain ⟨f1, f2, f3, f4, _⟩ := setEvse_fields e op persist s
  have hcalls := Calls.trigEvse true (store { s with evse := upd s.evse e op } e 0 op persist) e
  have hs1 : (store { s with evse := upd s.evse e op } e 0 op persist).lastEvse = s.lastEvse ∧
      (store { s with evse := upd s.evse e op } e 0 op persist).lastConn = s.lastConn ∧
      (store { s with evse := upd s.evse e op } e 0 op persist).lastCs = s.lastCs ∧
      (store { s with evse := upd s.evse e op } e 0 op persist).conns = s.conns ∧
      (store { s with evse := upd s.evse e op } e 0 op persist).cs = s.cs ∧
      (store { s with evse := upd s.evse e op } e 0 op persist).conn = s.conn ∧
      (store { s with evse := upd s.evse e op } e 0 op persist).evse = upd s.evse e op := by
    unfold store; split <;> exact ⟨rfl, rfl, rfl, rfl, rfl, rfl, rfl⟩
  obtain ⟨g1, g2, g3, g4, g5, g6, g7⟩ := hs1
  obtain ⟨t1, t2, t3⟩ := trigEvse_last (store { s with evse := upd s.evse e op } e 0 op persist) e
  have heffE : ∀ e', effEvse (Avail.setEvse e op persist s) e' =
      effEvse (store { s with evse := upd s.evse e op } e 0 op persist) e' := effEvse_calls hcalls
  have heffC : ∀ e' c', effConn (Avail.setEvse e op persist s) e' c' =
      effConn (store { s with evse := upd s.evse e op } e 0 op persist) e' c' := effConn_calls hcalls
  have hotherE : ∀ e', e' ≠ e → effEvse (store { s with evse := upd s.evse e op } e 0 op persist) e' = effEvse s e' := by
    intro e' hne
    rw [effEvse_eq, effEvse_eq, g5, g7]
    simp [upd, hne]
  refine ⟨?_, ?_, ?_⟩
  · show (Avail.trigEvse true _ e).lastCs = _
    rw [t2, g3, f2]; exact h.cs
  · intro e' he'
    rw [f1] at he'
    show (Avail.trigEvse true _ e).lastEvse e' = _
    rw [t1, heffE]
    by_cases hee : e' = e
    · rw [if_pos hee, hee]
    · rw [if_neg hee, g1, h.ev e' he', hotherE e' hee]
  · intro e' c' hp
    rw [f1] at hp
    show (Avail.trigEvse true _ e).lastConn e' c' = _
    rw [t3, heffC, g4]
    by_cases hcond : e' = e ∧ c' ∈ connIds s.conns e ∧
        (store { s with evse := upd s.evse e op } e 0 op persist).lastEvse e ≠
          effEvse (store { s with evse := upd s.evse e op } e 0 op persist) e
    · rw [if_pos hcond]
    · rw [if_neg hcond, g2, h.co e' c' hp]
      by_cases hee : e' = e
      · subst hee
        have hc : c' ∈ connIds s.conns e' := ((mem_all _ _ _).mp hp).2
        have hsame : s.lastEvse e' = effEvse (store { s with evse := upd s.evse e' op } e' 0 op persist) e' := by
          exact Classical.byContradiction fun hn => hcond ⟨rfl, hc, fun hh => hn ((congrFun g1 e').symm.trans hh)⟩
        rw [h.ev e' he] at hsame
        rw [effConn_eq, effConn_eq, hsame, g6]
      · rw [effConn_eq, effConn_eq, hotherE e' hee, g6]

theorem CInv.setCs {s : State} (h : CInv s) (op persist : Bool) : CInv (setCs op persist s) := by
  obtain ⟨f1, f2, f3, f4, _⟩ := setCs_fields op persist s
  have hcalls := Calls.trigCs true (store { s with cs := op } 0 0 op persist)
  have hs1 : (store { s with cs := op } 0 0 op persist).lastEvse = s.lastEvse ∧
      (store { s with cs := op } 0 0 op persist).lastConn = s.lastConn ∧
      (store { s with cs := op } 0 0 op persist).lastCs = s.lastCs ∧
      (store { s with cs := op } 0 0 op persist).conns = s.conns ∧
      (store { s with cs := op } 0 0 op persist).cs = op ∧
      (store { s with cs := op } 0 0 op persist).conn = s.conn ∧
      (store { s with cs := op } 0 0 op persist).evse = s.evse := by
    unfold store; split <;> exact ⟨rfl, rfl, rfl, rfl, rfl, rfl, rfl⟩
  obtain ⟨g1, g2, g3, g4, g5, g6, g7⟩ := hs1
  have heffE : ∀ e', effEvse (Avail.setCs op persist s) e' = effEvse (store { s with cs := op } 0 0 op persist) e' :=
    effEvse_calls hcalls
  have heffC : ∀ e' c', effConn (Avail.setCs op persist s) e' c' = effConn (store { s with cs := op } 0 0 op persist) e' c' :=
    effConn_calls hcalls
  generalize hs1 : store { s with cs := op } 0 0 op persist = s1 at *
  have hset : Avail.setCs op persist s = Avail.trigCs true s1 := by unfold Avail.setCs; rw [hs1]
  by_cases hch : s.lastCs = op
  · -- nothing happens
    have hno : Avail.trigCs true s1 = s1 := by
      unfold Avail.trigCs
      dsimp only
      rw [if_neg (by rw [g3, g5, hch]; simp)]
    rw [hset, hno]
    have hcs : s.cs = op := by rw [← h.cs]; exact hch
    refine ⟨by rw [g3, g5, hch], ?_, ?_⟩
    · intro e' he'
      rw [g4] at he'
      rw [g1, h.ev e' he', effEvse_eq, effEvse_eq, g5, g7, hcs]
    · intro e' c' hp
      rw [g4] at hp
      rw [g2, h.co e' c' hp, effConn_eq, effConn_eq, effEvse_eq, effEvse_eq, g5, g6, g7, hcs]
  · have hyes : Avail.trigCs true s1 =
        (evseIds s1.conns).foldl (Avail.trigEvse true) { emit s1 (.csChanged s1.cs) with lastCs := s1.cs } := by
      unfold Avail.trigCs
      dsimp only
      rw [if_pos (by rw [g3, g5]; simpa using hch)]
    have hf := foldEvse_last (evseIds s1.conns) { emit s1 (.csChanged s1.cs) with lastCs := s1.cs } (by
      intro e he c hc hle
      have he' : e ∈ evseIds s.conns := by rw [← g4]; exact he
      have hc' : c ∈ connIds s.conns e := by rw [← g4]; exact hc
      show s1.lastConn e c = effConn s1 e c
      have hle' : s1.lastEvse e = effEvse s1 e := hle
      rw [g1, h.ev e he'] at hle'
      rw [g2, h.co e c ((mem_all _ _ _).mpr ⟨he', hc'⟩), effConn_eq, effConn_eq, hle', g6])
    obtain ⟨k1, k2, _⟩ := hf
    refine ⟨?_, ?_, ?_⟩
    · rw [hset, hyes, k1, ← hyes, ← hset, f2]
      exact g5
    · intro e' he'
      rw [f1] at he'
      rw [heffE, hset, hyes, (k2 e' (by rw [g4]; exact he')).1]
      rfl
    · intro e' c' hp
      rw [f1] at hp
      obtain ⟨p1, p2⟩ := (mem_all _ _ _).mp hp
      rw [heffC, hset, hyes, (k2 e' (by rw [g4]; exact p1)).2 c' (by show c' ∈ connIds s1.conns e'; rw [g4]; exact p2)]
      rfl

theorem CInv.congr {s s' : State} (h : CInv s) (h1 : s'.conns = s.conns) (h2 : s'.lastCs = s.lastCs)
    (h3 : s'.lastEvse = s.lastEvse) (h4 : s'.lastConn = s.lastConn) (h5 : s'.cs = s.cs) (h6 : s'.evse = s.evse)
    (h7 : s'.conn = s.conn) : CInv s' := by
  refine ⟨by rw [h2, h5]; exact h.cs, ?_, ?_⟩
  · intro e he
    rw [h1] at he
    rw [h3, h.ev e he, effEvse_eq, effEvse_eq, h5, h6]
  · intro e c hp
    rw [h1] at hp
    rw [h4, h.co e c hp, effConn_eq, effConn_eq, effEvse_eq, effEvse_eq, h5, h6, h7]

/-- Both together. -/
structure KInv (n : Nat) (s : State) : Prop where
  t : TInv n s
  c : CInv s

theorem KInv.setConn {n : Nat} {s : State} (h : KInv n s) (e c : Nat) (op persist : Bool) :
    KInv n (setConn e c op persist s) := by
  refine ⟨?_, h.c.setConn e c op persist⟩
  unfold Avail.setConn
  refine TInv.trigConn (s := store { s with conn := upd2 s.conn e c op } e c op persist) ?_ e c
  refine h.t.congr ?_ ?_ ?_ ?_ ⟨[], ?_, by simp⟩ <;> (unfold store; split <;> simp)

theorem KInv.setEvse {n : Nat} {s : State} (h : KInv n s) (e : Nat) (he : e ∈ evseIds s.conns) (op persist : Bool) :
    KInv n (setEvse e op persist s) := by
  refine ⟨?_, h.c.setEvse e he op persist⟩
  unfold Avail.setEvse
  refine TInv.trigEvse (s := store { s with evse := upd s.evse e op } e 0 op persist) ?_ e
  refine h.t.congr ?_ ?_ ?_ ?_ ⟨[], ?_, by simp⟩ <;> (unfold store; split <;> simp)

theorem KInv.setCs {n : Nat} {s : State} (h : KInv n s) (op persist : Bool) : KInv n (setCs op persist s) := by
  refine ⟨?_, h.c.setCs op persist⟩
  unfold Avail.setCs
  refine TInv.trigCs (s := store { s with cs := op } 0 0 op persist) ?_
  refine h.t.congr ?_ ?_ ?_ ?_ ⟨[], ?_, by simp⟩ <;> (unfold store; split <;> simp)

theorem KInv.congr {n : Nat} {s s' : State} (h : KInv n s) (h1 : s'.conns = s.conns) (h2 : s'.lastCs = s.lastCs)
    (h3 : s'.lastEvse = s.lastEvse) (h4 : s'.lastConn = s.lastConn) (h5 : s'.cs = s.cs) (h6 : s'.evse = s.evse)
    (h7 : s'.conn = s.conn) (h8 : ∃ l, s'.out = s.out ++ l ∧ ∀ o ∈ l, isCall o = false) : KInv n s' :=
  ⟨h.t.congr h1 h2 h3 h4 h8, h.c.congr h1 h2 h3 h4 h5 h6 h7⟩

theorem KInv.emit {n : Nat} {s : State} (h : KInv n s) (o : Out) (ho : isCall o = false) : KInv n (emit s o) :=
  h.congr rfl rfl rfl rfl rfl rfl rfl ⟨[o], rfl, by simpa using ho⟩

theorem KInv.execute {n : Nat} {s : State} (h : KInv n s) (t : Target) (ht : Exists s.conns t) (op persist : Bool) :
    KInv n (execute t op persist s) := by
  cases t with
  | station => exact h.setCs op persist
  | evse e => exact h.setEvse e ((mem_evseIds _ _).mpr ht) op persist
  | conn e c => exact h.setConn e c op persist

theorem KInv.foldl {n : Nat} {α : Type} (f : State → α → State) (P : State → Prop) (l : List α)
    (hf : ∀ s a, a ∈ l → P s → KInv n s → KInv n (f s a) ∧ P (f s a)) (s : State) (hP : P s) (h : KInv n s) :
    KInv n (l.foldl f s) := by
  induction l generalizing s with
  | nil => exact h
  | cons a l ih =>
    obtain ⟨h1, h2⟩ := hf s a (by simp) hP h
    exact ih (fun s a' ha' => hf s a' (List.mem_cons_of_mem _ ha')) _ h2 h1

theorem KInv.blockEvse {n : Nat} {s : State} (h : KInv n s) (e : Nat) : KInv n (blockEvse s e) :=
  KInv.foldl _ (fun _ => True) _ (fun s c _ _ hs => ⟨hs.setConn e c false false, trivial⟩) s trivial h

theorem KInv.blockIdle {n : Nat} {s : State} (h : KInv n s) (t : Target) : KInv n (blockIdle t s) := by
  unfold Avail.blockIdle
  split
  · refine KInv.foldl _ (fun s' => s'.conns = s.conns) _ ?_ s rfl h
    intro s' e he hc hs
    split
    · exact ⟨hs, hc⟩
    · exact ⟨hs.setEvse e (by rw [hc]; exact he) false false, by rw [(setEvse_fields e false false s').1, hc]⟩
  · refine KInv.foldl _ (fun _ => True) _ ?_ s trivial h
    intro s' c _ _ hs
    split
    · exact ⟨hs, trivial⟩
    · exact ⟨hs.setConn _ c false false, trivial⟩

theorem KInv.report {n : Nat} {s : State} (h : KInv n s) (only : Bool) (e c : Nat) : KInv n (report only e c s) := by
  unfold Avail.report
  dsimp only
  split
  · split
    · exact h.congr rfl rfl rfl rfl rfl rfl rfl ⟨[_], rfl, by simp [isCall]⟩
    · exact h
  · exact h

theorem KInv.reportAll {n : Nat} {s : State} (h : KInv n s) (only : Bool) : KInv n (reportAll only s) :=
  KInv.foldl _ (fun _ => True) _ (fun s p _ _ hs => ⟨hs.report only p.1 p.2, trivial⟩) s trivial h

theorem KInv.notifyAll {n : Nat} {s : State} (h : KInv n s) : KInv n (notifyAll s) := by
  unfold Avail.notifyAll
  split
  · exact h.emit _ rfl
  · exact h

theorem KInv.setSched {n : Nat} {s : State} (h : KInv n s) (k : Nat) (v : Option Sched) : KInv n (setSched s k v) :=
  h.congr rfl rfl rfl rfl rfl rfl rfl ⟨[], by simp [Avail.setSched], by simp⟩

theorem KInv.runScheduled {n : Nat} {s : State} (h : KInv n s) (k : Nat) : KInv n (runScheduled k s) := by
  unfold Avail.runScheduled
  split
  · exact h
  · split
    · rename_i t ht
      split
      · exact h
      · exact ((h.execute t (target_naming ht).2 _ _).setSched k none).notifyAll
    · exact h.emit _ rfl

theorem KInv.change {n : Nat} {s : State} (h : KInv n s) (r : Req) : KInv n (change r s) := by
  unfold Avail.change
  split
  · exact h.emit _ rfl
  · exact h.emit _ rfl
  · rename_i t ht
    split
    · dsimp only
      split
      · exact (h.setSched _ _).emit _ rfl
      · exact ((h.setSched _ _).emit _ rfl).execute t (target_naming ht).2 _ _
    · exact ((h.setSched _ _).emit _ rfl).blockIdle t

theorem KInv.firmwarePrepare {n : Nat} {s : State} (h : KInv n s) : KInv n (firmwarePrepare s) := by
  unfold Avail.firmwarePrepare
  split
  · exact (KInv.foldl _ (fun _ => True) _ (fun s e _ _ hs => ⟨hs.blockEvse e, trivial⟩) s trivial h).notifyAll
  · refine KInv.foldl _ (fun _ => True) _ ?_ s trivial h
    intro s e _ _ hs
    split
    · exact ⟨hs.blockEvse e, trivial⟩
    · exact ⟨hs.setSched _ _, trivial⟩

theorem KInv.firmwareRestore {n : Nat} {s : State} (h : KInv n s) : KInv n (firmwareRestore s) := by
  refine KInv.foldl _ (fun _ => True) _ ?_ s trivial h
  intro s p _ _ hs
  refine ⟨?_, trivial⟩
  unfold restoreConn
  split
  · exact hs.setConn _ _ _ _
  · exact hs

theorem KInv.step {n : Nat} {s : State} (h : KInv n s) (o : Op) (hb : isBoot o = false) (hs : isStart o = false) :
    KInv n (step s o) := by
  cases o with
  | change r => exact h.change r
  | txStart e c =>
    simp only [Avail.step]
    split
    · exact h.congr rfl rfl rfl rfl rfl rfl rfl ⟨[], by simp, by simp⟩
    · exact h.emit _ rfl
  | txEnd e =>
    simp only [Avail.step]
    split
    · exact h.emit _ rfl
    · split
      · refine KInv.runScheduled (KInv.runScheduled (s := { s with tx := fun i => if i = e then none else s.tx i }) ?_ e) 0
        exact h.congr rfl rfl rfl rfl rfl rfl rfl ⟨[], by simp, by simp⟩
      · exact h
  | event e c ev =>
    simp only [Avail.step]
    split
    · unfold Avail.event
      dsimp only
      split
      · exact h.congr rfl rfl rfl rfl rfl rfl rfl ⟨[], by simp, by simp⟩
      · refine KInv.report (s := { s with flags := upd2 s.flags e c _ }) ?_ true e c
        exact h.congr rfl rfl rfl rfl rfl rfl rfl ⟨[], by simp, by simp⟩
    · exact h.emit _ rfl
  | firmwarePrepare => exact h.firmwarePrepare
  | firmwareRestore => exact h.firmwareRestore
  | block e =>
    simp only [Avail.step]
    split
    · exact h.blockEvse e
    · exact h.emit _ rfl
  | offline => exact h.congr rfl rfl rfl rfl rfl rfl rfl ⟨[], by simp [Avail.step], by simp⟩
  | accepted =>
    refine KInv.reportAll (s := { s with online := true }) ?_ false
    exact h.congr rfl rfl rfl rfl rfl rfl rfl ⟨[], by simp, by simp⟩
  | reconnect long =>
    refine KInv.reportAll (s := { s with online := true }) ?_ (!long)
    exact h.congr rfl rfl rfl rfl rfl rfl rfl ⟨[], by simp, by simp⟩
  | triggerStatus e c =>
    simp only [Avail.step]
    split
    · exact h.report false e c
    · exact h.emit _ rfl
  | start => exact absurd hs (by simp [isStart])
  | boot conns r => exact absurd hb (by simp [isBoot])

theorem KInv.run {n : Nat} (h : List Op) (s : State) (hk : KInv n s)
    (hh : ∀ o ∈ h, isBoot o = false ∧ isStart o = false) : KInv n (run s h) := by
  induction h generalizing s with
  | nil => exact hk
  | cons o h ih =>
    exact ih (Avail.step s o) (hk.step o (hh o (by simp)).1 (hh o (by simp)).2)
      (fun o' ho' => hh o' (List.mem_cons_of_mem _ ho'))

end Verif.Avail
