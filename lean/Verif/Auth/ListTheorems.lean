import Verif.Auth.Stages
/-
Properties C26, C27 (local authorization list), C57 (identity of tokens), C58 (cleanup of the cache) and
C59 (deauthorization by a TransactionEvent response).
-/
namespace Verif.Auth

def lTok (a : Char) : Token := ⟨iso14443, [a]⟩
def lYes : Info := .only .accepted
def lNo : Info := .only .blocked
def allOk : Write → Bool := fun _ => true

theorem works_allOk : Works allOk := fun _ => rfl

def fullReq : ListReq :=
  { update := .full, version := 5, entries := [(lTok 'a', some lYes), (lTok 'b', some lNo)] }

def diffReq : ListReq :=
  { update := .differential, version := 6, entries := [(lTok 'a', none), (lTok 'c', some lYes)] }

/-! ### C26: the version protocol -/

/-- C26, the answer: with the list enabled and a working database, a request is answered
* Failed iff its version is not positive, or it is Full and names a token twice or lacks the information
  of a token, or it is Differential, newer than the stored version, and names a token twice;
* VersionMismatch iff it is Differential and its (positive) version is not newer than the stored one;
* Accepted otherwise. -/
theorem C26_answer (ok : Write → Bool) (hok : Works ok) (stored : Int) (r : ListReq) :
    ((sendList true ok stored r).1 = .versionMismatch ↔
      0 < r.version ∧ r.update = .differential ∧ r.version ≤ stored) ∧
    ((sendList true ok stored r).1 = .failed ↔
      r.version ≤ 0 ∨
      (r.update = .full ∧ (¬ r.entries.Pairwise (fun a b => ¬ SameToken a.1 b.1) ∨
        ∃ e ∈ r.entries, e.2 = none)) ∨
      (r.update = .differential ∧ stored < r.version ∧
        ¬ r.entries.Pairwise (fun a b => ¬ SameToken a.1 b.1))) := by
  rw [sendList_works hok]
  have hd : ∀ es : List (Token × Option Info), hasDuplicate es = true ↔
      ¬ es.Pairwise (fun a b => ¬ SameToken a.1 b.1) := by
    intro es
    rw [← hasDuplicate_iff]; simp
  by_cases h0 : r.version ≤ 0
  · rw [if_pos h0]
    refine ⟨?_, ?_⟩
    · simp; omega
    · simp [h0]
  · rw [if_neg h0]
    cases hu : r.update with
    | full =>
      dsimp only
      by_cases h1 : r.entries = []
      · rw [if_pos h1]; simp [h1, h0]
      · rw [if_neg h1]
        by_cases h2 : hasDuplicate r.entries = true ∨ lacksInfo r.entries = true
        · rw [if_pos h2]
          refine ⟨by simp, ?_⟩
          rw [hd, lacksInfo_iff] at h2
          constructor
          · intro _; exact Or.inr (Or.inl ⟨rfl, h2⟩)
          · intro _; rfl
        · rw [if_neg h2]
          refine ⟨by simp, ?_⟩
          rw [hd, lacksInfo_iff] at h2
          constructor
          · intro h; simp at h
          · rintro (h | h | h)
            · exact absurd h h0
            · exact absurd h.2 h2
            · simp at h
    | differential =>
      dsimp only
      by_cases h1 : r.version ≤ stored
      · rw [if_pos h1]
        refine ⟨?_, ?_⟩
        · simp; omega
        · simp; omega
      · rw [if_neg h1]
        by_cases h2 : r.entries = []
        · rw [if_pos h2]; refine ⟨by simp; omega, ?_⟩; simp [h2, h0]
        · rw [if_neg h2]
          by_cases h3 : hasDuplicate r.entries = true
          · rw [if_pos h3]
            rw [hd] at h3
            refine ⟨by simp; omega, ?_⟩
            constructor
            · intro _; exact Or.inr (Or.inr ⟨rfl, by omega, h3⟩)
            · intro _; rfl
          · rw [if_neg h3]
            rw [hd] at h3
            refine ⟨by simp; omega, ?_⟩
            constructor
            · intro h; simp at h
            · rintro (h | h | h)
              · exact absurd h h0
              · simp at h
              · exact absurd h.2.2 h3

example : (sendList true allOk 5 fullReq).1 = .accepted ∧
    (sendList true allOk 6 diffReq).1 = .versionMismatch ∧
    (sendList true allOk 5 diffReq).1 = .accepted ∧
    (sendList true allOk 5 { fullReq with update := .full, entries := diffReq.entries }).1 = .failed := by
  decide

/-- C26: an update answered anything but Accepted leaves list and version as they were. -/
theorem C26_refused_unchanged (ok : Write → Bool) (hok : Works ok) (enabled : Bool) (db : Db)
    (r : ListReq) (h : (sendList enabled ok db.version r).1 ≠ .accepted) :
    afterList enabled ok db r = db := by
  cases enabled with
  | false => simp [afterList, sendList, applyAll]
  | true =>
    unfold afterList
    rw [sendList_works hok] at h ⊢
    split
    · rfl
    · rename_i h0
      rw [if_neg h0] at h
      cases hu : r.update with
      | full =>
        rw [hu] at h
        dsimp only at h ⊢
        split
        · rename_i h1; rw [if_pos h1] at h; simp at h
        · rename_i h1; rw [if_neg h1] at h
          split
          · rfl
          · rename_i h2; rw [if_neg h2] at h; simp at h
      | differential =>
        rw [hu] at h
        dsimp only at h ⊢
        split
        · rfl
        · rename_i h1; rw [if_neg h1] at h
          split
          · rename_i h2; rw [if_pos h2] at h; simp at h
          · rename_i h2; rw [if_neg h2] at h
            split
            · rfl
            · rename_i h3; rw [if_neg h3] at h; simp at h

/-- The version is written last, after the entries. -/
theorem after_version (db : Db) (ws : List Write) (v : Int) :
    (applyAll db (ws ++ [.version v])).version = v ∧
    (applyAll db (ws ++ [.version v])).list = (applyAll db ws).list := by
  rw [applyAll_append]; exact ⟨rfl, rfl⟩

/-- C26: a Full update answered Accepted leaves exactly the given entries and the given version. (Tokens
with the types of the specification.) -/
theorem C26_full (ok : Write → Bool) (hok : Works ok) (enabled : Bool) (db : Db) (r : ListReq)
    (hf : r.update = .full) (hs : ∀ e ∈ r.entries, Standard e.1)
    (h : (sendList enabled ok db.version r).1 = .accepted) :
    (afterList enabled ok db r).version = r.version ∧
    (∀ t i, Standard t → (Listed (afterList enabled ok db r) t i ↔ (t, some i) ∈ r.entries)) ∧
    (afterList enabled ok db r).list.length = r.entries.length := by
  cases enabled with
  | false => simp [sendList] at h
  | true =>
    unfold afterList
    rw [sendList_works hok] at h ⊢
    split at h
    · simp at h
    rename_i h0
    rw [if_neg h0]
    rw [hf] at h ⊢
    dsimp only at h ⊢
    split at h
    · rename_i h1
      rw [if_pos h1]
      refine ⟨rfl, ?_, by rw [h1]; rfl⟩
      intro t i _
      simp [applyAll, Write.apply, Listed, h1]
    · rename_i h1
      rw [if_neg h1]
      split at h
      · simp at h
      · rename_i h2
        rw [if_neg h2]
        have h2' : hasDuplicate r.entries = false ∧ lacksInfo r.entries = false := by
          simpa using h2
        have hp := pairwise_keys hs (hasDuplicate_false h2'.1)
        have hi : ∀ e ∈ r.entries, ∃ i, e.2 = some i := by
          intro e he
          cases hx : e.2 with
          | some i => exact ⟨i, rfl⟩
          | none =>
            exfalso
            have := lacksInfo_iff.mpr ⟨e, he, hx⟩
            rw [h2'.2] at this; simp at this
        have e1 : (Write.clear :: r.entries.map entryWrite ++ [Write.version r.version])
            = ((Write.clear :: r.entries.map entryWrite) ++ [Write.version r.version]) := rfl
        obtain ⟨hv, hl⟩ := after_version db (Write.clear :: r.entries.map entryWrite) r.version
        refine ⟨hv, ?_, ?_⟩
        · intro t i ht
          unfold Listed
          rw [hl, applyAll_cons, mem_entries hp]
          constructor
          · rintro (⟨e, he, hk, hx⟩ | ⟨_, hx⟩)
            · have := key_injective (hs e he) ht hk
              obtain ⟨a, b⟩ := e
              simp only at this hx
              subst this; subst hx; exact he
            · simp [Write.apply] at hx
          · intro hm
            exact Or.inl ⟨_, hm, rfl, rfl⟩
        · rw [hl, applyAll_cons]
          -- as many rows as entries: each put appends one and the keys are new
          have len : ∀ (es : List (Token × Option Info)) (d : Db),
              (∀ e ∈ es, ∃ i, e.2 = some i) → es.Pairwise (fun a b => key a.1 ≠ key b.1) →
              (∀ e ∈ es, ∀ x ∈ d.list, x.1 ≠ key e.1) →
              (applyAll d (es.map entryWrite)).list.length = d.list.length + es.length := by
            intro es
            induction es with
            | nil => intro d _ _ _; rfl
            | cons e es ih =>
              intro d hi hp hd
              rw [List.pairwise_cons] at hp
              obtain ⟨i, hi1⟩ := hi e List.mem_cons_self
              rw [List.map_cons, applyAll_cons]
              have hw : (entryWrite e).apply d = { d with list := d.list ++ [(key e.1, i)] } := by
                unfold entryWrite
                rw [hi1]
                simp only [Write.apply]
                congr 1
                congr 1
                apply List.filter_eq_self.mpr
                intro x hx
                have := hd e List.mem_cons_self x hx
                simpa using this
              rw [hw, ih _ (fun f hf => hi f (List.mem_cons_of_mem _ hf)) hp.2]
              · simp; omega
              · intro f hf x hx
                rcases List.mem_append.mp hx with hx | hx
                · exact hd f (List.mem_cons_of_mem _ hf) x hx
                · simp only [List.mem_singleton] at hx
                  subst hx
                  exact hp.1 f hf
          rw [len r.entries _ hi hp (by intro e _ x hx; simp [Write.apply] at hx)]
          simp [Write.apply]

example : (∀ e ∈ fullReq.entries, Standard e.1) ∧ fullReq.update = .full ∧
    (sendList true allOk 3 fullReq).1 = .accepted ∧
    (afterList true allOk { list := [(key (lTok 'z'), lYes)], version := 3 } fullReq).list
      = [(key (lTok 'a'), lYes), (key (lTok 'b'), lNo)] := by
  unfold Standard; decide

/-- C26: a Differential update answered Accepted sets the version, which grows, and changes exactly the
given entries: entries with information are added or replaced, entries without are removed, all others
stay. -/
theorem C26_differential (ok : Write → Bool) (hok : Works ok) (enabled : Bool) (db : Db) (r : ListReq)
    (hf : r.update = .differential) (hs : ∀ e ∈ r.entries, Standard e.1)
    (h : (sendList enabled ok db.version r).1 = .accepted) :
    (afterList enabled ok db r).version = r.version ∧ db.version < r.version ∧
    (∀ t i, Standard t → (Listed (afterList enabled ok db r) t i ↔
      (t, some i) ∈ r.entries ∨ ((∀ o, (t, o) ∉ r.entries) ∧ Listed db t i))) := by
  cases enabled with
  | false => simp [sendList] at h
  | true =>
    unfold afterList
    rw [sendList_works hok] at h ⊢
    split at h
    · simp at h
    rename_i h0
    rw [if_neg h0]
    rw [hf] at h ⊢
    dsimp only at h ⊢
    split at h
    · simp at h
    rename_i hv
    rw [if_neg hv]
    split at h
    · rename_i h1
      rw [if_pos h1]
      refine ⟨rfl, by omega, ?_⟩
      intro t i _
      simp [applyAll, Write.apply, Listed, h1]
    · rename_i h1
      rw [if_neg h1]
      split at h
      · simp at h
      · rename_i h2
        rw [if_neg h2]
        have hp := pairwise_keys hs (hasDuplicate_false (by simpa using h2))
        obtain ⟨hv', hl⟩ := after_version db (r.entries.map entryWrite) r.version
        refine ⟨hv', by omega, ?_⟩
        intro t i ht
        unfold Listed
        rw [hl, mem_entries hp]
        constructor
        · rintro (⟨e, he, hk, hx⟩ | ⟨hn, hx⟩)
          · have := key_injective (hs e he) ht hk
            obtain ⟨a, b⟩ := e
            simp only at this hx
            subst this; subst hx; exact Or.inl he
          · exact Or.inr ⟨fun o ho => hn _ ho rfl, hx⟩
        · rintro (hm | ⟨hn, hx⟩)
          · exact Or.inl ⟨_, hm, rfl, rfl⟩
          · refine Or.inr ⟨?_, hx⟩
            intro e he hk
            have := key_injective (hs e he) ht hk
            obtain ⟨a, b⟩ := e
            simp only at this
            subst this
            exact hn b he

example : (∀ e ∈ diffReq.entries, Standard e.1) ∧
    (sendList true allOk 5 diffReq).1 = .accepted ∧
    (afterList true allOk (afterList true allOk {} fullReq) diffReq).list
      = [(key (lTok 'b'), lNo), (key (lTok 'c'), lYes)] := by
  unfold Standard; decide

/-- All SendLocalList requests of a history met a working database and none was cut off. -/
def ListsWork : List Op → Prop
  | [] => True
  | .sendList _ ok _ :: os => Works ok ∧ ListsWork os
  | .crashList _ _ _ _ :: _ => False
  | _ :: os => ListsWork os

theorem version_step (db : Db) (o : Op)
    (h : ∀ enabled ok r, o ≠ .sendList enabled ok r)
    (h' : ∀ n enabled ok r, o ≠ .crashList n enabled ok r) :
    (step db o).version = db.version ∧ (step db o).list = db.list := by
  cases o with
  | sendList e ok r => exact absurd rfl (h e ok r)
  | crashList n e ok r => exact absurd rfl (h' n e ok r)
  | clearCache enabled => simp only [step]; split <;> exact ⟨rfl, rfl⟩
  | _ => exact ⟨rfl, rfl⟩

theorem accepted_version {ok : Write → Bool} (hok : Works ok) {enabled : Bool} {db : Db} {r : ListReq}
    (h : (sendList enabled ok db.version r).1 = .accepted) :
    (afterList enabled ok db r).version = r.version := by
  cases enabled with
  | false => simp [sendList] at h
  | true =>
    unfold afterList
    rw [sendList_works hok] at h ⊢
    split at h
    · simp at h
    rename_i h0
    rw [if_neg h0]
    cases hu : r.update with
    | full =>
      rw [hu] at h
      dsimp only at h ⊢
      split at h
      · rename_i h1; rw [if_pos h1]; rfl
      · rename_i h1; rw [if_neg h1]
        split at h
        · simp at h
        · rename_i h2; rw [if_neg h2]
          exact (after_version db (Write.clear :: r.entries.map entryWrite) r.version).1
    | differential =>
      rw [hu] at h
      dsimp only at h ⊢
      split at h
      · simp at h
      · rename_i h1; rw [if_neg h1]
        split at h
        · rename_i h2; rw [if_pos h2]; rfl
        · rename_i h2; rw [if_neg h2]
          split at h
          · simp at h
          · rename_i h3; rw [if_neg h3]
            exact (after_version db (r.entries.map entryWrite) r.version).1

/-- C26 over histories: after any history (of list updates, authorizations and all other operations on
the tables) the version reported to the CSMS is the version of the last update answered Accepted, and 0
before the first one or while the list is disabled. -/
theorem C26_reported_version (ops : List Op) (hw : ListsWork ops) :
    getListVersion true (run {} ops) = ((acceptedVersions {} ops).getLast?).getD 0 ∧
    getListVersion false (run {} ops) = 0 := by
  refine ⟨?_, rfl⟩
  have gen : ∀ (ops : List Op) (db : Db), ListsWork ops →
      (run db ops).version = ((acceptedVersions db ops).getLast?).getD db.version := by
    intro ops
    induction ops with
    | nil => intro db _; rfl
    | cons o os ih =>
      intro db hw
      have other : ListsWork os →
          (step db o).version = db.version → acceptedVersions db (o :: os) = acceptedVersions (step db o) os →
          (run db (o :: os)).version = ((acceptedVersions db (o :: os)).getLast?).getD db.version := by
        intro hw h1 h2
        rw [h2, ← h1]
        exact ih (step db o) hw
      cases o with
      | sendList enabled ok r =>
        obtain ⟨hok, hw⟩ := hw
        have hrun : (run db (.sendList enabled ok r :: os)).version
            = ((acceptedVersions (step db (.sendList enabled ok r)) os).getLast?).getD
                (step db (.sendList enabled ok r)).version := ih _ hw
        rw [hrun]
        simp only [acceptedVersions]
        by_cases ha : (sendList enabled ok db.version r).1 = .accepted
        · rw [if_pos ha]
          have hv : (step db (.sendList enabled ok r)).version = r.version := accepted_version hok ha
          rw [hv]
          cases hl : acceptedVersions (step db (.sendList enabled ok r)) os with
          | nil => simp
          | cons a l => simp [List.getLast?_cons_cons, List.getLast?_cons]
        · rw [if_neg ha]
          have hv : step db (.sendList enabled ok r) = db :=
            C26_refused_unchanged ok hok enabled db r ha
          rw [hv]; simp
      | crashList => exact absurd hw (by simp [ListsWork])
      | validate => exact other hw rfl rfl
      | txEvent => exact other hw rfl rfl
      | clearCache e =>
        exact other hw (version_step db _ (by simp) (by simp)).1 rfl
      | cleanup => exact other hw rfl rfl
      | forget => exact other hw rfl rfl
  exact gen ops {} hw

def exHistory : List Op :=
  [.sendList true allOk fullReq, .sendList true allOk { fullReq with update := .differential },
   .sendList true allOk diffReq, .clearCache true]

example : ListsWork exHistory ∧ acceptedVersions {} exHistory = [5, 6] := by
  refine ⟨⟨works_allOk, works_allOk, works_allOk, trivial⟩, by decide⟩

/-- C26 over histories: whatever the list holds was sent by the CSMS in a SendLocalList request, for a
token of that key. Power cuts and failing statements included. -/
theorem C26_list_provenance (ops : List Op) (k : Str) (i : Info) (h : (k, i) ∈ (run {} ops).list) :
    ∃ o ∈ ops, ∃ t, (t, some i) ∈ listed o ∧ key t = k := by
  have puts : ∀ (enabled : Bool) (ok : Write → Bool) (v : Int) (r : ListReq),
      Write.put k i ∈ (sendList enabled ok v r).2 → ∃ t, (t, some i) ∈ r.entries ∧ key t = k := by
    intro enabled ok v r hm
    have ins : Write.put k i ∈ (insertAll ok r.entries).2 → ∃ t, (t, some i) ∈ r.entries ∧ key t = k := by
      intro hm
      unfold insertAll at hm
      simp only [List.mem_filter, List.mem_map] at hm
      obtain ⟨⟨e, he, hw⟩, _⟩ := hm
      obtain ⟨t, o⟩ := e
      cases o with
      | none => simp [entryWrite] at hw
      | some j =>
        simp only [entryWrite, Write.put.injEq] at hw
        obtain ⟨rfl, rfl⟩ := hw
        exact ⟨t, he, rfl⟩
    have app : Write.put k i ∈ (applyList ok v r).2 → ∃ t, (t, some i) ∈ r.entries ∧ key t = k := by
      intro hm
      unfold applyList at hm
      split at hm
      · simp at hm
      · split at hm
        · unfold applyFull at hm
          split at hm
          · split at hm <;> simp at hm
          · split at hm
            · simp at hm
            · split at hm
              · simp only [List.mem_cons, reduceCtorEq, false_or] at hm
                exact ins hm
              · simp at hm
        · unfold applyDifferential at hm
          split at hm
          · simp at hm
          · split at hm
            · simp at hm
            · split at hm
              · simp at hm
              · exact ins hm
    unfold sendList at hm
    split at hm
    · dsimp only at hm
      split at hm
      · split at hm
        · simp only [List.mem_append, List.mem_singleton, reduceCtorEq, or_false] at hm
          exact app hm
        · exact app hm
      · exact app hm
    · simp at hm
  have gen : ∀ (ops : List Op) (db : Db), (k, i) ∈ (run db ops).list →
      (k, i) ∈ db.list ∨ ∃ o ∈ ops, ∃ t, (t, some i) ∈ listed o ∧ key t = k := by
    intro ops
    induction ops with
    | nil => intro db h; exact Or.inl h
    | cons o os ih =>
      intro db h
      rcases ih (step db o) h with h | ⟨p, hp, t, ht⟩
      · cases o with
        | sendList e ok r =>
          rcases mem_applyAll h with h | h
          · exact Or.inl h
          · obtain ⟨t, h1, h2⟩ := puts _ _ _ _ h
            exact Or.inr ⟨_, List.mem_cons_self, t, h1, h2⟩
        | crashList n e ok r =>
          rcases mem_applyAll h with h | h
          · exact Or.inl h
          · obtain ⟨t, h1, h2⟩ := puts _ _ _ _ (List.mem_of_mem_take h)
            exact Or.inr ⟨_, List.mem_cons_self, t, h1, h2⟩
        | clearCache e =>
          rw [(version_step db _ (by simp) (by simp)).2] at h
          exact Or.inl h
        | validate => exact Or.inl h
        | txEvent => exact Or.inl h
        | cleanup => exact Or.inl h
        | forget => exact Or.inl h
      · exact Or.inr ⟨p, List.mem_cons_of_mem _ hp, t, ht⟩
  rcases gen ops {} h with h | h
  · simp at h
  · exact h

example : (key (lTok 'c'), lYes) ∈ (run {} exHistory).list := by decide

/-- C26 is violated when a database statement fails: the request is answered Failed, and yet the old
list is gone. -/
theorem C26_database_error_violated :
    ∃ (ok : Write → Bool) (db : Db) (r : ListReq),
      (sendList true ok db.version r).1 = .failed ∧ (afterList true ok db r).list ≠ db.list :=
  ⟨fun w => decide (w ≠ .put (key (lTok 'b')) lNo), { list := [(key (lTok 'z'), lYes)], version := 3 },
    fullReq, by decide⟩

/-! ### C27: power cuts -/

/-- C27 is violated: a power cut between the statements leaves neither the old nor the new list; here
the list is empty under the old version. -/
theorem C27_violated :
    ∃ (db : Db) (r : ListReq) (n : Nat),
      (sendList true allOk db.version r).1 = .accepted ∧
      ((crashedList n true allOk db r).list, (crashedList n true allOk db r).version)
        ≠ (db.list, db.version) ∧
      ((crashedList n true allOk db r).list, (crashedList n true allOk db r).version)
        ≠ ((afterList true allOk db r).list, (afterList true allOk db r).version) ∧
      (crashedList n true allOk db r).list = [] :=
  ⟨{ list := [(key (lTok 'z'), lYes)], version := 3 }, fullReq, 1, by decide⟩

theorem version_of_entries (db : Db) (ws : List Write) (h : ∀ v, Write.version v ∉ ws) :
    (applyAll db ws).version = db.version := by
  induction ws generalizing db with
  | nil => rfl
  | cons w ws ih =>
    rw [applyAll_cons, ih _ (fun v hv => h v (List.mem_cons_of_mem _ hv))]
    cases w with
    | version v => exact absurd List.mem_cons_self (h v)
    | _ => rfl

theorem entryWrite_not_version (es : List (Token × Option Info)) (v : Int) :
    Write.version v ∉ es.map entryWrite := by
  intro h
  simp only [List.mem_map] at h
  obtain ⟨e, _, he⟩ := h
  unfold entryWrite at he
  split at he <;> simp at he

/-- The statements of an accepted update are statements on the list followed by the version. -/
theorem sendList_shape {ok : Write → Bool} (hok : Works ok) (enabled : Bool) (v : Int) (r : ListReq) :
    (sendList enabled ok v r).2 = [] ∨
    ∃ ws, (sendList enabled ok v r).2 = ws ++ [.version r.version] ∧ (∀ x, Write.version x ∉ ws) ∧
      ((r.update = .full ∧ r.entries ≠ [] ∧ hasDuplicate r.entries = false ∧
          ws = .clear :: r.entries.map entryWrite) ∨
       (r.update = .full ∧ r.entries = [] ∧ ws = [.clear]) ∨
       (r.update = .differential ∧ hasDuplicate r.entries = false ∧ ws = r.entries.map entryWrite)) := by
  cases enabled with
  | false => left; simp [sendList]
  | true =>
    rw [sendList_works hok]
    split
    · exact Or.inl rfl
    · cases hu : r.update with
      | full =>
        dsimp only
        split
        · rename_i h1
          exact Or.inr ⟨[.clear], rfl, by simp, Or.inr (Or.inl ⟨rfl, h1, rfl⟩)⟩
        · rename_i h1
          split
          · exact Or.inl rfl
          · rename_i h2
            refine Or.inr ⟨.clear :: r.entries.map entryWrite, rfl, ?_, Or.inl ⟨rfl, h1, ?_, rfl⟩⟩
            · intro x hx
              simp only [List.mem_cons, reduceCtorEq, false_or] at hx
              exact entryWrite_not_version _ _ hx
            · simp at h2; exact h2.1
      | differential =>
        dsimp only
        split
        · exact Or.inl rfl
        · split
          · rename_i h2
            refine Or.inr ⟨[], rfl, by simp, Or.inr (Or.inr ⟨rfl, ?_, by simp [h2]⟩)⟩
            rw [h2]; rfl
          · split
            · exact Or.inl rfl
            · rename_i h3
              exact Or.inr ⟨r.entries.map entryWrite, rfl, fun x => entryWrite_not_version _ x,
                Or.inr (Or.inr ⟨rfl, by simpa using h3, rfl⟩)⟩

/-- C27 (partial): the version is written last. So after a power cut at any point a version different
from the old one proves that the new list is complete. What is missing: under the old version the list
may be anything between old and new. -/
theorem C27_version_last_partial (ok : Write → Bool) (hok : Works ok) (enabled : Bool) (db : Db)
    (r : ListReq) (n : Nat)
    (h : (crashedList n enabled ok db r).version ≠ db.version) :
    crashedList n enabled ok db r = afterList enabled ok db r := by
  unfold crashedList afterList at *
  rcases sendList_shape hok enabled db.version r with he | ⟨ws, he, hv, _⟩
  · rw [he] at h ⊢; simp
  · rw [he] at h ⊢
    by_cases hn : ws.length < n
    · rw [List.take_of_length_le (by simp; omega)]
    · exfalso
      apply h
      rw [List.take_append_of_le_length (by omega)]
      apply version_of_entries
      intro v hm
      exact hv v (List.mem_of_mem_take hm)

example : (crashedList 4 true allOk {} fullReq).version ≠ ({} : Db).version := by decide

/-- C27 (partial): the damage of a power cut is repaired by sending the same request again: afterwards
list and version are as if there had been no power cut. -/
theorem C27_retry_partial (ok : Write → Bool) (hok : Works ok) (db : Db) (r : ListReq) (n : Nat)
    (hs : ∀ e ∈ r.entries, Standard e.1) :
    (afterList true ok (crashedList n true ok db r) r).version = (afterList true ok db r).version ∧
    ∀ t i, Standard t →
      (Listed (afterList true ok (crashedList n true ok db r) r) t i ↔
        Listed (afterList true ok db r) t i) := by
  by_cases ha : (sendList true ok db.version r).1 = .accepted
  · -- the first attempt would have been accepted
    by_cases hver : (crashedList n true ok db r).version = db.version
    · -- the version was not yet written: the second attempt is accepted as well
      have hb : (sendList true ok (crashedList n true ok db r).version r).1 = .accepted := by
        rw [hver]; exact ha
      cases hu : r.update with
      | full =>
        obtain ⟨a1, a2, _⟩ := C26_full ok hok true db r hu hs ha
        obtain ⟨b1, b2, _⟩ := C26_full ok hok true _ r hu hs hb
        exact ⟨b1.trans a1.symm, fun t i ht => (b2 t i ht).trans (a2 t i ht).symm⟩
      | differential =>
        obtain ⟨a1, _, a2⟩ := C26_differential ok hok true db r hu hs ha
        obtain ⟨b1, _, b2⟩ := C26_differential ok hok true _ r hu hs hb
        refine ⟨b1.trans a1.symm, fun t i ht => (b2 t i ht).trans (Iff.trans ?_ (a2 t i ht).symm)⟩
        apply or_congr_right
        apply and_congr_right
        intro hno
        -- tokens the request does not name are not touched by any prefix of the statements
        unfold crashedList
        rcases sendList_shape hok true db.version r with he | ⟨ws, he, hv, hsh⟩
        · rw [he]; simp [applyAll]
        · rcases hsh with ⟨hx, _⟩ | ⟨hx, _⟩ | ⟨_, hd, rfl⟩
          · rw [hu] at hx; simp at hx
          · rw [hu] at hx; simp at hx
          · rw [he]
            have hp := pairwise_keys hs (hasDuplicate_false hd)
            have main : ∀ m, Listed (applyAll db ((r.entries.map entryWrite).take m)) t i ↔
                Listed db t i := by
              intro m
              unfold Listed
              rw [← List.map_take, mem_entries (hp.sublist (List.take_sublist _ _))]
              constructor
              · rintro (⟨e, he, hk, hx⟩ | ⟨_, hx⟩)
                · exfalso
                  have hm := List.mem_of_mem_take he
                  have := key_injective (hs e hm) ht hk
                  obtain ⟨a, b⟩ := e
                  simp only at this
                  subst this
                  exact hno b hm
                · exact hx
              · intro hx
                refine Or.inr ⟨?_, hx⟩
                intro e he hk
                have hm := List.mem_of_mem_take he
                have := key_injective (hs e hm) ht hk
                obtain ⟨a, b⟩ := e
                simp only at this
                subst this
                exact hno b hm
            by_cases hn : (r.entries.map entryWrite).length < n
            · rw [List.take_of_length_le (by simp at hn ⊢; omega), applyAll_append]
              have := main (r.entries.map entryWrite).length
              rw [List.take_length] at this
              exact this
            · rw [List.take_append_of_le_length (by omega)]
              exact main n
    · -- the version was written: the update was complete
      have hc := C27_version_last_partial ok hok true db r n hver
      rw [hc]
      have hv := accepted_version hok ha
      cases hu : r.update with
      | full =>
        have hb : (sendList true ok (afterList true ok db r).version r).1 = .accepted := by
          rw [sendList_works hok] at ha ⊢
          rw [hu] at ha ⊢
          exact ha
        obtain ⟨a1, a2, _⟩ := C26_full ok hok true db r hu hs ha
        obtain ⟨b1, b2, _⟩ := C26_full ok hok true _ r hu hs hb
        exact ⟨b1.trans a1.symm, fun t i ht => (b2 t i ht).trans (a2 t i ht).symm⟩
      | differential =>
        have hb : (sendList true ok (afterList true ok db r).version r).1 ≠ .accepted := by
          have hx : (sendList true ok (afterList true ok db r).version r).1 = .versionMismatch := by
            rw [(C26_answer ok hok _ r).1]
            have := (C26_differential ok hok true db r hu hs ha).2.1
            refine ⟨?_, hu, by omega⟩
            have hnf := (C26_answer ok hok db.version r).2
            by_cases h0 : r.version ≤ 0
            · have := hnf.mpr (Or.inl h0)
              rw [ha] at this; simp at this
            · omega
          rw [hx]; simp
        rw [C26_refused_unchanged ok hok true _ r hb]
        exact ⟨rfl, fun _ _ _ => Iff.rfl⟩
  · -- refused: nothing is written in either attempt
    have h1 : crashedList n true ok db r = db := by
      have hr : applyAll db (sendList true ok db.version r).2 = db :=
        C26_refused_unchanged ok hok true db r ha
      unfold crashedList
      rcases sendList_shape hok true db.version r with he | ⟨ws, he, _⟩
      · rw [he]; simp [applyAll]
      · exfalso
        -- statements are only issued by accepted requests
        apply ha
        rw [sendList_works hok] at he ⊢
        split
        · rename_i h0; rw [if_pos h0] at he; simp at he
        · rename_i h0; rw [if_neg h0] at he
          cases hu : r.update with
          | full =>
            rw [hu] at he
            dsimp only at he ⊢
            split
            · rfl
            · rename_i h1; rw [if_neg h1] at he
              split
              · rename_i h2; rw [if_pos h2] at he; simp at he
              · rfl
          | differential =>
            rw [hu] at he
            dsimp only at he ⊢
            split
            · rename_i h1; rw [if_pos h1] at he; simp at he
            · rename_i h1; rw [if_neg h1] at he
              split
              · rfl
              · rename_i h2; rw [if_neg h2] at he
                split
                · rename_i h3; rw [if_pos h3] at he; simp at he
                · rfl
    rw [h1]
    exact ⟨rfl, fun _ _ _ => Iff.rfl⟩

example : (crashedList 1 true allOk (afterList true allOk {} fullReq) diffReq).list
      = [(key (lTok 'b'), lNo)] ∧
    (afterList true allOk (crashedList 1 true allOk (afterList true allOk {} fullReq) diffReq)
      diffReq).list = [(key (lTok 'b'), lNo), (key (lTok 'c'), lYes)] := by decide

/-! ### C57: the identity of tokens -/

/-- C57 (partial): tokens with the types of the specification share a row of list or cache only if they
are equal. -/
theorem C57_distinct_rows_partial (a b : Token) (ha : Standard a) (hb : Standard b) :
    key a = key b ↔ a = b :=
  ⟨key_injective ha hb, fun h => by rw [h]⟩

/-- C57 is violated for types outside the specification (OCPP 2.1 allows any string): two different
tokens, of different type and id, share the row, and one is accepted for the other. -/
theorem C57_custom_type_violated :
    ∃ (a b : Token), ¬ SameToken a b ∧ lower a.type ≠ lower b.type ∧ key a = key b :=
  ⟨⟨['L','o','c'], ['a','l','7']⟩, ⟨localType, ['7']⟩, by unfold SameToken; decide⟩

/-- C57 is violated for the case: two spellings of one token have different rows, so that a token that
is blocked in the list is unknown to the list in the other spelling, although the list refuses to hold
both. -/
theorem C57_case_violated :
    ∃ (a b : Token) (i : Info) (db : Db), SameToken a b ∧ Listed db a i ∧ i.status = .blocked ∧
      (∀ j, ¬ Listed db b j) ∧ hasDuplicate [(a, some i), (b, some i)] = true :=
  ⟨lTok 'a', lTok 'A', lNo, { list := [(key (lTok 'a'), lNo)] }, by unfold SameToken; decide,
    List.mem_singleton.mpr rfl, rfl,
    by intro j h; simp [Listed, key, lTok] at h, by decide⟩

/-! ### C58: cleanup of the cache -/

/-- C58: one round of the cache cleanup keeps only fresh rows, keeps them unchanged, brings the cache
within its storage limit, and drops fresh rows only in the order of their last use and only as long as
the limit is exceeded. -/
theorem C58_cleanup (size : Row → Nat) (lifetime : Option Int) (max : Nat) (now : Int) (c : List Row)
    (hu : (c.map (·.key)).Nodup) :
    (∀ r ∈ cleanup size lifetime (some max) now c, r ∈ c ∧ Fresh lifetime now r) ∧
    ((cleanup size lifetime (some max) now c).map size).sum ≤ max ∧
    (∀ r ∈ c, Fresh lifetime now r → r ∉ cleanup size lifetime (some max) now c →
      (∀ q ∈ cleanup size lifetime (some max) now c, r.lastUsed ≤ q.lastUsed) ∧
      ∃ m ∈ c, m ∉ cleanup size lifetime (some max) now c ∧
        max < size m + ((cleanup size lifetime (some max) now c).map size).sum) := by
  refine ⟨fun r hr => mem_cleanup hr, ?_, ?_⟩
  · exact evict_fits (Nat.le_refl _)
  · intro r hr hf hn
    have nd := nodup_deleteExpired (lt := lifetime) (now := now) hu
    have hr' := mem_deleteExpired.mpr ⟨hr, hf⟩
    refine ⟨fun q hq => evict_lru nd hr' hn hq, ?_⟩
    obtain ⟨m, hm, h1, h2⟩ := evict_needed nd hr' hn
    exact ⟨m, (mem_deleteExpired.mp hm).1, h1, h2⟩

/-- C58: without a storage limit exactly the fresh rows are kept. -/
theorem C58_no_limit (size : Row → Nat) (lifetime : Option Int) (now : Int) (c : List Row) (r : Row) :
    r ∈ cleanup size lifetime none now c ↔ r ∈ c ∧ Fresh lifetime now r :=
  mem_deleteExpired

def exRows : List Row := [⟨['x'], lYes, 50⟩, ⟨['y'], lYes, 20⟩, ⟨['z'], { status := .accepted, cacheExpiry := some 10 }, 90⟩]

example : cleanup (fun _ => 10) none (some 15) 60 exRows = [⟨['x'], lYes, 50⟩] ∧
    cleanup (fun _ => 10) none none 60 exRows = [⟨['x'], lYes, 50⟩, ⟨['y'], lYes, 20⟩] := by decide

/-! ### C59: deauthorization of a running transaction -/

/-- C59: a TransactionEvent response makes the station act on a transaction iff the response carries an
idTokenInfo that is not Accepted, the event named a token and did not end the transaction, and the
transaction is still running on some EVSE; then exactly that EVSE is told, once: to stop if
StopTxOnInvalidId is set, otherwise to limit the energy if MaxEnergyOnInvalidId is configured, otherwise
to pause. (Transaction ids are unique among the EVSEs.) -/
theorem C59_deauthorized (cfg : TxConfig) (evses : List (Nat × Option Str)) (x : TxExchange)
    (hu : evses.Pairwise (fun a b => ∀ s, a.2 = some s → b.2 ≠ some s)) (a : Deauth) :
    a ∈ txActions cfg evses x ↔
      x.ended = false ∧ x.token ≠ none ∧ (∃ i, x.info = some i ∧ i.status ≠ .accepted) ∧
      ∃ e, (e, some x.transaction) ∈ evses ∧
        a = (if cfg.stopOnInvalid = true then .stop e
             else if cfg.maxEnergy = none then .pause e else .limitEnergy e) := by
  have find_iff : ∀ e, evses.find? (fun e => e.2 == some x.transaction) = some e ↔
      e ∈ evses ∧ e.2 = some x.transaction := by
    intro e
    constructor
    · intro h
      exact ⟨List.mem_of_find?_eq_some h, by simpa using List.find?_some h⟩
    · rintro ⟨h1, h2⟩
      induction evses with
      | nil => simp at h1
      | cons b bs ih =>
        rw [List.pairwise_cons] at hu
        rw [List.find?_cons]
        rcases List.mem_cons.mp h1 with h | h
        · subst h; simp [h2]
        · have : (b.2 == some x.transaction) = false := by
            have hne : b.2 ≠ some x.transaction := fun hb => hu.1 e h _ hb h2
            simpa using hne
          rw [this]
          exact ih hu.2 h
  unfold txActions
  cases he : x.ended with
  | true => simp
  | false =>
    cases hi : x.info with
    | none => simp
    | some i =>
      cases ht : x.token with
      | none => simp
      | some t =>
        simp only [Bool.false_eq_true, if_false, ne_eq, reduceCtorEq, not_false_eq_true, true_and,
          Option.some.injEq, exists_eq_left']
        by_cases hs : i.status = .accepted
        · simp [hs]
        · simp only [if_neg hs]
          cases hf : evses.find? (fun e => e.2 == some x.transaction) with
          | none =>
            have hno : ∀ e, (e, some x.transaction) ∉ evses := by
              intro e hm
              have := (find_iff (e, some x.transaction)).mpr ⟨hm, rfl⟩
              rw [hf] at this; simp at this
            simp [hno]
          | some e =>
            obtain ⟨h1, h2⟩ := (find_iff e).mp hf
            have huniq : ∀ f, (f, some x.transaction) ∈ evses ↔ f = e.1 := by
              intro f
              constructor
              · intro hm
                have := (find_iff (f, some x.transaction)).mpr ⟨hm, rfl⟩
                rw [hf] at this
                simp only [Option.some.injEq] at this
                rw [this]
              · rintro rfl
                rw [← h2]; exact h1
            simp only [huniq, exists_eq_left]
            cases cfg.stopOnInvalid <;> cases cfg.maxEnergy <;> simp [hs]

example : txActions ⟨true, false, some 100⟩ [(1, none), (2, some ['T'])]
    ⟨false, some (lTok 'a'), ['T'], some lNo⟩ = [.limitEnergy 2] := by decide

/-- C59: the idTokenInfo of a TransactionEvent response is cached for the token of the event, unless the
event ended the transaction, the cache is disabled or the token is of type Central. -/
theorem C59_cached (cfg : TxConfig) (now : Int) (t : Token) (tx : Str) (i : Info) (c : List Row)
    (ended : Bool) :
    ((ended = false ∧ cfg.cacheEnabled = true ∧ t.type ≠ central) →
      (⟨key t, i, now⟩ : Row) ∈ txCache cfg now ⟨ended, some t, tx, some i⟩ c) ∧
    (¬ (ended = false ∧ cfg.cacheEnabled = true ∧ t.type ≠ central) →
      txCache cfg now ⟨ended, some t, tx, some i⟩ c = c) := by
  unfold txCache
  constructor
  · rintro ⟨h1, h2, h3⟩
    subst h1
    simp only [Bool.false_eq_true, if_false]
    rw [if_pos ⟨h3, h2⟩]
    exact mem_cachePut.mpr (Or.inr rfl)
  · intro h
    cases ended with
    | true => rfl
    | false =>
      simp only [Bool.false_eq_true, if_false]
      rw [if_neg (fun hc => h ⟨rfl, hc.2, hc.1⟩)]

example : txCache ⟨true, true, none⟩ 7 ⟨false, some (lTok 'a'), ['T'], some lNo⟩ []
    = [⟨key (lTok 'a'), lNo, 7⟩] := by decide

end Verif.Auth
