/-!
# Which session a cost or price message is for (OCPP 1.6)

`ChargePointImpl::handle_set_session_cost` (l.3321-3392) and `handle_set_user_price` (l.3238-3319) in
`/repo/lib/ocpp/v16/charge_point_impl.cpp`, with `TransactionHandler` in `/repo/lib/ocpp/v16/transaction.cpp`.  The texts and
numbers of the cost and the prices, which are handed to the application as they are, are not modelled.
-/

namespace Verif.Price

/-- A transaction (`transaction.cpp`): its identifier, once the CSMS has assigned one, the session of the application and
the id tag. -/
structure Trans where
  id : Option Int
  session : Nat
  tag : List Char
deriving DecidableEq, Repr

/-- `active_transactions` (index = connector) and `stopped_transactions`. -/
structure Sessions where
  active : List (Option Trans)
  stopped : List Trans := []
deriving DecidableEq, Repr

/-- The member `transactionId` of the data. -/
inductive IdField
  | number (n : Int)
  | text (s : List Char)
  | other
  | missing
deriving DecidableEq, Repr

/-- What the message leads to: it is answered with Rejected, an exception leaves the handler, or the application is told the
cost of a session and the triggers are set at a connector. -/
inductive Outcome
  | rejected
  | throws
  | cost (connector session : Nat)
deriving DecidableEq, Repr

/-- The value of a list of digits. -/
def digits (l : List Char) : Nat := l.foldl (fun a c => 10 * a + (c.toNat - '0'.toNat)) 0

/-- White space as `std::stoi` skips it. -/
def isSpace (c : Char) : Bool := c = ' ' || (9 ≤ c.toNat && c.toNat ≤ 13)

/-- The number as an `int`, if it fits. -/
def toInt (n : Int) : Option Int := if -2147483648 ≤ n ∧ n ≤ 2147483647 then some n else none

/-- The digits at the start of a text, at least one, with a sign. -/
def leadingNumber (sign : Int) (l : List Char) : Option Int :=
  if (l.takeWhile Char.isDigit).isEmpty then none else toInt (sign * digits (l.takeWhile Char.isDigit))

/-- `std::stoi`; `none` is an exception. -/
def stoi (l : List Char) : Option Int :=
  match l.dropWhile isSpace with
  | '-' :: l' => leadingNumber (-1) l'
  | '+' :: l' => leadingNumber 1 l'
  | l' => leadingNumber 1 l'

/-- The number of the transaction (`/repo/lib/ocpp/common/types.cpp` l.652-662, then `std::stoi`, l.3357): a JSON number is
converted to 32 bits without sign and then to text.  `none`: an exception at `stoi`, outside of the `try`. -/
def idOf : IdField → Option Int
  | .number n => toInt (n % 4294967296)
  | .text s => stoi s
  | .other => none
  | .missing => stoi []

/-- `get_connector_from_transaction_id` (`transaction.cpp` l.225-237): the first connector whose transaction has the
identifier. -/
def connectorOf (id : Int) : Nat → List (Option Trans) → Option (Nat × Trans)
  | _, [] => none
  | k, none :: l => connectorOf id (k + 1) l
  | k, some t :: l => if t.id = some id then some (k, t) else connectorOf id (k + 1) l

/-- `handle_set_session_cost` (l.3321-3392), once the data are readable and a callback is registered.  The conversion of a
`transactionId` that is neither a number nor a text fails inside the `try` (l.3341-3353). -/
def sessionCost (s : Sessions) (f : IdField) : Outcome :=
  if f = .other then .rejected
  else
    match idOf f with
    | none => .throws
    | some id =>
      match connectorOf id 0 s.active with
      | none => .rejected
      | some (k, t) => .cost k t.session

/-- Whom a price is for. -/
inductive Whom
  | session (n : Nat)
  | token (t : List Char)
deriving DecidableEq, Repr

/-- `get_transaction_from_id_tag` (`transaction.cpp` l.210-223): active transactions first, then stopped ones; the comparison
is exact. -/
def transactionOf (s : Sessions) (tag : List Char) : Option Trans :=
  match (s.active.filterMap id).find? (fun t => t.tag = tag) with
  | some t => some t
  | none => s.stopped.find? (fun t => t.tag = tag)

/-- `handle_set_user_price` (l.3266-3287). -/
def userPrice (s : Sessions) (tag : List Char) : Whom :=
  match transactionOf s tag with
  | none => .token tag
  | some t => .session t.session

/-- `on_transaction_stopped` (l.4420-4463): the transaction is no longer active but stopped until the answer to
StopTransaction.req (`erase_stopped_transaction`). -/
def stopAt (s : Sessions) (k : Nat) : Sessions :=
  match s.active[k]? with
  | some (some t) =>
    { active := s.active.set k none
      stopped := s.stopped ++ [t] }
  | _ => s

/-! ## Specification -/

/-- The member names the transaction number `v`. -/
def Names (f : IdField) (v : Int) : Prop :=
  f = .number v ∨ ∃ l, f = .text l ∧ l ≠ [] ∧ (∀ c ∈ l, c.isDigit) ∧ v = digits l

/-- The transaction with the number runs at the connector. -/
def RunsAt (s : Sessions) (v : Int) (k : Nat) (t : Trans) : Prop := s.active[k]? = some (some t) ∧ t.id = some v

/-- No two running transactions have the same number. -/
def UniqueIds (s : Sessions) : Prop := ∀ v k t k' t', RunsAt s v k t → RunsAt s v k' t' → k = k'

/-! ## Theorems -/

theorem takeWhile_all (p : Char → Bool) (l : List Char) (h : ∀ c ∈ l, p c) : l.takeWhile p = l := by
  induction l with
  | nil => rfl
  | cons c l ih =>
    rw [List.takeWhile_cons, if_pos (h c (by simp)), ih (fun c hc => h c (by simp [hc]))]

theorem digit_no_space (c : Char) (h : c.isDigit = true) : isSpace c = false ∧ c ≠ '-' ∧ c ≠ '+' := by
  simp only [Char.isDigit, Bool.and_eq_true, decide_eq_true_eq] at h
  obtain ⟨h1, h2⟩ := h
  have h1' : 48 ≤ c.toNat := h1
  have h2' : c.toNat ≤ 57 := h2
  refine ⟨?_, ?_, ?_⟩
  · simp only [isSpace, Bool.or_eq_false_iff, Bool.and_eq_false_iff, decide_eq_false_iff_not]
    refine ⟨?_, .inr (by omega)⟩
    rintro rfl; simp [Char.toNat] at h1'
  · rintro rfl; simp [Char.toNat] at h1'
  · rintro rfl; simp [Char.toNat] at h1'

theorem stoi_digits (l : List Char) (hne : l ≠ []) (h : ∀ c ∈ l, c.isDigit = true) : stoi l = toInt (digits l) := by
  cases l with
  | nil => exact absurd rfl hne
  | cons c l =>
    obtain ⟨h1, h2, h3⟩ := digit_no_space c (h c (by simp))
    have hd : (c :: l).dropWhile isSpace = c :: l := by rw [List.dropWhile_cons, if_neg (by simp [h1])]
    unfold stoi
    rw [hd]
    have : leadingNumber 1 (c :: l) = toInt (digits (c :: l)) := by
      unfold leadingNumber
      rw [takeWhile_all _ _ h]
      simp
    split
    · rename_i heq; simp only [List.cons.injEq] at heq; exact absurd heq.1 h2
    · rename_i heq; simp only [List.cons.injEq] at heq; exact absurd heq.1 h3
    · exact this

theorem connectorOf_some (v : Int) (l : List (Option Trans)) (k0 k : Nat) (t : Trans)
    (h : connectorOf v k0 l = some (k, t)) : ∃ i, k = k0 + i ∧ l[i]? = some (some t) ∧ t.id = some v := by
  induction l generalizing k0 with
  | nil => simp [connectorOf] at h
  | cons x l ih =>
    cases x with
    | none =>
      obtain ⟨i, h1, h2⟩ := ih (k0 + 1) h
      exact ⟨i + 1, by omega, h2⟩
    | some y =>
      simp only [connectorOf] at h
      split at h
      · rename_i hy
        simp only [Option.some.injEq, Prod.mk.injEq] at h
        exact ⟨0, h.1.symm, by simp [h.2], h.2 ▸ hy⟩
      · obtain ⟨i, h1, h2⟩ := ih (k0 + 1) h
        exact ⟨i + 1, by omega, h2⟩

theorem connectorOf_none (v : Int) (l : List (Option Trans)) (k0 : Nat) (h : connectorOf v k0 l = none) (i : Nat)
    (t : Trans) (hi : l[i]? = some (some t)) : t.id ≠ some v := by
  induction l generalizing k0 i with
  | nil => simp at hi
  | cons x l ih =>
    cases x with
    | none =>
      cases i with
      | zero => simp at hi
      | succ i => exact ih (k0 + 1) h i hi
    | some y =>
      simp only [connectorOf] at h
      split at h
      · cases h
      · rename_i hy
        cases i with
        | zero => simp only [List.getElem?_cons_zero, Option.some.injEq] at hi; exact hi ▸ hy
        | succ i => exact ih (k0 + 1) h i hi

/-- The number of the message, if it is a number that fits. -/
theorem idOf_names (f : IdField) (v : Int) (hf : Names f v) (h0 : 0 ≤ v) (h1 : v ≤ 2147483647) :
    f ≠ .other ∧ idOf f = some v := by
  rcases hf with rfl | ⟨l, rfl, hne, hd, rfl⟩
  · refine ⟨by simp, ?_⟩
    simp only [idOf]
    rw [Int.emod_eq_of_lt h0 (by omega)]
    simp [toInt, show (-2147483648 : Int) ≤ v by omega, h1]
  · refine ⟨by simp, ?_⟩
    simp only [idOf]
    rw [stoi_digits l hne hd]
    simp [toInt, show (-2147483648 : Int) ≤ (digits l : Int) by omega, h1]

/-- C169: a cost message that names a transaction (as a number or as text) is for the session of the running transaction
with that number, and its triggers are set at the connector of that transaction; without such a transaction it is answered
with Rejected.  Proved for numbers from 0 to 2147483647. -/
theorem C169_session_partial (s : Sessions) (hu : UniqueIds s) (f : IdField) (v : Int) (hf : Names f v) (h0 : 0 ≤ v)
    (h1 : v ≤ 2147483647) :
    (∀ k t, RunsAt s v k t → sessionCost s f = .cost k t.session) ∧
      ((∀ k t, ¬ RunsAt s v k t) → sessionCost s f = .rejected) := by
  obtain ⟨ho, hid⟩ := idOf_names f v hf h0 h1
  unfold sessionCost
  rw [if_neg ho, hid]
  simp only
  constructor
  · intro k t hr
    cases hc : connectorOf v 0 s.active with
    | none => exact absurd hr.2 (connectorOf_none v s.active 0 hc k t hr.1)
    | some x =>
      obtain ⟨k', t'⟩ := x
      obtain ⟨i, hi, ha, ht⟩ := connectorOf_some v s.active 0 k' t' hc
      have hk : k' = i := by omega
      subst hk
      have : k = k' := hu v k t k' t' hr ⟨ha, ht⟩
      subst this
      have : t = t' := by have := hr.1.symm.trans ha; simpa using this
      subst this
      rfl
  · intro hn
    cases hc : connectorOf v 0 s.active with
    | none => rfl
    | some x =>
      obtain ⟨k', t'⟩ := x
      obtain ⟨i, hi, ha, ht⟩ := connectorOf_some v s.active 0 k' t' hc
      exact absurd ⟨ha, ht⟩ (hn i t')

/-- Two sessions at two connectors. -/
def twoSessions : Sessions :=
  { active := [none, some ⟨some 17, 1, ['A']⟩, some ⟨some 18, 2, ['b']⟩] }

/-- The hypotheses of `C169_session_partial` hold, for a number and for a text. -/
example : UniqueIds twoSessions ∧ Names (.number 18) 18 ∧ Names (.text ['1', '8']) 18 ∧
    RunsAt twoSessions 18 2 ⟨some 18, 2, ['b']⟩ ∧ sessionCost twoSessions (.text ['1', '8']) = .cost 2 2 := by
  refine ⟨?_, .inl rfl, .inr ⟨_, rfl, by simp, by decide, by decide⟩, ⟨rfl, rfl⟩, by decide⟩
  intro v k t k' t' ⟨h1, h2⟩ ⟨h3, h4⟩
  have key : ∀ k t, twoSessions.active[k]? = some (some t) →
      (k = 1 ∧ t.id = some 17) ∨ (k = 2 ∧ t.id = some 18) := by
    intro k t h
    match k, h with
    | 0, h => simp [twoSessions] at h
    | 1, h => simp [twoSessions] at h; exact .inl ⟨rfl, by rw [← h]⟩
    | 2, h => simp [twoSessions] at h; exact .inr ⟨rfl, by rw [← h]⟩
    | k + 3, h => simp [twoSessions] at h
  rcases key k t h1 with ⟨rfl, a⟩ | ⟨rfl, a⟩ <;> rcases key k' t' h3 with ⟨rfl, b⟩ | ⟨rfl, b⟩ <;> try rfl
  · rw [a] at h2; rw [b] at h4; rw [← h2] at h4; simp at h4
  · rw [a] at h2; rw [b] at h4; rw [← h2] at h4; simp at h4

/-- C169 fails: the final cost of a session, which comes after its transaction has stopped, is refused. -/
theorem C169_final_violated : ∃ (s : Sessions) (k : Nat) (t : Trans), s.active[k]? = some (some t) ∧ t.id = some 18 ∧
    sessionCost s (.number 18) = .cost k t.session ∧ sessionCost (stopAt s k) (.number 18) = .rejected :=
  ⟨twoSessions, 2, ⟨some 18, 2, ['b']⟩, rfl, rfl, by decide, by decide⟩

/-- C169 fails: a transaction with a negative number never gets its cost if the number is sent as a number; the handler
throws. -/
theorem C169_negative_violated : ∃ (s : Sessions) (k : Nat) (t : Trans), RunsAt s (-5) k t ∧
    sessionCost s (.number (-5)) = .throws :=
  ⟨{ active := [none, some ⟨some (-5), 1, []⟩] }, 1, ⟨some (-5), 1, []⟩, ⟨rfl, rfl⟩, by decide⟩

/-- C169 fails: texts that are no number throw, and those that only begin with a number are taken for that number. -/
theorem C169_text_violated : sessionCost twoSessions (.text ['x']) = .throws ∧
    sessionCost twoSessions .missing = .throws ∧
    sessionCost twoSessions (.text ['1', '7', 'x']) = .cost 1 1 ∧
    sessionCost twoSessions (.number 4294967313) = .cost 1 1 := by
  refine ⟨by decide, by decide, by decide, by decide⟩

/-- C170: a price for an id token is for the session of the running transaction that was started with it; if there is no
transaction with the token, it is for the token.  Proved for tokens with the same upper and lower case. -/
theorem C170_price_partial (s : Sessions) (tag : List Char) :
    (∀ (k : Nat) (t : Trans), s.active[k]? = some (some t) → t.tag = tag →
      ∃ (k' : Nat) (t' : Trans), s.active[k']? = some (some t') ∧ t'.tag = tag ∧ userPrice s tag = .session t'.session) ∧
      ((∀ (k : Nat) (t : Trans), s.active[k]? = some (some t) → t.tag ≠ tag) → (∀ t ∈ s.stopped, t.tag ≠ tag) →
        userPrice s tag = .token tag) := by
  constructor
  · intro k t hk ht
    unfold userPrice transactionOf
    cases hf : (s.active.filterMap id).find? (fun t => t.tag = tag) with
    | none =>
      rw [List.find?_eq_none] at hf
      refine absurd ht ?_
      have := hf t (by simp only [List.mem_filterMap, id]; exact ⟨some t, List.mem_of_getElem? hk, rfl⟩)
      simpa using this
    | some t' =>
      have h1 := List.mem_of_find?_eq_some hf
      have h2 := List.find?_some hf
      simp only [List.mem_filterMap, id] at h1
      obtain ⟨_, h1, rfl⟩ := h1
      obtain ⟨k', hk'⟩ := List.getElem?_of_mem h1
      exact ⟨k', t', hk', by simpa using h2, rfl⟩
  · intro ha hs
    unfold userPrice transactionOf
    have h1 : (s.active.filterMap id).find? (fun t => t.tag = tag) = none := by
      rw [List.find?_eq_none]
      intro t ht
      simp only [List.mem_filterMap, id] at ht
      obtain ⟨_, ht, rfl⟩ := ht
      obtain ⟨k, hk⟩ := List.getElem?_of_mem ht
      simpa using ha k t hk
    have h2 : s.stopped.find? (fun t => t.tag = tag) = none := by
      rw [List.find?_eq_none]
      intro t ht
      simpa using hs t ht
    simp [h1, h2]

/-- The hypotheses of `C170_price_partial` hold for both parts. -/
example : twoSessions.active[2]? = some (some ⟨some 18, 2, ['b']⟩) ∧
    userPrice twoSessions ['b'] = .session 2 ∧ userPrice twoSessions ['c'] = .token ['c'] := by
  refine ⟨rfl, by decide, by decide⟩

/-- C170 fails: id tokens are not case sensitive, but a price for the token in other letters is not for the session. -/
theorem C170_case_violated : ∃ (s : Sessions) (k : Nat) (t : Trans) (tag : List Char), s.active[k]? = some (some t) ∧
    t.tag.map Char.toLower = tag.map Char.toLower ∧ userPrice s tag = .token tag :=
  ⟨twoSessions, 1, ⟨some 17, 1, ['A']⟩, ['a'], rfl, by decide, by decide⟩

/-- C170 fails: while the answer to StopTransaction.req is missing, a price for the next session of the token is taken to be
for the session that has ended. -/
theorem C170_stopped_violated : ∃ (s : Sessions) (k : Nat) (t : Trans), s.active[k]? = some (some t) ∧
    (∀ (k' : Nat) (t' : Trans), (stopAt s k).active[k']? = some (some t') → t'.tag ≠ t.tag) ∧
    userPrice (stopAt s k) t.tag = .session t.session := by
  refine ⟨{ active := [none, some ⟨some 17, 1, ['A']⟩] }, 1, ⟨some 17, 1, ['A']⟩, rfl, ?_, by decide⟩
  intro k t' h
  match k, h with
  | 0, h => simp [stopAt] at h
  | 1, h => simp [stopAt] at h
  | k + 2, h => simp [stopAt] at h

end Verif.Price
