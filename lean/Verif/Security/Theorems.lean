import Verif.Security.Model

/-!
# Certificate signing requests: C43, C95

The specification speaks about the log only.
-/

namespace Verif.Sec

/-- The exchange has ended: a certificate came, the CSMS refused, or the station gave up. -/
def Ends (e : Ev) : Prop := e = .signed ∨ e = .refused ∨ e = .gaveUp

instance (e : Ev) : Decidable (Ends e) := by unfold Ends; infer_instance

/-- Number of repetitions in a part of the log. -/
def repetitions (l : List Ev) : Nat := l.countP (fun e => match e with | .again _ => true | _ => false)

/-- The part of the log since the last end of an exchange. -/
def current (l : List Ev) : List Ev := (l.reverse.takeWhile (fun e => !decide (Ends e))).reverse

/-- A request of the station to sign a certificate. -/
def Request (e : Ev) : Prop := (∃ u, e = .sent u) ∨ ∃ u, e = .again (some u)

theorem current_concat (l : List Ev) (e : Ev) : current (l ++ [e]) = if Ends e then [] else current l ++ [e] := by
  unfold current
  by_cases h : Ends e <;> simp [h]

theorem current_suffix (l : List Ev) : ∃ a, l = a ++ current l ∧ ∀ e ∈ current l, ¬ Ends e := by
  refine ⟨(l.reverse.dropWhile (fun e => !decide (Ends e))).reverse, ?_, ?_⟩
  · unfold current
    rw [← List.reverse_append, List.takeWhile_append_dropWhile, List.reverse_reverse]
  · intro e he
    unfold current at he
    have := List.all_takeWhile (p := fun e => !decide (Ends e)) (l := l.reverse)
    rw [List.all_eq_true] at this
    simpa using this e (by simpa using he)

/-- A part without an end of an exchange is within the current part. -/
theorem current_append (a b : List Ev) (h : ∀ e ∈ b, ¬ Ends e) : ∃ c, current (a ++ b) = c ++ b := by
  refine ⟨current a, ?_⟩
  unfold current
  rw [List.reverse_append, List.takeWhile_append_of_pos (by simpa using h)]
  simp

/-- The invariant for repetitions. -/
structure Inv (R : Nat) (s : State) : Prop where
  attempt : s.attempt = 1 + repetitions (current s.log)
  armed : s.armed = true → s.attempt ≤ R
  bound : ∀ a b, s.log = a ++ b → repetitions (current a) ≤ R
  timers : ∀ a w m b, s.log = a ++ .timer w m :: b → w = min (max 250 m * 2 ^ (1 + repetitions (current a))) 2147483647

theorem append_cases {α : Type} {l a b : List α} {e : α} (h : l ++ [e] = a ++ b) :
    (∃ b', b = b' ++ [e] ∧ l = a ++ b') ∨ (b = [] ∧ a = l ++ [e]) := by
  rcases List.eq_nil_or_concat b with rfl | ⟨b', x, rfl⟩
  · exact .inr ⟨rfl, by simpa using h.symm⟩
  · rw [List.concat_eq_append] at h ⊢
    rw [← List.append_assoc] at h
    obtain ⟨h1, h2⟩ := List.append_inj' h rfl
    injection h2 with h2
    subst h2
    exact .inl ⟨b', rfl, h1⟩

/-- Adding one event to the log. -/
theorem Inv.add {R : Nat} {s t : State} {e : Ev} (h : Inv R s) (hl : t.log = s.log ++ [e])
    (ha : t.attempt = 1 + repetitions (current (s.log ++ [e]))) (har : t.armed = true → t.attempt ≤ R)
    (hb : repetitions (current (s.log ++ [e])) ≤ R)
    (ht : ∀ w m, e = .timer w m → w = min (max 250 m * 2 ^ (1 + repetitions (current s.log))) 2147483647) : Inv R t := by
  refine ⟨hl ▸ ha, har, ?_, ?_⟩
  · intro a b hab
    rw [hl] at hab
    rcases append_cases hab with ⟨b', _, h2⟩ | ⟨_, h2⟩
    · exact h.bound a b' h2
    · rw [h2]; exact hb
  · intro a w m b hab
    rw [hl] at hab
    rcases append_cases hab with ⟨b', h1, h2⟩ | ⟨h1, _⟩
    · cases b' with
      | nil =>
        simp only [List.nil_append, List.cons.injEq] at h1
        simp only [List.append_nil] at h2
        rw [← h2]
        exact ht w m h1.1.symm
      | cons x r =>
        simp only [List.cons_append, List.cons.injEq] at h1
        exact h.timers a w m r (by rw [h2, ← h1.1])
    · simp at h1

theorem Inv.same {R : Nat} {s t : State} (h : Inv R s) (hl : t.log = s.log) (ha : t.attempt = s.attempt)
    (har : t.armed = true → s.armed = true) : Inv R t :=
  ⟨by rw [hl, ha]; exact h.attempt, fun x => by rw [ha]; exact h.armed (har x), hl ▸ h.bound, hl ▸ h.timers⟩

/-- The configured number of repetitions does not exceed `R`. -/
def Op.Within (R : Nat) : Op → Prop
  | .accept c => ∀ n, c.times = some n → n ≤ R
  | _ => True

theorem clampInt_eq (x : Int) : clampInt x = min x 2147483647 := by
  unfold clampInt; split <;> omega

theorem trigger_cases (s : State) (u : Use) (ok : Bool) : trigger s u ok = s ∨
    (s.awaited = none ∧ trigger s u ok = { s with awaited := some u, open_ := s.open_ + 1, log := s.log ++ [.sent u] }) := by
  unfold trigger sign
  by_cases h : s.awaited.isSome = true
  · rw [if_pos h]; exact .inl rfl
  · rw [if_neg h]
    cases ok with
    | false => exact .inl rfl
    | true => exact .inr ⟨by simpa using h, rfl⟩

theorem Inv.step {R : Nat} {s : State} (h : Inv R s) (o : Op) (ho : o.Within R) : Inv R (Sec.step s o) := by
  unfold Sec.step
  by_cases hc : s.crashed = true
  · rw [if_pos hc]; exact h
  rw [if_neg hc]
  have hat := h.attempt
  have hb0 := h.bound s.log [] (by simp)
  cases o with
  | trigger u ok =>
    rcases trigger_cases s u ok with hs | ⟨_, hs⟩
    · simp only [hs]; exact h
    · simp only [hs]
      refine h.add (e := .sent u) rfl ?_ h.armed ?_ (by intro w m he; cases he)
      · simp [current_concat, Ends, repetitions] at *; exact hat
      · simp [current_concat, Ends, repetitions] at *; exact hb0
  | accept c =>
    simp only
    split
    · exact h
    unfold accepted
    split
    · exact h.same rfl rfl id
    split
    · rename_i w n hw hn
      split
      · refine h.add (e := .gaveUp) rfl ?_ (by simp) ?_ (by intro w m he; cases he)
        · simp [current_concat, Ends, repetitions]
        · simp [current_concat, Ends, repetitions]
      · rename_i hle
        have hn' := ho n hn
        simp only at hle
        refine h.add (e := .timer (backoff w s.attempt) w) rfl ?_ ?_ ?_ ?_
        · simp [current_concat, Ends, repetitions] at *; exact hat
        · intro _; simp only; omega
        · simp [current_concat, Ends, repetitions] at *; exact hb0
        · intro w' m he
          injection he with h1 h2
          subst h1 h2
          rw [backoff, clampInt_eq, hat]
    · exact h.same rfl rfl id
  | refuse =>
    simp only
    split
    · exact h
    unfold refused
    split
    · exact h.same rfl rfl id
    · refine h.add (e := .refused) rfl ?_ ?_ ?_ (by intro w m he; cases he)
      · simp [current_concat, Ends, repetitions]
      · intro ha
        have := h.armed ha
        simp only
        omega
      · simp [current_concat, Ends, repetitions]
  | lost =>
    simp only
    split
    · exact h
    · exact h.same rfl rfl id
  | certificateSigned =>
    refine h.add (e := .signed) rfl ?_ (by simp [signed]) ?_ (by intro w m he; cases he)
    · simp [current_concat, Ends, repetitions, signed]
    · simp [current_concat, Ends, repetitions]
  | fire ok =>
    simp only
    split
    · rename_i har
      have hle := h.armed har
      have key : ∀ x, repetitions (current (s.log ++ [.again x])) = repetitions (current s.log) + 1 := by
        intro x; simp [current_concat, Ends, repetitions]
      unfold Sec.fire
      cases hw : s.awaited with
      | none =>
        refine h.add (e := .again none) rfl ?_ (by simp) ?_ (by intro w m he; cases he)
        · rw [key]; simp only; omega
        · rw [key]; omega
      | some u =>
        cases ok with
        | false =>
          refine h.add (e := .again none) (by simp [sign]) ?_ (by simp [sign]) ?_ (by intro w m he; cases he)
          · rw [key]; simp only [sign, Bool.not_false, if_true, Option.isSome_none, Bool.false_eq_true, if_false]; omega
          · rw [key]; omega
        | true =>
          refine h.add (e := .again (some u)) (by simp [sign]) ?_ (by simp [sign]) ?_ (by intro w m he; cases he)
          · rw [key]; simp only [sign, Bool.not_true, Option.isSome_none, Bool.false_eq_true, if_false]; omega
          · rw [key]; omega
    · exact h

theorem Inv.run {R : Nat} (ops : List Op) : ∀ {s : State}, Inv R s → (∀ o ∈ ops, o.Within R) → Inv R (Sec.run s ops) := by
  induction ops with
  | nil => intro s h _; exact h
  | cons o r ih =>
    intro s h ho
    exact ih (h.step o (ho o (by simp))) (fun x hx => ho x (by simp [hx]))

theorem Inv.init (R : Nat) : Inv R {} := by
  refine ⟨rfl, by simp, ?_, ?_⟩
  · intro a b h
    have : a = [] := by
      have h' : ([] : List Ev) = a ++ b := h
      simpa using (List.append_eq_nil_iff.mp h'.symm).1
    subst this; simp [current, repetitions]
  · intro a w m b h
    have h' : ([] : List Ev) = a ++ .timer w m :: b := h
    simp at h'

/-- C43: until a certificate comes, the CSMS refuses or the station gives up, a request is repeated at most as often as configured
(`R`), whatever happens. -/
theorem C43_bounded (R : Nat) (ops : List Op) (ho : ∀ o ∈ ops, o.Within R) (a b c : List Ev)
    (hl : (run {} ops).log = a ++ b ++ c) (hb : ∀ e ∈ b, ¬ Ends e) : repetitions b ≤ R := by
  have h := (Inv.init R).run ops ho
  have := h.bound (a ++ b) c hl
  obtain ⟨d, hd⟩ := current_append a b hb
  rw [hd] at this
  simp only [repetitions, List.countP_append] at *
  omega

/-- C43: the time to wait for the certificate is at least 250 seconds and at least CertSigningWaitMinimum, doubled for the first
request and for each repetition since the last end of an exchange; it is an `int`. -/
theorem C43_waits (ops : List Op) (a b : List Ev) (w m : Int) (hl : (run {} ops).log = a ++ .timer w m :: b) :
    w = min (max 250 m * 2 ^ (1 + repetitions (current a))) 2147483647 := by
  obtain ⟨R, hR⟩ : ∃ R : Nat, ∀ o ∈ ops, o.Within R := by
    clear hl
    induction ops with
    | nil => exact ⟨0, by simp⟩
    | cons o r ih =>
      obtain ⟨R, hR⟩ := ih
      have mono : ∀ {A B : Nat} {o : Op}, A ≤ B → o.Within A → o.Within B := by
        intro A B o hAB h
        cases o <;> simp only [Op.Within] at * <;> intro n hn <;> have := h n hn <;> omega
      obtain ⟨Q, hQ⟩ : ∃ Q : Nat, o.Within Q := by
        cases o with
        | accept c =>
          cases hc : c.times with
          | none => exact ⟨0, by simp [Op.Within, hc]⟩
          | some n => exact ⟨n.toNat, by intro k hk; rw [hc] at hk; injection hk with hk; omega⟩
        | _ => exact ⟨0, trivial⟩
      refine ⟨R + Q, fun x hx => ?_⟩
      rcases List.mem_cons.mp hx with rfl | hx
      · exact mono (by omega) hQ
      · exact mono (by omega) (hR x hx)
  exact ((Inv.init R).run ops hR).timers a w m b hl

/-- Non-vacuity of `C43_bounded` and `C43_waits`: an unanswered request is repeated twice, with doubled waiting times. -/
example : let c : Cfg := ⟨some 30, some 2⟩
    (run {} [.trigger .v2g true, .accept c, .fire true, .accept c, .fire true, .accept c, .fire true]).log =
    [.sent .v2g, .timer 500 30, .again (some .v2g), .timer 1000 30, .again (some .v2g), .gaveUp] ∧
    (∀ o ∈ [Op.trigger .v2g true, .accept c, .fire true, .accept c, .fire true, .accept c, .fire true], o.Within 2) := by
  refine ⟨by decide +kernel, ?_⟩
  intro o ho
  simp only [List.mem_cons, List.not_mem_nil, or_false] at ho
  rcases ho with rfl | rfl | rfl | rfl | rfl | rfl | rfl <;> simp [Op.Within]

/-! ## One exchange at a time -/

/-- What the last request asked for, while the exchange goes on. -/
def pend : Option Use → List Ev → Option Use
  | o, [] => o
  | _, .sent u :: r => pend (some u) r
  | _, .again o :: r => pend o r
  | _, .signed :: r => pend none r
  | _, .refused :: r => pend none r
  | _, .gaveUp :: r => pend none r
  | o, .timer _ _ :: r => pend o r

theorem pend_append (a b : List Ev) (o : Option Use) : pend o (a ++ b) = pend (pend o a) b := by
  induction a generalizing o with
  | nil => rfl
  | cons e r ih => cases e <;> simp [pend, ih]

/-- The invariant for exchanges. -/
structure Inv2 (s : State) : Prop where
  awaited : s.awaited = pend none s.log
  sent : ∀ a u b, s.log = a ++ .sent u :: b → pend none a = none
  again : ∀ a u b, s.log = a ++ .again (some u) :: b → pend none a = some u

theorem Inv2.add {s t : State} {e : Ev} (h : Inv2 s) (hl : t.log = s.log ++ [e]) (ha : t.awaited = pend s.awaited [e])
    (h1 : ∀ u, e = .sent u → s.awaited = none) (h2 : ∀ u, e = .again (some u) → s.awaited = some u) : Inv2 t := by
  have key : ∀ a y b, t.log = a ++ y :: b → (∃ b', s.log = a ++ y :: b') ∨ (y = e ∧ a = s.log) := by
    intro a y b hab
    rw [hl] at hab
    rcases append_cases hab with ⟨b', h1, h2⟩ | ⟨h1, _⟩
    · cases b' with
      | nil =>
        simp only [List.nil_append, List.cons.injEq, List.append_nil] at h1 h2
        exact .inr ⟨h1.1, h2.symm⟩
      | cons x r =>
        simp only [List.cons_append, List.cons.injEq] at h1
        exact .inl ⟨r, by rw [h2, ← h1.1]⟩
    · simp at h1
  refine ⟨?_, ?_, ?_⟩
  · rw [ha, hl, pend_append, h.awaited]
  · intro a u b hab
    rcases key a _ b hab with ⟨b', hb'⟩ | ⟨he, rfl⟩
    · exact h.sent a u b' hb'
    · rw [← h.awaited]; exact h1 u he.symm
  · intro a u b hab
    rcases key a _ b hab with ⟨b', hb'⟩ | ⟨he, rfl⟩
    · exact h.again a u b' hb'
    · rw [← h.awaited]; exact h2 u he.symm

theorem Inv2.same {s t : State} (h : Inv2 s) (hl : t.log = s.log) (ha : t.awaited = s.awaited) : Inv2 t :=
  ⟨by rw [hl, ha]; exact h.awaited, hl ▸ h.sent, hl ▸ h.again⟩

theorem Inv2.step {s : State} (h : Inv2 s) (o : Op) : Inv2 (Sec.step s o) := by
  unfold Sec.step
  by_cases hc : s.crashed = true
  · rw [if_pos hc]; exact h
  rw [if_neg hc]
  cases o with
  | trigger u ok =>
    rcases trigger_cases s u ok with hs | ⟨hn, hs⟩
    · simp only [hs]; exact h
    · simp only [hs]
      exact h.add (e := .sent u) rfl rfl (fun _ _ => hn) (by intro u he; cases he)
  | accept c =>
    simp only
    split
    · exact h
    unfold accepted
    split
    · exact h.same rfl rfl
    split
    · split
      · exact h.add (e := .gaveUp) rfl rfl (by intro u he; cases he) (by intro u he; cases he)
      · exact h.add (e := .timer _ _) rfl rfl (by intro u he; cases he) (by intro u he; cases he)
    · exact h.same rfl rfl
  | refuse =>
    simp only
    split
    · exact h
    unfold refused
    split
    · exact h.same rfl rfl
    · exact h.add (e := .refused) rfl rfl (by intro u he; cases he) (by intro u he; cases he)
  | lost =>
    simp only
    split
    · exact h
    · exact h.same rfl rfl
  | certificateSigned => exact h.add (e := .signed) rfl rfl (by intro u he; cases he) (by intro u he; cases he)
  | fire ok =>
    simp only
    split
    · unfold Sec.fire
      cases hw : s.awaited with
      | none => exact h.add (e := .again none) rfl rfl (by intro u he; cases he) (by intro u he; cases he)
      | some u =>
        cases ok with
        | false =>
          exact h.add (e := .again none) (by simp [sign]) (by simp [sign, pend]) (by intro u he; cases he) (by intro u he; cases he)
        | true =>
          refine h.add (e := .again (some u)) (by simp [sign]) (by simp [sign, pend]) (by intro u he; cases he) ?_
          intro v he
          injection he with he
          rw [hw, he]
    · exact h

theorem Inv2.run (ops : List Op) : ∀ {s : State}, Inv2 s → Inv2 (Sec.run s ops) := by
  induction ops with
  | nil => intro s h; exact h
  | cons o r ih => intro s h; exact ih (h.step o)

theorem Inv2.init : Inv2 {} := by
  refine ⟨rfl, ?_, ?_⟩ <;> intro a u b h
  · have h' : ([] : List Ev) = a ++ .sent u :: b := h
    simp at h'
  · have h' : ([] : List Ev) = a ++ .again (some u) :: b := h
    simp at h'

/-- What the request `e` asks for. -/
inductive Asks : Ev → Use → Prop
  | sent (u) : Asks (.sent u) u
  | again (u) : Asks (.again (some u)) u

theorem pend_none {o : Option Use} {b : List Ev} (h : pend o b = none) : o = none ∨ ∃ e ∈ b, Ends e ∨ e = .again none := by
  induction b generalizing o with
  | nil => exact .inl h
  | cons e r ih =>
    cases e with
    | timer w m =>
      rcases ih (o := o) h with h | ⟨x, hx, hx'⟩
      · exact .inl h
      · exact .inr ⟨x, by simp [hx], hx'⟩
    | sent u =>
      rcases ih (o := some u) h with h | ⟨x, hx, hx'⟩
      · simp at h
      · exact .inr ⟨x, by simp [hx], hx'⟩
    | again u =>
      rcases ih (o := u) h with h | ⟨x, hx, hx'⟩
      · subst h; exact .inr ⟨.again none, by simp, .inr rfl⟩
      · exact .inr ⟨x, by simp [hx], hx'⟩
    | signed => exact .inr ⟨.signed, by simp, .inl (.inl rfl)⟩
    | refused => exact .inr ⟨.refused, by simp, .inl (.inr (.inl rfl))⟩
    | gaveUp => exact .inr ⟨.gaveUp, by simp, .inl (.inr (.inr rfl))⟩

theorem pend_some {o : Option Use} {b : List Ev} {u : Use} (h : pend o b = some u) (hb : ∀ e ∈ b, ∀ v, ¬ Asks e v) :
    o = some u ∧ ∀ e ∈ b, ¬ Ends e := by
  induction b generalizing o with
  | nil => exact ⟨h, by simp⟩
  | cons e r ih =>
    have hr : ∀ e ∈ r, ∀ v, ¬ Asks e v := fun x hx => hb x (by simp [hx])
    cases e with
    | timer w m =>
      obtain ⟨h1, h2⟩ := ih (o := o) h hr
      exact ⟨h1, fun x hx => by rcases List.mem_cons.mp hx with rfl | hx; · simp [Ends]
                                · exact h2 x hx⟩
    | sent v => exact absurd (Asks.sent v) (hb _ (by simp) v)
    | again v =>
      cases v with
      | some v => exact absurd (Asks.again v) (hb _ (by simp) v)
      | none => exact absurd (ih (o := none) h hr).1 (by simp)
    | signed => exact absurd (ih (o := none) h hr).1 (by simp)
    | refused => exact absurd (ih (o := none) h hr).1 (by simp)
    | gaveUp => exact absurd (ih (o := none) h hr).1 (by simp)

/-- C43: a new request is sent only after the end of the exchange before (or a failed repetition). -/
theorem C43_exclusive (ops : List Op) (a b c : List Ev) (x : Ev) (u v : Use)
    (hl : (run {} ops).log = a ++ x :: b ++ .sent v :: c) (hx : Asks x u) :
    ∃ e ∈ b, Ends e ∨ e = .again none := by
  have h := (Inv2.init.run ops).sent (a ++ x :: b) v c hl
  rw [pend_append] at h
  have hp : pend (pend none a) (x :: b) = pend (some u) b := by cases hx <;> rfl
  rw [hp] at h
  rcases pend_none h with h | h
  · simp at h
  · exact h

/-- C43: a repetition asks for the certificate that the request before asked for, and the exchange has not ended since. -/
theorem C43_same (ops : List Op) (b c : List Ev) (v : Use) (hl : (run {} ops).log = b ++ .again (some v) :: c) :
    ∃ a x b', b = a ++ x :: b' ∧ Asks x v ∧ ∀ e ∈ b', ¬ Ends e := by
  have h := (Inv2.init.run ops).again b v c hl
  clear hl
  have key : ∀ (b : List Ev) (o : Option Use), pend o b = some v →
      (o = some v ∧ ∀ e ∈ b, ¬ Ends e) ∨ ∃ a x b', b = a ++ x :: b' ∧ Asks x v ∧ ∀ e ∈ b', ¬ Ends e := by
    intro b
    induction b with
    | nil => intro o h; exact .inl ⟨h, by simp⟩
    | cons e r ih =>
      intro o h
      have up : (∃ a x b', r = a ++ x :: b' ∧ Asks x v ∧ ∀ e ∈ b', ¬ Ends e) →
          ∃ a x b', e :: r = a ++ x :: b' ∧ Asks x v ∧ ∀ e ∈ b', ¬ Ends e := by
        rintro ⟨a, x, b', rfl, h1, h2⟩
        exact ⟨e :: a, x, b', rfl, h1, h2⟩
      cases e with
      | timer w m =>
        rcases ih o h with ⟨h1, h2⟩ | h1
        · refine .inl ⟨h1, fun x hx => ?_⟩
          rcases List.mem_cons.mp hx with rfl | hx
          · simp [Ends]
          · exact h2 x hx
        · exact .inr (up h1)
      | sent u =>
        rcases ih (some u) h with ⟨h1, h2⟩ | h1
        · injection h1 with h1; subst h1
          exact .inr ⟨[], .sent u, r, rfl, .sent u, h2⟩
        · exact .inr (up h1)
      | again u =>
        rcases ih u h with ⟨h1, h2⟩ | h1
        · subst h1
          exact .inr ⟨[], .again (some v), r, rfl, .again v, h2⟩
        · exact .inr (up h1)
      | signed =>
        rcases ih none h with ⟨h1, _⟩ | h1
        · simp at h1
        · exact .inr (up h1)
      | refused =>
        rcases ih none h with ⟨h1, _⟩ | h1
        · simp at h1
        · exact .inr (up h1)
      | gaveUp =>
        rcases ih none h with ⟨h1, _⟩ | h1
        · simp at h1
        · exact .inr (up h1)
  rcases key b none h with ⟨h1, _⟩ | h1
  · simp at h1
  · exact h1

/-- Non-vacuity of `C43_exclusive` and `C43_same`. -/
example : let c : Cfg := ⟨some 30, some 2⟩
    (run {} [.trigger .v2g true, .accept c, .trigger .chargingStation true, .fire true, .certificateSigned,
      .trigger .chargingStation true]).log =
    [.sent .v2g, .timer 500 30, .again (some .v2g), .signed, .sent .chargingStation] := by decide +kernel

/-! ## Failures -/

/-- The CSMS sends no certificate before it has answered the request. -/
def Ordered : State → List Op → Prop
  | _, [] => True
  | s, o :: r => (o = .certificateSigned → s.open_ = 0) ∧ Ordered (step s o) r

/-- C43: the timer never finds the exchange ended, if the CSMS answers a request before it sends the certificate. -/
theorem C43_crash_partial (ops : List Op) (ho : Ordered {} ops) : (run {} ops).crashed = false := by
  have key : ∀ (ops : List Op) (s : State), s.crashed = false → (s.armed = true → s.awaited.isSome = true ∧ s.open_ = 0) →
      (s.open_ ≤ 1) → (s.awaited = none → s.open_ = 0) → Ordered s ops → (run s ops).crashed = false := by
    intro ops
    induction ops with
    | nil => intro s h _ _ _ _; exact h
    | cons o r ih =>
      intro s hc h1 h2 h3 ho
      obtain ⟨ho, hr⟩ := ho
      refine ih (step s o) ?_ ?_ ?_ ?_ hr <;> unfold step <;> simp only [hc, Bool.false_eq_true, if_false]
      all_goals
        cases o with
        | trigger u ok =>
          rcases trigger_cases s u ok with hs | ⟨hn, hs⟩
          · simp only [hs]; assumption
          · simp only [hs]
            have := h3 hn
            have h4 : s.armed = false := by
              cases h : s.armed with
              | false => rfl
              | true => have := (h1 h).1; rw [hn] at this; simp at this
            simp_all
        | accept c =>
          simp only [accepted]
          by_cases h0 : s.open_ = 0
          · simp only [h0, if_true]; first | assumption | (simp_all)
          · simp only [h0, if_false]
            cases hw : s.awaited with
            | none => exact absurd (h3 hw) h0
            | some u =>
              have : s.open_ - 1 = 0 := by omega
              simp only [Option.isNone_some, Bool.false_eq_true, if_false]
              split
              · split <;> simp_all
              · simp_all
        | refuse =>
          simp only [refused]
          by_cases h0 : s.open_ = 0
          · simp only [h0, if_true]; first | assumption | (simp_all)
          · simp only [h0, if_false]
            have : s.open_ - 1 = 0 := by omega
            have h4 : s.armed = false := by
              cases h : s.armed with
              | false => rfl
              | true => exact absurd (h1 h).2 h0
            cases hw : s.awaited with
            | none => exact absurd (h3 hw) h0
            | some u => simp_all
        | lost =>
          simp only
          by_cases h0 : s.open_ = 0
          · simp only [h0, if_true]; first | assumption | (simp_all)
          · have : s.open_ - 1 = 0 := by omega
            simp only [h0, if_false] <;> simp_all
        | certificateSigned =>
          have := ho rfl
          simp_all [signed]
        | fire ok =>
          simp only [fire]
          cases ha : s.armed with
          | false => simp_all
          | true =>
            obtain ⟨h4, h5⟩ := h1 ha
            cases hw : s.awaited with
            | none => rw [hw] at h4; simp at h4
            | some u => cases ok <;> simp_all [sign]
  exact key ops {} rfl (by simp) (by simp) (by simp) ho

/-- Non-vacuity of `C43_crash_partial`. -/
example : Ordered {} [.trigger .v2g true, .accept ⟨some 30, some 2⟩, .certificateSigned] := by
  refine ⟨by simp, by simp, ?_, trivial⟩
  intro _; decide +kernel

/-- C43 violated: the timer is not stopped when the CSMS refuses. If the CSMS sends a certificate before its answer, the answer starts
the timer of the next exchange; if that is refused, the timer reads an empty optional. -/
theorem C43_crash_violated : ∃ ops, (run {} ops).crashed = true :=
  ⟨[.trigger .chargingStation true, .certificateSigned, .trigger .chargingStation true, .accept ⟨some 30, some 2⟩, .refuse,
    .fire true], by decide +kernel⟩

/-- C43 violated: if SignCertificate.req is answered with CALLERROR, or not answered, no other is sent until the CSMS sends a certificate
by itself: expired certificates are not renewed and TriggerMessage has no effect. -/
theorem C43_lost_violated (u : Use) (ops : List Op) (h : Op.certificateSigned ∉ ops) :
    (run {} (.trigger u true :: .lost :: ops)).log = [.sent u] := by
  have key : ∀ (ops : List Op) (s : State), s.awaited = some u → s.open_ = 0 → s.armed = false → s.crashed = false →
      Op.certificateSigned ∉ ops → (run s ops).log = s.log := by
    intro ops
    induction ops with
    | nil => intros; rfl
    | cons o r ih =>
      intro s h1 h2 h3 h4 h5
      have hs : step s o = s := by
        cases o with
        | trigger v ok =>
          rcases trigger_cases s v ok with hs | ⟨hn, _⟩
          · simp only [step, h4, hs, Bool.false_eq_true, if_false]
          · rw [h1] at hn; simp at hn
        | certificateSigned => simp at h5
        | _ => simp [step, h2, h3, h4]
      have : run s (o :: r) = run s r := by
        show run (step s o) r = run s r
        rw [hs]
      rw [this]
      exact ih s h1 h2 h3 h4 (by simp at h5; exact h5.2)
  exact key ops (step (step {} (.trigger u true)) .lost) rfl rfl rfl rfl h

/-- C43 violated: the number of the attempt is not reset if the CSR of a repetition cannot be generated: of the next exchange the first
waiting time is doubled, and with one repetition configured it has none. -/
theorem C43_attempt_violated : ∃ (c : Cfg) (ops : List Op), c.times = some 1 ∧ (∀ d, Op.accept d ∈ ops → d = c) ∧
    (run {} ops).log = [.sent .v2g, .timer 500 30, .again none, .sent .v2g, .gaveUp] := by
  refine ⟨⟨some 30, some 1⟩, [.trigger .v2g true, .accept ⟨some 30, some 1⟩, .fire false, .trigger .v2g true,
    .accept ⟨some 30, some 1⟩], rfl, ?_, by decide +kernel⟩
  intro d hd
  simpa using hd

/-! ## InstallCertificate -/

/-- Root certificates that may be installed with the connection in use: any with TLS (security profile 2 and higher), and without TLS
those of the CSMS and of the manufacturer unless configured otherwise, and those for V2G and of the MO. -/
inductive Allowed (p : Policy) : CertType → Prop
  | tls (t) : 2 ≤ p.profile → Allowed p t
  | csms : p.csms ≠ some false → Allowed p .csmsRoot
  | manufacturer : p.mf ≠ some false → Allowed p .manufacturerRoot
  | mo : Allowed p .moRoot
  | v2g : Allowed p .v2gRoot

/-- C95: a root certificate is passed on for installation exactly if that is allowed with the connection in use. There is one answer, the
last effect; it is Accepted exactly if the installation succeeded, and then there is a security event. -/
theorem C95 (p : Policy) (t : CertType) (r : InstallStatus) :
    (InstallEv.install t ∈ install p t r ↔ Allowed p t) ∧
    (∀ t', InstallEv.install t' ∈ install p t r → t' = t) ∧
    (∃ l st b, install p t r = l ++ [.answer st b] ∧ (∀ st' b', InstallEv.answer st' b' ∉ l) ∧
      (st = .accepted ↔ Allowed p t ∧ r = .accepted) ∧ (InstallEv.event ∈ l ↔ st = .accepted) ∧ (b = true ↔ ¬ Allowed p t)) := by
  have hm : mayInstall p t = true ↔ Allowed p t := by
    unfold mayInstall
    by_cases h : p.profile > 1
    · simp only [h, if_true, true_iff]; exact .tls t (by omega)
    · simp only [h, if_false]
      constructor
      · cases t with
        | csmsRoot => intro h'; refine .csms ?_; intro hc; rw [hc] at h'; simp at h'
        | manufacturerRoot => intro h'; refine .manufacturer ?_; intro hc; rw [hc] at h'; simp at h'
        | moRoot => intro _; exact .mo
        | v2gRoot => intro _; exact .v2g
        | oemRoot => intro h'; simp at h'
      · intro h'
        cases h' with
        | tls _ h2 => omega
        | csms h2 => cases hc : p.csms with
          | none => rfl
          | some b => cases b with
            | false => exact absurd hc h2
            | true => rfl
        | manufacturer h2 => cases hc : p.mf with
          | none => rfl
          | some b => cases b with
            | false => exact absurd hc h2
            | true => rfl
        | mo => rfl
        | v2g => rfl
  unfold install
  by_cases h : mayInstall p t = true
  · have ha := hm.mp h
    simp only [h, Bool.not_true, Bool.false_eq_true, if_false, ha, iff_true, true_and]
    refine ⟨by simp, ?_, _, r, false, rfl, ?_, Iff.rfl, ?_, by simp⟩
    · intro t' ht; split at ht <;> simpa using ht
    · intro st b; split <;> simp
    · split <;> simp_all
  · have ha : ¬ Allowed p t := fun x => h (hm.mpr x)
    simp only [h, Bool.not_false, if_true, ha]
    refine ⟨by simp, by simp, [], .rejected, true, rfl, by simp, by simp, by simp, by simp⟩

/-- Non-vacuity of `C95`: refused without TLS, and accepted. -/
example : install ⟨1, some false, none⟩ .csmsRoot .accepted = [.answer .rejected true] ∧
    install ⟨1, none, none⟩ .csmsRoot .accepted = [.install .csmsRoot, .event, .answer .accepted false] := by decide

end Verif.Sec
