import Verif.Remote.Model
import Verif.Security.Model
import Verif.ProfileStore.Theorems

/-!
# Requests of the CSMS to start, stop, unlock, trigger and reserve: C35, C96-C100
-/

namespace Verif.Rem

/-- `e` is the EVSE with number `id`. -/
def IsEvse (l : List Evse) (id : Int) (e : Evse) : Prop := ∃ k : Nat, l[k]? = some e ∧ id = (k : Int) + 1

theorem evse?_iff (l : List Evse) (id : Int) (e : Evse) : evse? l id = some e ↔ IsEvse l id e := by
  unfold evse? IsEvse
  constructor
  · intro h
    split at h
    · simp at h
    · exact ⟨(id - 1).toNat, h, by omega⟩
  · rintro ⟨k, hk, rfl⟩
    rw [if_neg (by omega)]
    rw [show ((k : Int) + 1 - 1).toNat = k by omega]
    exact hk

theorem evse?_none (l : List Evse) (id : Int) : evse? l id = none ↔ ∀ e, ¬ IsEvse l id e := by
  constructor
  · intro h e he
    rw [(evse?_iff l id e).mpr he] at h
    simp at h
  · intro h
    cases he : evse? l id with
    | none => rfl
    | some e => exact absurd ((evse?_iff l id e).mp he) (h e)

theorem IsEvse.unique {l : List Evse} {id : Int} {e e' : Evse} (h : IsEvse l id e) (h' : IsEvse l id e') : e = e' := by
  have h1 := (evse?_iff l id e).mpr h
  have h2 := (evse?_iff l id e').mpr h'
  rw [h1] at h2
  exact Option.some.inj h2

/-- A transaction can be started on the EVSE: none runs, and a connector is neither faulted nor unavailable. -/
def Startable (e : Evse) : Prop := e.tx = none ∧ ∃ c ∈ e.conns, c.stat ≠ .faulted ∧ c.stat ≠ .unavailable

theorem usable_iff (e : Evse) : usable e = true ↔ Startable e := by
  simp [usable, Startable]

/-- The EVSE of the request exists, can be started and is not reserved for another token. -/
def MayStart (l : List Evse) (a : Ask) (q : StartReq) (id : Int) : Prop :=
  q.evse = some id ∧ ∃ e, IsEvse l id e ∧ Startable e ∧ a.reserved id q.token q.group = false

theorem start_effects (l : List Evse) (s : PS.State) (now : Int) (a : Ask) (q : StartReq) :
    (∃ id pre info, MayStart l a q id ∧ (start l s now a q).2 = .remoteId id q.token q.id :: pre ++ finishStart q a true info ∧
      (∀ x ∈ pre, ∃ p r, x = Eff.profile id p r)) ∨
    ((∀ id, ¬ MayStart l a q id) ∧ ∃ pre, (∀ x ∈ pre, ∃ id p r, x = Eff.profile id p r) ∧
      ((∃ info, (start l s now a q).2 = pre ++ [.reply false info]) ∨ (pre = [] ∧ (start l s now a q).2 = [.error]))) := by
  unfold start
  cases hq : q.evse with
  | none => exact .inr ⟨fun id h => by rw [MayStart, hq] at h; simp at h, [], by simp, .inl ⟨none, by simp [finishStart]⟩⟩
  | some id =>
    simp only
    cases he : evse? l id with
    | none =>
      refine .inr ⟨?_, [], by simp, .inr ⟨rfl, rfl⟩⟩
      rintro id' ⟨h1, e, h2, _⟩
      rw [hq] at h1; injection h1 with h1; subst h1
      exact (evse?_none l id).mp he e h2
    | some e =>
      have hp : ∀ x ∈ (startProfile s now id a.smart q.profile).2.2, ∃ p r, x = Eff.profile id p r := by
        intro x hx
        unfold startProfile at hx
        split at hx
        · simp at hx
        · split at hx
          · simp only [List.mem_cons, List.not_mem_nil, or_false] at hx
            exact ⟨_, _, hx⟩
          · simp at hx
      simp only
      by_cases h : (usable e && !a.reserved id q.token q.group) = true
      · refine .inl ⟨id, _, (startProfile s now id a.smart q.profile).2.1, ⟨hq, e, (evse?_iff l id e).mp he, ?_, ?_⟩, ?_, hp⟩
        · simp only [Bool.and_eq_true] at h; exact (usable_iff e).mp h.1
        · simp only [Bool.and_eq_true, Bool.not_eq_true'] at h; exact h.2
        · simp [h]
      · refine .inr ⟨?_, _, fun x hx => ⟨id, hp x hx⟩, .inl ⟨(startProfile s now id a.smart q.profile).2.1, ?_⟩⟩
        · rintro id' ⟨h1, e', h2, h3, h4⟩
          rw [hq] at h1; injection h1 with h1; subst h1
          have := ((evse?_iff l id e).mp he).unique h2
          subst this
          exact h (by simp [(usable_iff e).mpr h3, h4])
        · simp [h, finishStart]

/-- C35: RequestStartTransaction is answered Accepted exactly if the EVSE of the request exists, has no transaction, has a connector that is
neither faulted nor unavailable, is not reserved for another token, and the application accepts (and AuthorizeRemoteStart is configured). -/
theorem C35_accepted_iff (l : List Evse) (s : PS.State) (now : Int) (a : Ask) (q : StartReq) :
    (∃ info, Eff.reply true info ∈ (start l s now a q).2) ↔ (∃ id, MayStart l a q id) ∧ a.authorize ≠ none ∧ a.callback = true := by
  rcases start_effects l s now a q with ⟨id, pre, info, h1, h2, h3⟩ | ⟨h1, pre, h2, h3⟩
  · rw [h2]
    have hpre : ∀ info, Eff.reply true info ∉ pre := by
      intro i hi; obtain ⟨p, r, h⟩ := h3 _ hi; cases h
    constructor
    · rintro ⟨i, hi⟩
      simp only [List.cons_append, List.mem_cons, List.mem_append, finishStart, if_true] at hi
      rcases hi with hi | hi | hi
      · cases hi
      · exact absurd hi (hpre i)
      · cases ha : a.authorize with
        | none => rw [ha] at hi; simp at hi
        | some b =>
          rw [ha] at hi
          simp only [List.mem_cons, List.not_mem_nil, or_false] at hi
          rcases hi with hi | hi
          · cases hi
          · injection hi with hi _; exact ⟨⟨id, h1⟩, by simp, hi.symm⟩
    · rintro ⟨_, ha, hc⟩
      cases hb : a.authorize with
      | none => exact absurd hb ha
      | some b => exact ⟨info, by simp [finishStart, hb, hc]⟩
  · constructor
    · rintro ⟨i, hi⟩
      rcases h3 with ⟨info, h3⟩ | ⟨_, h3⟩
      · rw [h3, List.mem_append] at hi
        rcases hi with hi | hi
        · obtain ⟨_, p, r, h⟩ := h2 _ hi; cases h
        · simp at hi
      · rw [h3] at hi; simp at hi
    · rintro ⟨⟨id, h⟩, _⟩; exact absurd h (h1 id)

/-- C35: the application is asked to start, and the id of the start is remembered for the next transaction, only for such an EVSE; the
application is told whether to authorize first as configured. -/
theorem C35_started (l : List Evse) (s : PS.State) (now : Int) (a : Ask) (q : StartReq) :
    (∀ e b, Eff.start e b ∈ (start l s now a q).2 → e = q.evse ∧ a.authorize = some b ∧ ∃ id, MayStart l a q id) ∧
    (∀ e t i, Eff.remoteId e t i ∈ (start l s now a q).2 → t = q.token ∧ i = q.id ∧ MayStart l a q e) := by
  rcases start_effects l s now a q with ⟨id, pre, info, h1, h2, h3⟩ | ⟨h1, pre, h2, h3⟩
  · rw [h2]
    constructor
    · intro e b h
      simp only [List.cons_append, List.mem_cons, List.mem_append, finishStart, if_true] at h
      rcases h with h | h | h
      · cases h
      · obtain ⟨p, r, h⟩ := h3 _ h; cases h
      · cases ha : a.authorize with
        | none => rw [ha] at h; simp at h
        | some b' =>
          rw [ha] at h
          simp only [List.mem_cons, List.not_mem_nil, or_false] at h
          rcases h with h | h
          · injection h with h h'; exact ⟨h, by rw [h'], id, h1⟩
          · cases h
    · intro e t i h
      simp only [List.cons_append, List.mem_cons, List.mem_append, finishStart, if_true] at h
      rcases h with h | h | h
      · injection h with h4 h5 h6; subst h4; exact ⟨h5, h6, h1⟩
      · obtain ⟨p, r, h⟩ := h3 _ h; cases h
      · cases ha : a.authorize <;> rw [ha] at h <;> simp at h
  · have hn : ∀ x ∈ (start l s now a q).2, (∃ id p r, x = Eff.profile id p r) ∨ (∃ i, x = .reply false i) ∨ x = .error := by
      intro x hx
      rcases h3 with ⟨info, h3⟩ | ⟨_, h3⟩
      · rw [h3, List.mem_append] at hx
        rcases hx with hx | hx
        · exact .inl (h2 x hx)
        · simp only [List.mem_cons, List.not_mem_nil, or_false] at hx; exact .inr (.inl ⟨_, hx⟩)
      · rw [h3] at hx; simp only [List.mem_cons, List.not_mem_nil, or_false] at hx; exact .inr (.inr hx)
    constructor
    · intro e b h
      rcases hn _ h with ⟨_, _, _, h⟩ | ⟨_, h⟩ | h <;> cases h
    · intro e t i h
      rcases hn _ h with ⟨_, _, _, h⟩ | ⟨_, h⟩ | h <;> cases h

/-- Number of answers. -/
def answers (l : List Eff) : Nat := l.countP (fun x => match x with | .reply _ _ | .error => true | _ => false)

/-- C35: there is exactly one answer, after everything else. -/
theorem C35_answer (l : List Evse) (s : PS.State) (now : Int) (a : Ask) (q : StartReq) :
    answers (start l s now a q).2 = 1 ∧ ∃ x, (start l s now a q).2.getLast? = some x ∧ (x = .error ∨ ∃ b i, x = .reply b i) := by
  have hz : ∀ pre : List Eff, (∀ x ∈ pre, ∃ id p r, x = Eff.profile id p r) → answers pre = 0 := by
    intro pre h
    simp only [answers, List.countP_eq_zero]
    intro x hx
    obtain ⟨_, _, _, rfl⟩ := h x hx
    simp
  rcases start_effects l s now a q with ⟨id, pre, info, _, h2, h3⟩ | ⟨_, pre, h2, h3⟩
  · have h0 := hz pre (fun x hx => ⟨id, h3 x hx⟩)
    rw [h2]
    unfold answers at *
    cases ha : a.authorize with
    | none =>
      refine ⟨by simp [finishStart, ha, h0], .error, ?_, .inl rfl⟩
      simp [finishStart, ha, List.getLast?_append, List.getLast?_cons]
    | some b =>
      refine ⟨by simp [finishStart, ha, h0], .reply a.callback info, ?_, .inr ⟨_, _, rfl⟩⟩
      simp [finishStart, ha, List.getLast?_append, List.getLast?_cons]
  · have h0 := hz pre h2
    rcases h3 with ⟨info, h3⟩ | ⟨rfl, h3⟩
    · rw [h3]
      refine ⟨?_, .reply false info, by simp, .inr ⟨_, _, rfl⟩⟩
      simp only [answers, List.countP_append] at *
      simp [h0]
    · rw [h3]; exact ⟨rfl, .error, rfl, .inl rfl⟩

/-- C35: of the stored charging profiles a start changes at most the one with the id of its TxProfile, and only if that is valid for the
EVSE (`Verif.PS.validate`, see C21), and smart charging is enabled. -/
theorem C35_profile_partial (l : List Evse) (s : PS.State) (now : Int) (a : Ask) (q : StartReq)
    (h : (start l s now a q).1.rows ≠ s.rows) :
    ∃ id p, q.evse = some id ∧ q.profile = some p ∧ p.purpose = .tx ∧ a.smart = true ∧
      PS.validate s.env s.rows id p .remoteStart = .valid ∧ (start l s now a q).2.contains (.profile id p .valid) = true ∧
      ∀ r, r.profile.id ≠ p.id → (r ∈ (start l s now a q).1.rows ↔ r ∈ s.rows) := by
  unfold start at h ⊢
  cases hq : q.evse with
  | none => rw [hq] at h; exact absurd rfl h
  | some id =>
    rw [hq] at h
    simp only at h ⊢
    cases he : evse? l id with
    | none => rw [he] at h; exact absurd rfl h
    | some e =>
      rw [he] at h
      simp only at h ⊢
      cases hp : q.profile with
      | none => rw [hp] at h; exact absurd rfl h
      | some p =>
        rw [hp] at h
        unfold startProfile at h ⊢
        by_cases hc : (a.smart && decide (p.purpose = .tx)) = true
        · simp only [hc, if_true] at h ⊢
          have hc' := hc
          simp only [Bool.and_eq_true, decide_eq_true_eq] at hc
          have hst : ∀ s : PS.State, (PS.stamp s now p).rows = s.rows := by
            intro s; unfold PS.stamp; split <;> rfl
          have hadd : PS.add s now id p "CSO" .remoteStart =
              match PS.validate s.env s.rows id p .remoteStart with
              | .valid => if PS.rateLimited s now p then (PS.stamp s now p, .rateLimit)
                  else ({ PS.stamp s now p with rows := PS.insert s.rows ⟨id, PS.conform (s.env.phaseType id) p, "CSO"⟩ }, .valid)
              | r => (s, r) := rfl
          by_cases hv : PS.validate s.env s.rows id p .remoteStart = .valid
          · by_cases hr : PS.rateLimited s now p = true
            · rw [hadd, hv] at h
              simp only [hr, if_true] at h
              exact absurd (hst s) h
            · have hres : PS.add s now id p "CSO" .remoteStart =
                  ({ PS.stamp s now p with rows := PS.insert s.rows ⟨id, PS.conform (s.env.phaseType id) p, "CSO"⟩ }, .valid) := by
                rw [hadd, hv]; simp only [hr, Bool.false_eq_true, if_false]
              refine ⟨id, p, rfl, rfl, hc.2, hc.1, hv, ?_, ?_⟩
              · rw [hres]; simp
              · intro r hne
                rw [hres]
                simp only [PS.insert, List.mem_append, List.mem_filter, List.mem_cons, List.not_mem_nil, or_false, decide_eq_true_eq]
                have hid : (PS.conform (s.env.phaseType id) p).id = p.id := by
                  unfold PS.conform PS.conformValidity
                  cases s.env.phaseType id <;> rfl
                rw [hid]
                constructor
                · rintro (⟨h, _⟩ | rfl)
                  · exact h
                  · exact absurd hid hne
                · intro h; exact .inl ⟨h, hne⟩
          · have : (PS.add s now id p "CSO" .remoteStart).1 = s := by
              rw [hadd]
              split
              · rename_i hv'; exact absurd hv' hv
              · rfl
            rw [this] at h
            exact absurd rfl h
        · simp only [hc, Bool.false_eq_true, if_false] at h
          exact absurd rfl h

/-! Examples: two EVSEs, the first with a transaction, the second with a faulted and an available connector. -/

def exEvses : List Evse := [{ tx := some 7 }, { conns := [⟨.faulted, none⟩, ⟨.available, some 3⟩], meter := [some 1, none, some 2] }]
def exAsk : Ask := { reserved := fun _ _ _ => false }
def exStart (evse : Int) (p : Option PS.Profile) : StartReq := { evse := some evse, token := 4, id := 11, profile := p }

/-- A TxProfile without a transaction id, as for a start; and one with an invalid schedule (no periods). -/
def exRemoteTx : PS.Profile := { PS.exTx 5 with txId := none }
def exInvalidTx : PS.Profile := { exRemoteTx with schedules := [{ unit := .A, start := some 0, periods := [] }] }

/-- Non-vacuity of `C35_accepted_iff`, `C35_started`, `C35_answer` and `C35_profile_partial`. -/
example : (start exEvses PS.exState 0 exAsk (exStart 2 (some exRemoteTx))).2 =
      [.remoteId 2 4 11, .profile 2 exRemoteTx .valid, .start (some 2) true, .reply true none] ∧
    (start exEvses PS.exState 0 exAsk (exStart 1 none)).2 = [.reply false none] ∧
    (start exEvses PS.exState 0 exAsk (exStart 3 none)).2 = [.error] ∧
    (start exEvses PS.exState 0 exAsk (exStart 2 (some exRemoteTx))).1.rows.map (fun r => (r.evse, r.profile.id)) = [(2, 5)] := by
  decide +kernel

/-- C35 violated: a start with an invalid charging profile is accepted, without the profile; it should be rejected (F01.FR.26). -/
theorem C35_invalid_violated : ∃ (l : List Evse) (s : PS.State) (a : Ask) (q : StartReq) (p : PS.Profile), q.profile = some p ∧
    p.purpose = .tx ∧ a.smart = true ∧ PS.validate s.env s.rows 2 p .remoteStart ≠ .valid ∧ q.evse = some 2 ∧
    (start l s 0 a q).2 = [.remoteId 2 4 11, .profile 2 p .noPeriods, .start (some 2) true, .reply true (some .noPeriods)] :=
  ⟨exEvses, PS.exState, exAsk, exStart 2 (some exInvalidTx), exInvalidTx, rfl, rfl, rfl, by decide +kernel, rfl, by decide +kernel⟩

/-- C35 violated: the charging profile of a start that is rejected, because a transaction is running, is stored, and may replace another
profile with that id. -/
theorem C35_rejected_violated : ∃ (l : List Evse) (s : PS.State) (a : Ask) (q : StartReq),
    (start l s 0 a q).2.getLast? = some (.reply false none) ∧ s.rows.map (fun r => r.profile.purpose) = [.txDefault] ∧
    (start l s 0 a q).1.rows.map (fun r => r.profile.purpose) = [.tx] :=
  ⟨exEvses, PS.run PS.exState [.set 0 2 (PS.exDefault 5)], exAsk, exStart 1 (some exRemoteTx), by decide +kernel, by decide +kernel,
    by decide +kernel⟩

/-- C35 violated: a charging profile of another purpose than TxProfile is ignored, and the start accepted as if there were none. -/
theorem C35_purpose_violated (l : List Evse) (s : PS.State) (now : Int) (a : Ask) (q : StartReq) (p : PS.Profile) (hp : p.purpose ≠ .tx) :
    start l s now a { q with profile := some p } = start l s now a { q with profile := none } := by
  have : startProfile s now = fun id b o => startProfile s now id b o := rfl
  have h : ∀ id, startProfile s now id a.smart (some p) = startProfile s now id a.smart none := by
    intro id; simp [startProfile, hp]
  unfold start
  cases hq : q.evse with
  | none => rfl
  | some id =>
    simp only
    cases evse? l id with
    | none => rfl
    | some e => simp only [h]; rfl

/-- C35 violated: the id of a start is remembered before the application is asked; if the application rejects, the next transaction of that
token on the EVSE is reported with it (see C63). -/
theorem C35_remote_id_violated : ∃ (l : List Evse) (s : PS.State) (a : Ask) (q : StartReq),
    (start l s 0 a q).2 = [.remoteId 2 4 11, .start (some 2) true, .reply false none] :=
  ⟨exEvses, PS.exState, { exAsk with callback := false }, exStart 2 none, by decide +kernel⟩

/-! ## C96: RequestStopTransaction -/

theorem findTx_spec (tx : Nat) (l : List Evse) (i : Int) :
    (∀ id, findTx tx l i = some id → ∃ (k : Nat) (e : Evse), l[k]? = some e ∧ e.tx = some tx ∧ id = i + k ∧
      ∀ j < k, ∀ e', l[j]? = some e' → e'.tx ≠ some tx) ∧
    (findTx tx l i = none → ∀ e ∈ l, e.tx ≠ some tx) := by
  induction l generalizing i with
  | nil => simp [findTx]
  | cons e r ih =>
    unfold findTx
    by_cases h : e.tx = some tx
    · simp only [h, if_true]
      refine ⟨fun id hid => ⟨0, e, rfl, h, ?_, by simp⟩, by simp⟩
      injection hid with hid; omega
    · simp only [h, if_false]
      obtain ⟨h1, h2⟩ := ih (i + 1)
      constructor
      · intro id hid
        obtain ⟨k, e', h3, h4, h5, h6⟩ := h1 id hid
        refine ⟨k + 1, e', by simpa using h3, h4, by omega, ?_⟩
        intro j hj e'' he
        cases j with
        | zero => simp at he; subst he; exact h
        | succ j => exact h6 j (by omega) e'' (by simpa using he)
      · intro hn e' he
        rcases List.mem_cons.mp he with rfl | he
        · exact h
        · exact h2 hn e' he

/-- C96: RequestStopTransaction stops, with the application's answer, the transaction with the given id: on the EVSE it runs on. If there is
none, it is rejected and nothing is stopped. -/
theorem C96 (l : List Evse) (cb : Int → Bool) (tx : Nat) :
    ((∃ e ∈ l, e.tx = some tx) → ∃ id e, IsEvse l id e ∧ e.tx = some tx ∧ stop l cb tx = [.stop id, .reply (cb id) none]) ∧
    ((∀ e ∈ l, e.tx ≠ some tx) → stop l cb tx = [.reply false none]) := by
  obtain ⟨h1, h2⟩ := findTx_spec tx l 1
  unfold stop
  constructor
  · rintro ⟨e, he, ht⟩
    cases hf : findTx tx l 1 with
    | none => exact absurd ht (h2 hf e he)
    | some id =>
      obtain ⟨k, e', h3, h4, h5, _⟩ := h1 id hf
      exact ⟨id, e', ⟨k, h3, by omega⟩, h4, rfl⟩
  · intro h
    cases hf : findTx tx l 1 with
    | none => rfl
    | some id =>
      obtain ⟨k, e', h3, h4, _⟩ := h1 id hf
      exact absurd h4 (h e' (List.mem_of_getElem? h3))

/-- Non-vacuity of `C96`. -/
example : stop exEvses (fun _ => true) 7 = [.stop 1, .reply true none] ∧ stop exEvses (fun _ => true) 8 = [.reply false none] := by
  decide

/-! ## C97: UnlockConnector -/

/-- C97: the application is asked to unlock exactly the connector of the request, and only if the EVSE exists, has no transaction and the
number of the connector is not higher than the highest one. -/
theorem C97_partial (l : List Evse) (id c : Int) :
    (∀ x ∈ (unlock l id c).1, x = .unlock id c ∧ (unlock l id c).2 = .asked ∧ ∃ e, IsEvse l id e ∧ e.tx = none ∧ c ≤ e.conns.length) ∧
    (∀ e, IsEvse l id e → c ≤ e.conns.length → e.tx = none → unlock l id c = ([.unlock id c], .asked)) ∧
    (∀ e, IsEvse l id e → c ≤ e.conns.length → e.tx ≠ none → unlock l id c = ([], .ongoing)) ∧
    (∀ e, IsEvse l id e → (e.conns.length : Int) < c → unlock l id c = ([], .unknown)) ∧
    ((∀ e, ¬ IsEvse l id e) → id ≠ 0 → unlock l id c = ([], .unknown)) := by
  have hex : ∀ e, IsEvse l id e → (0 ≤ id ∧ id ≤ (l.length : Int)) := by
    rintro e ⟨k, hk, rfl⟩
    have := (List.getElem?_eq_some_iff.mp hk).1
    omega
  have hnex : (∀ e, ¬ IsEvse l id e) → id ≠ 0 → ¬ (0 ≤ id ∧ id ≤ (l.length : Int)) := by
    intro h h0 hb
    have hk : (id - 1).toNat < l.length := by omega
    exact h l[(id - 1).toNat] ⟨(id - 1).toNat, List.getElem?_eq_getElem hk, by omega⟩
  have hsome : ∀ e, IsEvse l id e → unlock l id c =
      if c ≤ (e.conns.length : Int) then (if e.tx.isNone then ([.unlock id c], .asked) else ([], .ongoing)) else ([], .unknown) := by
    intro e he
    have h1 := hex e he
    have h2 := (evse?_iff l id e).mpr he
    unfold unlock validEvse
    rw [if_pos h1, h2]
    simp only
    by_cases hc : c ≤ (e.conns.length : Int)
    · simp [hc]
    · simp [hc]
  refine ⟨?_, ?_, ?_, ?_, ?_⟩
  · intro x hx
    cases he : evse? l id with
    | none =>
      exfalso
      unfold unlock validEvse at hx
      rw [he] at hx
      split at hx
      · simp at hx
      · simp at hx
      · simp at hx
    | some e =>
      have he' := (evse?_iff l id e).mp he
      rw [hsome e he'] at hx ⊢
      by_cases hc : c ≤ (e.conns.length : Int)
      · cases ht : e.tx with
        | none =>
          simp only [hc, ht, if_true, Option.isNone_none] at hx ⊢
          exact ⟨by simpa using hx, by simp, e, he', ht, hc⟩
        | some t => simp [hc, ht] at hx
      · simp [hc] at hx
  · intro e he hc ht; rw [hsome e he]; simp [hc, ht]
  · intro e he hc ht
    rw [hsome e he]
    cases h : e.tx with
    | none => exact absurd h ht
    | some t => simp [hc]
  · intro e he hc; rw [hsome e he, if_neg (by omega)]
  · intro h h0
    unfold unlock validEvse
    rw [if_neg (hnex h h0)]

/-- Non-vacuity of `C97_partial`. -/
example : unlock exEvses 2 1 = ([.unlock 2 1], .asked) ∧ unlock exEvses 1 1 = ([], .ongoing) ∧ unlock exEvses 2 3 = ([], .unknown) ∧
    unlock exEvses 3 1 = ([], .unknown) := by decide

/-- C97 violated: a connector number that is not positive is not UnknownConnector: the application is asked to unlock it. And EVSE 0 is
answered with CALLERROR, not with UnknownConnector. -/
theorem C97_violated : ∃ l : List Evse, unlock l 2 0 = ([.unlock 2 0], .asked) ∧ unlock l 2 (-1) = ([.unlock 2 (-1)], .asked) ∧
    unlock l 0 1 = ([], .error) := ⟨exEvses, by decide⟩

/-! ## C98: TriggerMessage -/

/-- The message `m` is what was asked for by `k`. -/
inductive Fits : Trig → Msg → Prop
  | boot : Fits .boot .boot
  | log (o) : Fits .logStatus (.logStatus o)
  | firmware (n o) : Fits .firmware (.firmware n o)
  | heartbeat : Fits .heartbeat .heartbeat
  | meter (e l) : Fits .meterValues (.meterValues e l)
  | signStation : Fits .signStation (.sign false)
  | signV2G : Fits .signV2G (.sign true)
  | status (e c) : Fits .status (.status e c)
  | tx (e t l) : Fits .txEvent (.txEvent e t l)

/-- What the message says is so: ids of EVSEs, connectors and transactions, measurands that were measured and are configured. -/
def Truthful (s : Station) : Msg → Prop
  | .meterValues id l => l ≠ [] ∧ ∃ e, IsEvse s.evses id e ∧ ∀ x, x ∈ l ↔ some x ∈ e.meter ∧ x ∈ s.aligned
  | .txEvent id t l => ∃ e, IsEvse s.evses id e ∧ e.tx = some t ∧ ∀ x, x ∈ l ↔ some x ∈ e.meter ∧ x ∈ s.updated
  | .status id c => ∃ e, IsEvse s.evses id e ∧ 1 ≤ c ∧ c ≤ e.conns.length
  | .logStatus o => o = s.upload
  | .firmware n o => (s.firmware ≤ 1 ∧ n = 0 ∧ o = none) ∨ (2 ≤ s.firmware ∧ n = s.firmware ∧ o = some s.firmwareId)
  | .boot => s.registered = false
  | .sign v => v = true → s.v2g = true
  | .heartbeat => True

/-- The EVSE a message is about. -/
def about : Msg → Option Int
  | .meterValues id _ | .txEvent id _ _ | .status id _ => some id
  | _ => none

theorem mem_numbered (l : List Evse) (i : Int) (p : Int × Evse) : p ∈ numbered l i ↔ ∃ k : Nat, l[k]? = some p.2 ∧ p.1 = i + k := by
  induction l generalizing i with
  | nil => simp [numbered]
  | cons e r ih =>
    simp only [numbered, List.mem_cons, ih]
    constructor
    · rintro (rfl | ⟨k, h1, h2⟩)
      · exact ⟨0, rfl, by simp⟩
      · exact ⟨k + 1, by simpa using h1, by omega⟩
    · rintro ⟨k, h1, h2⟩
      cases k with
      | zero => left; simp at h1; obtain ⟨a, b⟩ := p; simp only at h1 h2; subst h1; congr; omega
      | succ k => exact .inr ⟨k, by simpa using h1, by omega⟩

theorem mem_targets {s : Station} {t : Target} {ts : List (Int × Evse)} (h : targets s t = some ts) (p : Int × Evse) :
    p ∈ ts ↔ IsEvse s.evses p.1 p.2 ∧ (t.evse = none ∨ t.evse = some p.1) := by
  unfold targets at h
  cases ht : t.evse with
  | none =>
    rw [ht] at h; injection h with h; subst h
    rw [mem_numbered]
    simp only [IsEvse, true_or, and_true]
    constructor <;> rintro ⟨k, h1, h2⟩ <;> exact ⟨k, h1, by omega⟩
  | some id =>
    rw [ht] at h
    simp only [Option.map_eq_some_iff] at h
    obtain ⟨e, he, rfl⟩ := h
    have he' := (evse?_iff _ _ _).mp he
    simp only [List.mem_cons, List.not_mem_nil, or_false, reduceCtorEq, Option.some.injEq, false_or]
    constructor
    · rintro rfl; exact ⟨he', rfl⟩
    · rintro ⟨h1, h2⟩
      obtain ⟨a, b⟩ := p
      simp only at h1 h2
      subst h2
      rw [he'.unique h1]

theorem mem_filterMeter (m : List (Option Nat)) (ms : List Nat) (x : Nat) : x ∈ filterMeter m ms ↔ some x ∈ m ∧ x ∈ ms := by
  unfold filterMeter
  simp only [List.mem_filterMap, Option.bind_eq_some_iff, List.contains_iff_mem]
  constructor
  · rintro ⟨o, ho, y, rfl, hy⟩
    split at hy
    · injection hy with hy; subst hy; exact ⟨ho, by assumption⟩
    · simp at hy
  · rintro ⟨h1, h2⟩; exact ⟨some x, h1, x, rfl, by simp [h2]⟩

theorem hasAny_iff (m : List (Option Nat)) (ms : List Nat) : hasAny m ms = true ↔ filterMeter m ms ≠ [] := by
  constructor
  · intro h
    simp only [hasAny, List.any_eq_true, beq_iff_eq] at h
    obtain ⟨o, ho, x, hx, rfl⟩ := h
    have : x ∈ filterMeter m ms := (mem_filterMeter m ms x).mpr ⟨ho, hx⟩
    intro hn; rw [hn] at this; simp at this
  · intro h
    obtain ⟨x, hx⟩ := List.exists_mem_of_ne_nil _ h
    obtain ⟨h1, h2⟩ := (mem_filterMeter m ms x).mp hx
    simp only [hasAny, List.any_eq_true, beq_iff_eq]
    exact ⟨some x, h1, x, h2, rfl⟩

/-- C98: messages follow TriggerMessage exactly if it was answered Accepted; every one is what was asked for, is about the EVSE
of the request if there is one, and says what is so. An unknown EVSE is answered with CALLERROR. -/
theorem C98_partial (s : Station) (t : Target) (k : Trig) :
    ((trigger s t k).1 = .accepted ↔ (trigger s t k).2 ≠ []) ∧
    (∀ m ∈ (trigger s t k).2, Fits k m ∧ Truthful s m ∧ ∀ id, t.evse = some id → ∀ j, about m = some j → j = id) ∧
    ((trigger s t k).1 = .error ↔ ∃ id, t.evse = some id ∧ ∀ e, ¬ IsEvse s.evses id e) := by
  unfold trigger
  cases hts : targets s t with
  | none =>
    simp only [ne_eq, not_true_eq_false, reduceCtorEq, List.not_mem_nil, false_implies, implies_true, true_and, true_iff]
    unfold targets at hts
    cases ht : t.evse with
    | none => rw [ht] at hts; simp at hts
    | some id =>
      rw [ht] at hts
      simp only [Option.map_eq_none_iff] at hts
      exact ⟨id, rfl, (evse?_none _ _).mp hts⟩
  | some ts =>
    have hmem := mem_targets hts
    have herr : decideTrigger s t ts k ≠ .error := by
      cases k <;> simp only [decideTrigger] <;> (repeat' split) <;> simp
    have hex : ¬ ∃ id, t.evse = some id ∧ ∀ e, ¬ IsEvse s.evses id e := by
      rintro ⟨id, h1, h2⟩
      unfold targets at hts
      rw [h1] at hts
      simp only [Option.map_eq_some_iff] at hts
      obtain ⟨e, he, _⟩ := hts
      exact h2 e ((evse?_iff _ _ _).mp he)
    simp only [herr, hex, iff_self, and_true]
    have hmeter : ∀ m ∈ ts.flatMap (meterMsg s), Fits .meterValues m ∧ Truthful s m ∧
        ∀ id, t.evse = some id → ∀ j, about m = some j → j = id := by
      intro m hm
      obtain ⟨p, hp, hm⟩ := List.mem_flatMap.mp hm
      obtain ⟨he, hx⟩ := (hmem p).mp hp
      unfold meterMsg at hm
      simp only at hm
      split at hm
      · simp at hm
      · rename_i hne
        simp only [List.mem_cons, List.not_mem_nil, or_false] at hm
        subst hm
        refine ⟨.meter _ _, ⟨by simpa using hne, p.2, he, mem_filterMeter _ _⟩, ?_⟩
        intro id hid j hj
        simp only [about, Option.some.injEq] at hj
        rcases hx with hx | hx <;> rw [hid] at hx
        · simp at hx
        · injection hx with hx; omega
    have htx : ∀ m ∈ ts.flatMap (txMsg s), Fits .txEvent m ∧ Truthful s m ∧
        ∀ id, t.evse = some id → ∀ j, about m = some j → j = id := by
      intro m hm
      obtain ⟨p, hp, hm⟩ := List.mem_flatMap.mp hm
      obtain ⟨he, hx⟩ := (hmem p).mp hp
      unfold txMsg at hm
      cases ht : p.2.tx with
      | none => rw [ht] at hm; simp at hm
      | some i =>
        rw [ht] at hm
        simp only [List.mem_cons, List.not_mem_nil, or_false] at hm
        subst hm
        refine ⟨.tx _ _ _, ⟨p.2, he, ht, mem_filterMeter _ _⟩, ?_⟩
        intro id hid j hj
        simp only [about, Option.some.injEq] at hj
        rcases hx with hx | hx <;> rw [hid] at hx
        · simp at hx
        · injection hx with hx; omega
    cases k with
    | boot => cases h : s.registered <;> simp [decideTrigger, messages, h, Fits.boot, Truthful, about]
    | logStatus => simp [decideTrigger, messages, Fits.log, Truthful, about]
    | firmware =>
      by_cases h : s.firmware ≤ 1
      · simp [decideTrigger, messages, h, Fits.firmware, Truthful, about]
      · simp [decideTrigger, messages, h, Fits.firmware, Truthful, about]; omega
    | heartbeat => simp [decideTrigger, messages, Fits.heartbeat, Truthful, about]
    | signStation => simp [decideTrigger, messages, Fits.signStation, Truthful, about]
    | signV2G => cases h : s.v2g <;> simp [decideTrigger, messages, h, Fits.signV2G, Truthful, about]
    | publishFirmware => simp [decideTrigger]
    | signCombined => simp [decideTrigger]
    | signV2G20 => simp [decideTrigger]
    | custom => simp [decideTrigger]
    | meterValues =>
      by_cases h : ts.any (fun p => hasAny p.2.meter s.aligned) = true
      · simp only [decideTrigger, h, if_true, messages, true_iff]
        refine ⟨?_, hmeter⟩
        obtain ⟨p, hp, hh⟩ := List.any_eq_true.mp h
        have hne := (hasAny_iff _ _).mp hh
        intro hn
        have : Msg.meterValues p.1 (filterMeter p.2.meter s.aligned) ∈ ts.flatMap (meterMsg s) :=
          List.mem_flatMap.mpr ⟨p, hp, by simp [meterMsg, hne]⟩
        rw [hn] at this; simp at this
      · simp [decideTrigger, h]
    | txEvent =>
      by_cases h : ts.any (fun p => p.2.tx.isSome) = true
      · simp only [decideTrigger, h, if_true, messages, true_iff]
        refine ⟨?_, htx⟩
        obtain ⟨p, hp, hh⟩ := List.any_eq_true.mp h
        obtain ⟨i, hi⟩ := Option.isSome_iff_exists.mp hh
        intro hn
        have : Msg.txEvent p.1 i (filterMeter p.2.meter s.updated) ∈ ts.flatMap (txMsg s) :=
          List.mem_flatMap.mpr ⟨p, hp, by simp [txMsg, hi]⟩
        rw [hn] at this; simp at this
      · simp [decideTrigger, h]
    | status =>
      cases ht : t.evse with
      | none => simp [decideTrigger, ht]
      | some id =>
        cases hc : t.connector with
        | none => simp [decideTrigger, ht, hc]
        | some c =>
          unfold targets at hts
          rw [ht] at hts
          simp only [Option.map_eq_some_iff] at hts
          obtain ⟨e, he, rfl⟩ := hts
          by_cases hb : 0 < c ∧ c ≤ (e.conns.length : Int)
          · simp only [decideTrigger, ht, hc, hb, and_self, if_true, messages, true_iff]
            refine ⟨by simp, ?_⟩
            intro m hm
            simp only [List.mem_cons, List.not_mem_nil, or_false] at hm
            subst hm
            refine ⟨.status _ _, ⟨e, (evse?_iff _ _ _).mp he, by omega, hb.2⟩, ?_⟩
            intro id' h1 j hj
            simp only [about, Option.some.injEq] at h1 hj
            omega
          · simp [decideTrigger, ht, hc, hb]

/-- C98: every EVSE of the request with a running transaction, or with a measurand that is configured, is reported. -/
theorem C98_complete (s : Station) (t : Target) (id : Int) (e : Evse) (he : IsEvse s.evses id e) (ht : t.evse = none ∨ t.evse = some id) :
    (∀ i, e.tx = some i → ∃ l, Msg.txEvent id i l ∈ (trigger s t .txEvent).2) ∧
    (∀ x, some x ∈ e.meter → x ∈ s.aligned → ∃ l, x ∈ l ∧ Msg.meterValues id l ∈ (trigger s t .meterValues).2) := by
  unfold trigger
  cases hts : targets s t with
  | none =>
    exfalso
    unfold targets at hts
    rcases ht with ht | ht <;> rw [ht] at hts
    · simp at hts
    · simp only [Option.map_eq_none_iff] at hts
      exact (evse?_none _ _).mp hts e he
  | some ts =>
    have hp : (id, e) ∈ ts := (mem_targets hts (id, e)).mpr ⟨he, ht⟩
    constructor
    · intro i hi
      have h : ts.any (fun p => p.2.tx.isSome) = true := List.any_eq_true.mpr ⟨_, hp, by simp [hi]⟩
      refine ⟨filterMeter e.meter s.updated, ?_⟩
      simp only [decideTrigger, h, if_true, messages]
      exact List.mem_flatMap.mpr ⟨_, hp, by simp [txMsg, hi]⟩
    · intro x hx hx'
      have hm : x ∈ filterMeter e.meter s.aligned := (mem_filterMeter _ _ _).mpr ⟨hx, hx'⟩
      have hne : filterMeter e.meter s.aligned ≠ [] := by intro hn; rw [hn] at hm; simp at hm
      have h : ts.any (fun p => hasAny p.2.meter s.aligned) = true :=
        List.any_eq_true.mpr ⟨_, hp, (hasAny_iff _ _).mpr hne⟩
      refine ⟨_, hm, ?_⟩
      simp only [decideTrigger, h, if_true, messages]
      exact List.mem_flatMap.mpr ⟨_, hp, by simp [meterMsg, hne]⟩

/-- Non-vacuity of `C98_partial` and `C98_complete`. -/
example : let s : Station := { evses := exEvses, aligned := [2, 3], updated := [1] }
    trigger s {} .txEvent = (.accepted, [.txEvent 1 7 []]) ∧ trigger s {} .meterValues = (.accepted, [.meterValues 2 [2]]) ∧
    trigger s { evse := some 1 } .meterValues = (.rejected, []) ∧ trigger s { evse := some 2, connector := some 2 } .status =
    (.accepted, [.status 2 2]) ∧ trigger s { evse := some 4 } .heartbeat = (.error, []) := by decide

/-- C98 violated: TriggerMessage(SignChargingStationCertificate) is answered Accepted although no SignCertificate is sent, because another
exchange is going on or the names for the request are not configured. -/
theorem C98_sign_violated (s : Station) (c : Sec.State) (hc : c.awaited ≠ none) (ok : Bool) :
    trigger s {} .signStation = (.accepted, [.sign false]) ∧ (Sec.trigger c .chargingStation ok).log = c.log ∧
    ∀ c' : Sec.State, (Sec.trigger c' .chargingStation false).log = c'.log := by
  refine ⟨rfl, ?_, ?_⟩
  · cases h : c.awaited with
    | none => exact absurd h hc
    | some u => simp [Sec.trigger, Sec.sign, h]
  · intro c'
    cases h : c'.awaited <;> simp [Sec.trigger, Sec.sign, h]

/-! ## C99: reservations -/

/-- The EVSE has a connector of the type (or of an unknown type), or any connector if no type is asked for. -/
def HasConnector (e : Evse) (type : Option Nat) : Prop :=
  ∃ c ∈ e.conns, ∀ t, type = some t → c.type = none ∨ c.type = some t

theorem hasConnector_iff (e : Evse) (type : Option Nat) : hasConnector e type = true ↔ HasConnector e type := by
  unfold hasConnector HasConnector
  cases hc : e.conns with
  | nil => simp
  | cons c r => cases type <;> simp

/-- Reservations are implemented, available and enabled. -/
def ResCfg.On (c : ResCfg) : Prop := c.callback = true ∧ c.available = true ∧ c.enabled = true

/-- C99: the application is asked for a reservation exactly if reservations are enabled and the EVSE of the request exists and has a connector of
the type, or no EVSE is given, that is allowed, and some EVSE has such a connector. The answer is that of the application, else Rejected. -/
theorem C99 (l : List Evse) (c : ResCfg) (evse : Option Int) (type : Option Nat) (answer : Bool) :
    ((c.On ∧ ((∃ id e, evse = some id ∧ IsEvse l id e ∧ HasConnector e type) ∨
        (evse = none ∧ c.nonEvse = true ∧ ∃ e ∈ l, HasConnector e type))) →
      reserveNow l c evse type answer = [.reserve, .reply answer none]) ∧
    (¬ (c.On ∧ ((∃ id e, evse = some id ∧ IsEvse l id e ∧ HasConnector e type) ∨
        (evse = none ∧ c.nonEvse = true ∧ ∃ e ∈ l, HasConnector e type))) →
      reserveNow l c evse type answer = [.reply false none]) ∧
    (∀ id, c.On → cancelReservation c id answer = [.cancel id, .reply answer none]) ∧
    (∀ id, ¬ c.On → cancelReservation c id answer = [.reply false none]) := by
  have hon : (c.callback && c.available && c.enabled) = true ↔ c.On := by
    simp [ResCfg.On, and_assoc]
  unfold reserveNow cancelReservation
  by_cases h : (c.callback && c.available && c.enabled) = true
  · have h' := hon.mp h
    simp only [h, Bool.not_true, Bool.false_eq_true, if_false, h', true_and, not_true_eq_false, false_implies, implies_true, and_true]
    cases evse with
    | none =>
      simp only [reduceCtorEq, false_and, exists_false, false_or, true_and]
      cases hn : c.nonEvse with
      | false => simp
      | true =>
        by_cases ha : l.any (fun e => hasConnector e type) = true
        · have : ∃ e ∈ l, HasConnector e type := by
            obtain ⟨e, he, hh⟩ := List.any_eq_true.mp ha
            exact ⟨e, he, (hasConnector_iff _ _).mp hh⟩
          simp [ha, this]
        · have : ¬ ∃ e ∈ l, HasConnector e type := by
            rintro ⟨e, he, hh⟩
            exact ha (List.any_eq_true.mpr ⟨e, he, (hasConnector_iff _ _).mpr hh⟩)
          simp only [ha, this, and_false, false_implies, Bool.not_true, Bool.false_eq_true, if_false, not_false_eq_true, implies_true, and_self]
    | some id =>
      simp only [Option.some.injEq, reduceCtorEq, false_and, or_false]
      cases he : evse? l id with
      | none =>
        have : ¬ ∃ id' e, id = id' ∧ IsEvse l id' e ∧ HasConnector e type := by
          rintro ⟨_, e, rfl, h1, _⟩; exact (evse?_none _ _).mp he e h1
        simp only [this, false_implies, not_false_eq_true, implies_true, and_self]
      | some e =>
        have he' := (evse?_iff _ _ _).mp he
        simp only
        by_cases hh : hasConnector e type = true
        · have : ∃ id' e, id = id' ∧ IsEvse l id' e ∧ HasConnector e type := ⟨id, e, rfl, he', (hasConnector_iff _ _).mp hh⟩
          simp only [hh, if_true, this, implies_true, not_true_eq_false, false_implies, and_self]
        · have : ¬ ∃ id' e, id = id' ∧ IsEvse l id' e ∧ HasConnector e type := by
            rintro ⟨_, e', rfl, h1, h2⟩
            have := he'.unique h1; subst this
            exact hh ((hasConnector_iff _ _).mpr h2)
          simp only [hh, this, Bool.false_eq_true, if_false, false_implies, not_false_eq_true, implies_true, and_self]
  · have h' : ¬ c.On := fun x => h (hon.mpr x)
    simp only [h, h', Bool.not_false, if_true, false_and, false_implies, not_false_eq_true, implies_true, and_self]

/-- Non-vacuity of `C99`. -/
example : reserveNow exEvses {} (some 2) (some 3) true = [.reserve, .reply true none] ∧
    reserveNow exEvses {} none (some 3) true = [.reply false none] ∧
    reserveNow exEvses { nonEvse := true } none (some 3) true = [.reserve, .reply true none] ∧
    reserveNow exEvses {} (some 3) none true = [.reply false none] := by decide

/-! ## C100: registration -/

/-- The frame of the messages of these types. -/
def FrameOf : Kind → Frame → Prop
  | .bootResponse, f | .notifyReportResponse, f => f ≠ .call
  | .other, _ => True
  | _, f => f = .call

/-- What may be handled before the CSMS has accepted the station (B02, B03). -/
inductive Early : Reg → Kind → Prop
  | boot (r) : Early r .bootResponse
  | getVariables : Early .pending .getVariables
  | setVariables : Early .pending .setVariables
  | getBaseReport : Early .pending .getBaseReport
  | getReport : Early .pending .getReport
  | notifyReport : Early .pending .notifyReportResponse
  | trigger (b) : Early .pending (.trigger b)
  | triggerBoot : Early .rejected (.trigger true)

/-- C100: before the station is accepted only the messages in `Early` are handled; remote starts and stops are rejected while Pending, all
other requests get CALLERROR SecurityError. Once it is accepted everything is handled. -/
theorem C100_partial (r : Reg) (k : Kind) :
    (gate r k = .handled ↔ r = .accepted ∨ Early r k) ∧
    (gate r k = .refused ↔ r = .pending ∧ (k = .requestStart ∨ k = .requestStop)) := by
  have key : gate r k = .handled → r = .accepted ∨ Early r k := by
    cases r
    · intro _; exact .inl rfl
    · cases k <;> intro h <;> first | exact .inr (by constructor) | (simp [gate] at h)
    · cases k <;> intro h <;> try (simp [gate] at h)
      · exact .inr (.boot _)
      · subst h; exact .inr .triggerBoot
  refine ⟨⟨key, ?_⟩, ?_⟩
  · rintro (rfl | h)
    · rfl
    · cases h <;> first | rfl | (cases r <;> rfl)
  · cases r
    · simp [gate]
    · cases k <;> simp [gate]
    · cases k <;> simp [gate]
      rename_i b; cases b <;> simp

/-- C100 violated: the answer of the CSMS to a message of the station, for example to a StatusNotification asked for with TriggerMessage while
Pending, is answered with CALLERROR SecurityError; only CALLs may be answered. -/
theorem C100_violated : ∃ (k : Kind) (f : Frame), FrameOf k f ∧ f ≠ .call ∧ gate .pending k = .securityError ∧
    gate .rejected k = .securityError := ⟨.other, .result, trivial, by simp, rfl, rfl⟩

end Verif.Rem
