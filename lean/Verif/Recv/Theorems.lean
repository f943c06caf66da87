import Verif.Recv.Lemmas

/-!
C138 to C141: what the station answers.
-/

namespace Verif.Recv

open Verif.Wire (J)

/-! ### From outcomes to what is sent -/

theorem of_sent (q : Q) (l : List Sent) (d : Bool) : (Res.of q l d).sent = l := rfl

theorem finish_one {A : Type} {m : Msg A} (hk : m.kind = .call) (q : Q) {o : Outcome} (ho : one o = true) :
    ∃ e, (finish (fun _ => true) (fun _ => false) m q o).sent = [⟨m.id, e⟩] := by
  obtain ⟨l, f⟩ := o
  cases f with
  | ok =>
    match l, ho with
    | [e], _ => exact ⟨e, rfl⟩
  | dead =>
    match l, ho with
    | [e], _ => exact ⟨e, rfl⟩
  | exn x =>
    match l, ho with
    | [], _ => exact ⟨true, by simp [finish, hk, of_sent]⟩

theorem finish_one2 {A : Type} {m : Msg A} (hk : m.kind = .call) (q : Q) {o : Outcome} (ho : one2 o = true) :
    ∃ e, (finish caught2 always2 m q o).sent = [⟨m.id, e⟩] := by
  obtain ⟨l, f⟩ := o
  cases f with
  | ok =>
    match l, ho with
    | [e], _ => exact ⟨e, rfl⟩
  | dead => exact absurd ho (by simp [one2])
  | exn x =>
    match l, ho with
    | [], ho =>
      have hc : caught2 x = true := by simpa [one2] using ho
      exact ⟨true, by simp [finish, hk, hc, of_sent]⟩

theorem bigSlot_never {b : Bool} {l : List J} (h : bigSlotOf true l = .never) : bigSlotOf b l = .never := by
  cases b with
  | true => exact h
  | false =>
    unfold bigSlotOf
    split <;> simp

/-! ### C138 -/

/-- C138, OCPP 1.6: a request is answered exactly once with its id, once the registration is accepted or pending.  Its action is any the standard
knows, supported by the station or not, except names that end in Response.  Errors of the database may occur; code of the application throws no
exceptions.  Partial: UnlockConnector with a connector that does not exist (`C138_violated`), actions that the standard does not know
(`C138_unknown_violated`), names of responses (`C140_violated`), requests before the registration is answered, which are ignored on purpose. -/
theorem C138_16_partial (s : S16) (hs : s.conn = .booted ∨ s.conn = .pending ∧ s.reg = .pending) (hw : s.env.wild = false) (t : Option J)
    (id action : String) (ht : IsRequest t id action) (hknown : A16.ofName action ≠ none) (hresp : ¬ EndsInResponse action)
    (hunlock : action = "UnlockConnector" → ConnectorExists s.connectors t) : AnsweredOnce (callback16 s t) id := by
  obtain ⟨k, rest, hk, rfl, hid⟩ := ht
  obtain ⟨a, ha⟩ := Option.ne_none_iff_exists'.mp hknown
  unfold callback16
  rw [receive_request A16.ofName .internalError s.q hk hid ha]
  simp only
  by_cases hsup : supported s.features a = true
  · have hact := supported_act ha hresp hsup
    simp only [hsup, Bool.true_eq_false, if_false]
    have hx : a = .unlockConnector →
        ∀ c, connectorOf (k :: .str id :: .str action :: rest) = some c → 0 ≤ c ∧ c ≤ (s.connectors : Int) := by
      intro hu c hc
      subst hu
      exact hunlock (unlock_name ha) _ c rfl hc
    have hone := handle16_one hw ⟨s.connectors, s.resetAllowed, s.resetBefore, connectorOf (k :: .str id :: .str action :: rest)⟩ hx hact
    have hboot : a ≠ .bootNotificationResponse := by
      intro h
      subst h
      simp [acts16] at hact
    have main : ∃ p, dispatch16 s ⟨.call, id, a, k :: .str id :: .str action :: rest⟩ = some p ∧ (outs s.env p).all one = true := by
      rcases hs with h | ⟨h, h'⟩
      · exact ⟨_, by simp only [dispatch16, h]; rfl, hone⟩
      · by_cases h1 : a = .remoteStartTransaction ∨ a = .remoteStopTransaction
        · refine ⟨reply, by simp [dispatch16, h, h', hboot, h1], ?_⟩
          rfl
        · exact ⟨_, by simp only [dispatch16, h, h', hboot, h1, if_true, if_false], hone⟩
    obtain ⟨p, hp, hall⟩ := main
    rw [hp]
    simp only
    constructor
    · simpa using outs_ne s.env p
    · intro r hr
      obtain ⟨o, ho, rfl⟩ := List.mem_map.mp hr
      exact finish_one rfl _ (List.all_eq_true.mp hall o ho)
  · have hsup' : supported s.features a = false := by simpa using hsup
    simp only [hsup', if_true]
    exact ⟨by simp, by simp [of_sent]⟩

/-- A station. -/
def ex16 : S16 :=
  { conn := .booted
    reg := .accepted
    features := [.core, .security]
    connectors := 2
    resetAllowed := true
    resetBefore := false
    env := ⟨false, true, true⟩
    q := ⟨none, none⟩ }

/-- The request `[2, "7", action, {"connectorId": c}]`. -/
def exRequest (action : String) (c : Int) : Option J :=
  some (.arr [.int 2, .str "7", .str action, .obj [("connectorId", .int c)]])

/-- All requests of the standard meet the hypotheses, with connector 1. -/
example : requests16.all (fun n => (A16.ofName n).isSome && !decide (EndsInResponse n)) = true := by decide +kernel

example : IsRequest (exRequest "UnlockConnector" 1) "7" "UnlockConnector" ∧ ConnectorExists 2 (exRequest "UnlockConnector" 1) := by
  refine ⟨⟨_, _, Or.inl rfl, rfl, by decide⟩, ?_⟩
  intro l c hl hc
  simp only [exRequest, Option.some.injEq, J.arr.injEq] at hl
  subst hl
  simp [connectorOf] at hc
  omega

example : (callback16 ex16 (exRequest "ClearCache" 0)).map Res.sent =
    [[⟨"7", true⟩], [⟨"7", true⟩], [⟨"7", true⟩], [⟨"7", true⟩], [⟨"7", false⟩], [⟨"7", true⟩], [⟨"7", false⟩]] := by decide +kernel

/-- C138 is violated: an UnlockConnector request with a connector that does not exist is answered with NotSupported, and then, because the connector
is used as an index of a vector, with an error. -/
theorem C138_violated : IsRequest (exRequest "UnlockConnector" 3) "7" "UnlockConnector" ∧
    ∃ r ∈ callback16 ex16 (exRequest "UnlockConnector" 3), r.sent = [⟨"7", false⟩, ⟨"7", true⟩] := by
  refine ⟨⟨_, _, Or.inl rfl, rfl, by decide⟩, ?_⟩
  have h : (callback16 ex16 (exRequest "UnlockConnector" 3)).any (fun r => decide (r.sent = [⟨"7", false⟩, ⟨"7", true⟩])) = true := by
    decide +kernel
  obtain ⟨r, hr, h⟩ := List.any_eq_true.mp h
  exact ⟨r, hr, by simpa using h⟩

/-- C138 is violated in both versions: a request with an action that the standard does not know is answered with an error that carries the id -1
instead of the id of the request, whatever the state. -/
theorem C138_unknown_violated (t : Option J) (id action : String) (ht : IsRequest t id action) :
    (∀ s : S16, A16.ofName action = none → ∀ r ∈ callback16 s t, r.sent = [⟨"-1", true⟩]) ∧
    (∀ s : S2, A2.ofName action = none → ∀ r ∈ callback2 s t, r.sent = [⟨"-1", true⟩]) := by
  obtain ⟨k, rest, hk, rfl, hid⟩ := ht
  constructor
  · intro s ha r hr
    simp only [callback16, receive_unknown A16.ofName .internalError s.q hk hid ha, List.mem_singleton] at hr
    subst hr
    rfl
  · intro s ha r hr
    simp only [callback2, receive_unknown A2.ofName .internalError s.q hk hid ha, List.mem_singleton] at hr
    subst hr
    rfl

example : A16.ofName "Foo" = none ∧ A2.ofName "Foo" = none := by decide +kernel

/-- C138, OCPP 2.x: a request is answered exactly once with its id, whatever the state of the registration and the action, implemented or not, if the
standard knows it.  Partial: code of the application throws no exceptions, the database works, no number outside of the range of `int` is written to
NetworkConfigurationPriority (`C141_violated`); NotifyAllowedEnergyTransfer of OCPP 2.1 on a connection with 2.0.1 (`C140_2_violated`) and the name
TransactionEventResponse are excluded. -/
theorem C138_2_partial (s : S2) (hw : s.env.wild = false) (hd : s.env.dbFails = false) (t : Option J) (id action : String)
    (ht : IsRequest t id action) (hknown : A2.ofName action ≠ none) (hevent : action ≠ "TransactionEventResponse")
    (henergy : action = "NotifyAllowedEnergyTransfer" → s.v21 = true) (hslots : SlotsInRange t) : AnsweredOnce (callback2 s t) id := by
  obtain ⟨k, rest, hk, rfl, hid⟩ := ht
  obtain ⟨a, ha⟩ := Option.ne_none_iff_exists'.mp hknown
  unfold callback2
  rw [receive_request A2.ofName .internalError s.q hk hid ha]
  simp only [reduceCtorEq, if_false]
  generalize hm : (⟨.call, id, a, k :: .str id :: .str action :: rest⟩ : Msg A2) = m
  have hkind : m.kind = .call := by rw [← hm]
  have hmid : m.id = id := by rw [← hm]
  have hmact : m.act = a := by rw [← hm]
  have hone : (outs s.env (handle2 (ctx2 s m) m.act)).all one2 = true := by
    refine handle2_one hw hd _ ?_ ?_ ?_
    · have := hslots _ rfl
      rw [← hm]
      exact bigSlot_never this
    · rw [hmact]
      intro h
      subst h
      exact hevent (event_name ha)
    · rw [hmact]
      intro h
      subst h
      exact henergy (energy_name ha)
  have hres : (outs s.env resultOfCall).all one2 = true := rfl
  have herr : (outs s.env error).all one2 = true := rfl
  have hrep : (outs s.env reply).all one2 = true := rfl
  have hparse : ∀ p, (outs s.env p).all one2 = true → (outs s.env (parse p)).all one2 = true := by
    intro p hp
    cases ho : s.env.odd <;> simp [parse, outs, Env.possible, hp, ho, one2, caught2]
  have hall : (outs s.env (dispatch2 s m)).all one2 = true := by
    simp only [dispatch2, hkind, if_true]
    cases s.reg with
    | accepted => exact hone
    | pending => (repeat' split) <;> first | assumption | (apply hparse; assumption)
    | rejected => (repeat' split) <;> first | assumption | (apply hparse; assumption)
  constructor
  · simpa using outs_ne s.env _
  · intro r hr
    obtain ⟨o, ho, rfl⟩ := List.mem_map.mp hr
    rw [← hmid]
    exact finish_one2 hkind _ (List.all_eq_true.mp hall o ho)

/-- A station. -/
def ex2 : S2 :=
  { reg := .accepted
    reservation := true
    smartCharging := true
    displayMessage := false
    tariffAndCost := true
    bidirectional := true
    monitoring := true
    v21 := false
    profiles := true
    env := ⟨false, false, true⟩
    q := ⟨none, none⟩ }

/-- All requests of the standard meet the hypotheses. -/
example : requests2.all (fun n => (A2.ofName n).isSome && n != "TransactionEventResponse" && n != "NotifyAllowedEnergyTransfer") = true := by
  decide +kernel

example : SlotsInRange (exRequest "UnlockConnector" 1) := by
  intro l hl
  simp only [exRequest, Option.some.injEq, J.arr.injEq] at hl
  subst hl
  rfl

/-! ### C139 -/

theorem finish_silent {A : Type} {m : Msg A} (hk : m.kind ≠ .call) (q : Q) {o : Outcome} (ho : silent o = true) :
    (finish (fun _ => true) (fun _ => false) m q o).sent = [] := by
  obtain ⟨l, f⟩ := o
  match l, ho with
  | [], _ => cases f <;> simp [finish, hk, of_sent]

theorem finish_silent2 {A : Type} {m : Msg A} (hk : m.kind ≠ .call) (q : Q) {o : Outcome} (ho : silent2 o = true) :
    (finish caught2 always2 m q o).sent = [] := by
  obtain ⟨l, f⟩ := o
  match l, ho with
  | [], ho =>
    cases f with
    | ok => simp [finish, of_sent]
    | dead => simp [finish, of_sent]
    | exn e =>
      have : always2 e = false := by simpa [silent2] using ho
      simp only [finish, hk, this]
      split <;> simp [of_sent]

/-- C139, OCPP 1.6: a CALLRESULT or CALLERROR is never answered, whatever the state, whatever request is in flight, and whatever fails. -/
theorem C139_16 (s : S16) (hq : OwnInFlight own16 s.q) (t : Option J) (id : String) (ht : IsReply t id) :
    callback16 s t ≠ [] ∧ ∀ r ∈ callback16 s t, r.sent = [] := by
  obtain ⟨k, rest, hk, rfl, hid⟩ := ht
  obtain ⟨q', m, hr, hkind, hact⟩ :=
    receive_reply A16.ofName .internalError s.q (rest := rest) hk hid hq (fun n hn => (own16_act hn).1)
  have hnc : m.kind ≠ .call := by rcases hkind with h | h <;> rw [h] <;> decide
  have hno : ¬ (m.act = .remoteStartTransaction ∨ m.act = .remoteStopTransaction) := by
    rcases hact with h | ⟨n, hn, h⟩
    · rw [h]; decide
    · have := (own16_act hn).2 _ h
      rintro (h | h)
      · exact this.1 h
      · exact this.2 h
  unfold callback16
  rw [hr]
  simp only
  split
  · exact ⟨by simp, by simp [hnc, of_sent]⟩
  · have hdone : (outs s.env .done).all silent = true := rfl
    have hrep : (outs s.env result16).all silent = true := by
      obtain ⟨w, d, o⟩ := s.env
      cases w <;> cases d <;> cases o <;> rfl
    have hhandle := handleResult16_silent s.env m.act
    have main : ∃ p, dispatch16 s m = some p ∧ (outs s.env p).all silent = true := by
      simp only [dispatch16, hnc, hno, if_false]
      cases s.conn with
      | disconnected => exact ⟨_, rfl, hdone⟩
      | connected =>
        simp only
        split
        · exact ⟨_, rfl, hrep⟩
        · exact ⟨_, rfl, hdone⟩
      | rejected =>
        simp only
        (repeat' split) <;> first | exact ⟨_, rfl, hrep⟩ | exact ⟨_, rfl, hdone⟩
      | pending =>
        simp only
        (repeat' split) <;> first | exact ⟨_, rfl, hrep⟩ | exact ⟨_, rfl, hdone⟩ | exact ⟨_, rfl, hhandle⟩
      | booted => exact ⟨_, rfl, hhandle⟩
    obtain ⟨p, hp, hall⟩ := main
    rw [hp]
    simp only
    constructor
    · simpa using outs_ne s.env p
    · intro r hr
      obtain ⟨o, ho, rfl⟩ := List.mem_map.mp hr
      exact finish_silent hnc q' (List.all_eq_true.mp hall o ho)

/-- The reply `[3, "9", {}]`. -/
def exReply : Option J := some (.arr [.int 3, .str "9", .obj []])

example : IsReply exReply "9" ∧ OwnInFlight own16 ⟨none, some ("9", "StartTransaction")⟩ := by
  refine ⟨⟨_, _, Or.inl (Or.inl rfl), rfl, by decide⟩, ?_⟩
  intro id action h
  simp only [Option.some.injEq, Prod.mk.injEq] at h
  rw [← h.2]
  decide

/-- C139, OCPP 2.x: a CALLRESULT or CALLERROR is not answered when the registration is accepted.  Partial: see `C139_violated`. -/
theorem C139_2_partial (s : S2) (hreg : s.reg = .accepted) (hq : OwnInFlight own2 s.q) (t : Option J) (id : String) (ht : IsReply t id) :
    callback2 s t ≠ [] ∧ ∀ r ∈ callback2 s t, r.sent = [] := by
  obtain ⟨k, rest, hk, rfl, hid⟩ := ht
  obtain ⟨q', m, hr, hkind, -⟩ := receive_reply A2.ofName .internalError s.q (rest := rest) hk hid hq (fun n hn => own2_act hn)
  have hnc : m.kind ≠ .call := by rcases hkind with h | h <;> rw [h] <;> decide
  have hnu : m.kind ≠ .unknown := by rcases hkind with h | h <;> rw [h] <;> decide
  unfold callback2
  rw [hr]
  simp only [hnu, if_false, dispatch2, hreg, hnc]
  constructor
  · simpa using outs_ne s.env _
  · intro r hr
    obtain ⟨o, ho, rfl⟩ := List.mem_map.mp hr
    exact finish_silent2 hnc q' (List.all_eq_true.mp (handleResult2_silent s.env m.act) o ho)

/-- C139, OCPP 2.x: before the registration is accepted, the result of the BootNotification in flight is not answered; while it is pending, that of
a NotifyReport neither.  Partial: see `C139_violated`. -/
theorem C139_2_pending_partial (s : S2) (id n : String) (hq : s.q.inFlight = some (id, n))
    (hn : n = "BootNotification" ∨ s.reg = .pending ∧ n = "NotifyReport") (hid : id.utf8ByteSize ≤ 36) (k : J) (rest : List J)
    (hk : IsNumber 3 k) :
    callback2 s (some (.arr (k :: .str id :: rest))) ≠ [] ∧ ∀ r ∈ callback2 s (some (.arr (k :: .str id :: rest))), r.sent = [] := by
  have h3 : kindOf (k :: .str id :: rest) = .result := by
    rcases hk with rfl | rfl <;> simp only [kindOf, isNum] <;> decide
  have ho : ∃ a, A2.ofName (n ++ "Response") = some a ∧
      (a = .bootNotificationResponse ∨ s.reg = .pending ∧ a = .notifyReportResponse) := by
    rcases hn with rfl | ⟨h, rfl⟩
    · exact ⟨.bootNotificationResponse, by decide +kernel, Or.inl rfl⟩
    · exact ⟨.notifyReportResponse, by decide +kernel, Or.inr ⟨h, rfl⟩⟩
  obtain ⟨a, ha, hact⟩ := ho
  have hr : ∃ q', receive A2.ofName .internalError s.q (some (.arr (k :: .str id :: rest))) =
      (q', .ok ⟨.result, id, a, k :: .str id :: rest⟩) := by
    refine ⟨⟨none, none⟩, ?_⟩
    simp [receive, id_of hid, h3, resultType, hq, ha]
  obtain ⟨q', hr⟩ := hr
  have hd : dispatch2 s ⟨.result, id, a, k :: .str id :: rest⟩ = handleResult2 a := by
    rcases hact with rfl | ⟨h, rfl⟩
    · cases hreg : s.reg <;> simp [dispatch2, hreg, handleResult2]
    · simp [dispatch2, h, handleResult2, allowedPending]
  unfold callback2
  rw [hr]
  simp only [reduceCtorEq, if_false, hd]
  constructor
  · simpa using outs_ne s.env _
  · intro r hr
    obtain ⟨o, ho, rfl⟩ := List.mem_map.mp hr
    exact finish_silent2 (by simp) q' (List.all_eq_true.mp (handleResult2_silent s.env a) o ho)

example : ∀ r ∈ callback2 { ex2 with reg := .pending, q := ⟨none, some ("9", "NotifyReport")⟩ } exReply, r.sent = [] := by decide +kernel

/-- C139 is violated while the registration is pending: every answer of the CSMS to a request of the station other than BootNotification and
NotifyReport, for example to a security event, is answered with a CALLERROR. -/
theorem C139_violated : IsReply exReply "9" ∧ OwnInFlight own2 ⟨none, some ("9", "SecurityEventNotification")⟩ ∧
    ∀ r ∈ callback2 { ex2 with reg := .pending, q := ⟨none, some ("9", "SecurityEventNotification")⟩ } exReply, r.sent = [⟨"9", true⟩] := by
  refine ⟨⟨_, _, Or.inl (Or.inl rfl), rfl, by decide⟩, ?_, ?_⟩
  · intro id action h
    simp only [Option.some.injEq, Prod.mk.injEq] at h
    rw [← h.2]
    decide
  · decide +kernel

/-! ### C140 -/

/-- The queue no longer waits. -/
theorem push_hold {q : Q} (l : List Sent) {id : String} (h : q.hold = some id ∨ q.hold = none) (hl : ∃ e, ⟨id, e⟩ ∈ l) :
    (l.foldl push q).hold = none := by
  have hnone : ∀ (l : List Sent) (q : Q), q.hold = none → (l.foldl push q).hold = none := by
    intro l
    induction l with
    | nil => intro q h; exact h
    | cons x r ih =>
      intro q h
      apply ih
      simp [push, h]
  induction l generalizing q with
  | nil => obtain ⟨e, he⟩ := hl; simp at he
  | cons x r ih =>
    obtain ⟨e, he⟩ := hl
    simp only [List.foldl_cons]
    by_cases hx : q.hold = some x.id
    · exact hnone r _ (by simp [push, hx])
    · rcases h with h | h
      · rcases List.mem_cons.mp he with h' | h'
        · exact absurd (by rw [h, ← h']) hx
        · refine ih (Or.inl ?_) ⟨e, h'⟩
          unfold push
          rw [if_neg hx]
          exact h
      · exact hnone r _ (by simp [push, h])

theorem push_none {q : Q} (l : List Sent) (h : q.hold = none) : (l.foldl push q).hold = none := by
  induction l generalizing q with
  | nil => exact h
  | cons x r ih => exact ih (by simp [push, h])

/-- At least one answer, or an exception. -/
def some16 (o : Outcome) : Bool :=
  match o.fin with
  | .ok => o.answers.length != 0
  | _ => true

theorem finish_some {A : Type} {caught always : Exn → Bool} {m : Msg A} (hk : m.kind = .call) {q : Q} (hq : q.hold = some m.id) {o : Outcome}
    (ho : some16 o = true) (hd : (finish caught always m q o).dead = false) : (finish caught always m q o).q.hold = none := by
  obtain ⟨l, f⟩ := o
  cases f with
  | ok =>
    match l, ho with
    | e :: r, _ => exact push_hold _ (Or.inl hq) ⟨e, by simp⟩
  | dead => simp [finish, Res.of] at hd
  | exn x =>
    by_cases hc : caught x = true
    · simp only [finish, hc, hk, if_true, true_or]
      exact push_hold _ (Or.inl hq) ⟨true, by simp⟩
    · simp [finish, hc, Res.of] at hd

theorem finish_none {A : Type} {caught always : Exn → Bool} {m : Msg A} {q : Q} (hq : q.hold = none) (o : Outcome) :
    (finish caught always m q o).q.hold = none := by
  unfold finish
  simp only
  split
  · exact push_none _ hq
  · exact push_none _ hq
  · (repeat' split) <;> exact push_none _ hq

theorem handle16_some (v : Env) (x : Ctx) {a : A16} (ha : a ∈ acts16) : (outs v (handle16 x a)).all some16 = true := by
  obtain ⟨w, d, o⟩ := v
  obtain ⟨n, al, bf, c⟩ := x
  by_cases h1 : a = .unlockConnector
  · subst h1
    cases c with
    | none => cases w <;> cases d <;> cases o <;> rfl
    | some k =>
      simp only [handle16, unlockConnector16]
      split
      · split <;> cases w <;> cases d <;> cases o <;> rfl
      · cases w <;> cases d <;> cases o <;> rfl
  · simp only [acts16, List.mem_cons, List.not_mem_nil, or_false] at ha
    rcases ha with h | h | h | h | h | h | h | h | h | h | h | h | h | h | h | h | h | h | h | h | h | h | h | h | h | h <;> subst h <;>
      first
      | exact absurd rfl h1
      | (cases w <;> cases d <;> cases al <;> cases bf <;> cases o <;> rfl)

/-- One message, 1.6. -/
theorem hold16 (s : S16) (hq : s.q.hold = none) (hc : Consistent s) (t : Option J) (ht : ∀ id action, IsRequest t id action → ¬ EndsInResponse action)
    (r : Res) (hr : r ∈ callback16 s t) (hd : r.dead = false) : r.q.hold = none := by
  have hrec := receive_hold A16.ofName .internalError s.q t
  unfold callback16 at hr
  cases h : receive A16.ofName .internalError s.q t with
  | mk q' res =>
    rw [h] at hr hrec
    cases res with
    | error e =>
      simp only [List.mem_singleton] at hr
      subst hr
      apply push_none
      rcases hrec with h | h
      · rw [h]; exact hq
      · exact h
    | ok m =>
      simp only at hr hrec
      cases hk : m.kind with
      | call =>
        obtain ⟨action, hreq, hname⟩ := receive_call h hk
        have hhold := hrec.1 hk
        split at hr
        · simp only [hk, if_true, List.mem_singleton] at hr
          subst hr
          exact push_hold _ (Or.inl hhold) ⟨true, by simp⟩
        · rename_i hsup
          have hact := supported_act hname (ht _ _ hreq) (by simpa using hsup)
          have hboot : m.act ≠ .bootNotificationResponse := by
            intro h
            rw [h] at hact
            simp [acts16] at hact
          have hall := handle16_some s.env ⟨s.connectors, s.resetAllowed, s.resetBefore, connectorOf m.elems⟩ hact
          have main : dispatch16 s m = none ∨ ∃ p, dispatch16 s m = some p ∧ (outs s.env p).all some16 = true := by
            obtain ⟨c1, c2, c3⟩ := hc
            simp only [dispatch16, hk, hboot, if_true, if_false]
            cases hconn : s.conn with
            | disconnected => exact absurd hconn c1
            | connected => exact Or.inl rfl
            | rejected => simp [c2 hconn]
            | pending =>
              simp only [c3 hconn, if_true]
              split
              · exact Or.inr ⟨_, rfl, rfl⟩
              · exact Or.inr ⟨_, rfl, hall⟩
            | booted => exact Or.inr ⟨_, rfl, hall⟩
          rcases main with hp | ⟨p, hp, hall⟩
          · rw [hp] at hr
            simp only [List.mem_singleton] at hr
            subst hr
            rfl
          · rw [hp] at hr
            simp only at hr
            obtain ⟨o, ho, rfl⟩ := List.mem_map.mp hr
            exact finish_some hk hhold (List.all_eq_true.mp hall o ho) hd
      | unknown =>
        have hq' := hrec.2.2 hk
        subst hq'
        split at hr
        · simp only [List.mem_singleton] at hr
          subst hr
          exact push_none _ hq
        · split at hr
          · simp only [List.mem_singleton] at hr
            subst hr
            rfl
          · obtain ⟨o, ho, rfl⟩ := List.mem_map.mp hr
            exact finish_none hq o
      | _ =>
        have hq' : q'.hold = none := hrec.2.1 (by simp [hk])
        split at hr
        · simp only [List.mem_singleton] at hr
          subst hr
          exact push_none _ hq'
        · split at hr
          · simp only [List.mem_singleton] at hr
            subst hr
            rfl
          · obtain ⟨o, ho, rfl⟩ := List.mem_map.mp hr
            exact finish_none hq' o

/-- C140, OCPP 1.6: after any sequence of texts, whatever the station does in between and whatever fails, the queue is not left waiting for an answer
to be sent.  Partial: the station is not disconnected and its state agrees with the registration whenever it handles a message, and no request has
the name of a response; see `C140_violated`. -/
theorem C140_16_partial (h : List (S16 × Option J)) (hc : ∀ x ∈ h, Consistent x.1)
    (ht : ∀ x ∈ h, ∀ id action, IsRequest x.2 id action → ¬ EndsInResponse action) (w : Option String) (hw : Session16 none h w) : w = none := by
  have hz : ∃ z : Option String, z = none ∧ Session16 z h w := ⟨none, rfl, hw⟩
  obtain ⟨z, hz, hw⟩ := hz
  induction hw with
  | nil => exact hz
  | @cons hh h' s t rest r hr hd hrest ih =>
    subst hz
    have hone : r.q.hold = none :=
      hold16 { s with q := { s.q with hold := none } } rfl (hc (s, t) (by simp)) t (ht (s, t) (by simp)) r hr hd
    rw [hone] at hrest
    exact ih (fun x hx => hc x (by simp [hx])) (fun x hx => ht x (by simp [hx])) hrest hone

example : Session16 none [(ex16, exRequest "ClearCache" 0), (ex16, exReply)] none ∧ Consistent ex16 ∧ ¬ EndsInResponse "ClearCache" := by
  refine ⟨?_, ⟨by decide, by decide, by decide⟩, by decide⟩
  refine .cons ⟨[⟨"7", false⟩], ⟨none, none⟩, false⟩ (by decide +kernel) rfl ?_
  refine .cons ⟨[], ⟨none, none⟩, false⟩ (by decide +kernel) rfl ?_
  exact .nil _

/-- C140 is violated in OCPP 1.6: a request with the name AuthorizeResponse is not answered, and the queue waits for that answer: no other message is
sent until the CSMS sends the next one.  The same happens to a request that is handled after the connection is lost: also when the connection is
restored, nothing is sent, because only an answer or another message of the CSMS ends the waiting. -/
theorem C140_violated :
    (∀ r ∈ callback16 ex16 (exRequest "AuthorizeResponse" 0), r.sent = [] ∧ r.q.hold = some "7" ∧ r.dead = false) ∧
    (∀ r ∈ callback16 { ex16 with conn := .disconnected } (exRequest "ClearCache" 0), r.sent = [] ∧ r.q.hold = some "7" ∧ r.dead = false) ∧
    callback16 ex16 (exRequest "AuthorizeResponse" 0) ≠ [] ∧
    callback16 { ex16 with conn := .disconnected } (exRequest "ClearCache" 0) ≠ [] := by
  decide +kernel

theorem handle2_some (v : Env) (x : Ctx2) {a : A2} (h1 : a ≠ .transactionEventResponse) (h2 : a = .notifyAllowedEnergyTransfer → x.v21 = true) :
    (outs v (handle2 x a)).all some16 = true := by
  obtain ⟨w, d, o⟩ := v
  obtain ⟨b1, b2, b3, b4, b5, b6, b7, b8⟩ := x
  by_cases h3 : a = .notifyAllowedEnergyTransfer
  · have := h2 h3
    subst h3
    cases this
    cases w <;> cases d <;> cases b5 <;> cases o <;> rfl
  · clear h2
    cases a <;>
      first
      | exact absurd rfl h1
      | exact absurd rfl h3
      | (cases o <;> rfl)
      | (cases w <;> cases d <;> cases o <;> rfl)
      | (cases b1 <;> cases w <;> cases d <;> cases o <;> rfl)
      | (cases b2 <;> cases w <;> cases d <;> cases o <;> rfl)
      | (cases b3 <;> cases w <;> cases d <;> cases o <;> rfl)
      | (cases b4 <;> cases w <;> cases d <;> cases o <;> rfl)
      | (cases b6 <;> cases w <;> cases d <;> cases o <;> rfl)
      | (cases b8 <;> cases w <;> cases d <;> cases o <;> rfl)

/-- One message, 2.x. -/
theorem hold2 (s : S2) (hq : s.q.hold = none) (t : Option J)
    (ht : ∀ id action, IsRequest t id action → action ≠ "TransactionEventResponse" ∧ (action = "NotifyAllowedEnergyTransfer" → s.v21 = true))
    (r : Res) (hr : r ∈ callback2 s t) (hd : r.dead = false) : r.q.hold = none := by
  have hrec := receive_hold A2.ofName .internalError s.q t
  unfold callback2 at hr
  cases h : receive A2.ofName .internalError s.q t with
  | mk q' res =>
    rw [h] at hr hrec
    cases res with
    | error e =>
      simp only [List.mem_singleton] at hr
      subst hr
      apply push_none
      rcases hrec with h | h
      · rw [h]; exact hq
      · exact h
    | ok m =>
      simp only at hr hrec
      cases hk : m.kind with
      | call =>
        obtain ⟨action, hreq, hname⟩ := receive_call h hk
        have hhold := hrec.1 hk
        simp only [hk, reduceCtorEq, if_false] at hr
        obtain ⟨t1, t2⟩ := ht _ _ hreq
        have hone : (outs s.env (handle2 (ctx2 s m) m.act)).all some16 = true := by
          refine handle2_some _ _ ?_ ?_
          · intro h
            rw [h] at hname
            exact t1 (event_name hname)
          · intro h
            rw [h] at hname
            exact t2 (energy_name hname)
        have hres : (outs s.env resultOfCall).all some16 = true := rfl
        have herr : (outs s.env error).all some16 = true := rfl
        have hrep : (outs s.env reply).all some16 = true := rfl
        have hparse : ∀ p, (outs s.env p).all some16 = true → (outs s.env (parse p)).all some16 = true := by
          intro p hp
          cases ho : s.env.odd <;> simp [parse, outs, Env.possible, hp, ho, some16]
        have hall : (outs s.env (dispatch2 s m)).all some16 = true := by
          simp only [dispatch2, hk, if_true]
          cases s.reg with
          | accepted => exact hone
          | pending => (repeat' split) <;> first | assumption | (apply hparse; assumption)
          | rejected => (repeat' split) <;> first | assumption | (apply hparse; assumption)
        obtain ⟨o, ho, rfl⟩ := List.mem_map.mp hr
        exact finish_some hk hhold (List.all_eq_true.mp hall o ho) hd
      | unknown =>
        have hq' := hrec.2.2 hk
        subst hq'
        simp only [hk, if_true, List.mem_singleton] at hr
        subst hr
        exact push_none _ hq
      | _ =>
        have hq' : q'.hold = none := hrec.2.1 (by simp [hk])
        simp only [hk, reduceCtorEq, if_false] at hr
        obtain ⟨o, ho, rfl⟩ := List.mem_map.mp hr
        exact finish_none hq' o

/-- C140, OCPP 2.x: the same, in every state of the registration.  Partial: no request has the name TransactionEventResponse, and
NotifyAllowedEnergyTransfer arrives with OCPP 2.1 only; see `C140_2_violated`. -/
theorem C140_2_partial (h : List (S2 × Option J))
    (ht : ∀ x ∈ h, ∀ id action, IsRequest x.2 id action →
      action ≠ "TransactionEventResponse" ∧ (action = "NotifyAllowedEnergyTransfer" → x.1.v21 = true))
    (w : Option String) (hw : Session2 none h w) : w = none := by
  have hz : ∃ z : Option String, z = none ∧ Session2 z h w := ⟨none, rfl, hw⟩
  obtain ⟨z, hz, hw⟩ := hz
  induction hw with
  | nil => exact hz
  | @cons hh h' s t rest r hr hd hrest ih =>
    subst hz
    have hone : r.q.hold = none := hold2 { s with q := { s.q with hold := none } } rfl t (ht (s, t) (by simp)) r hr hd
    rw [hone] at hrest
    exact ih (fun x hx => ht x (by simp [hx])) hrest hone

example : Session2 none [(ex2, exRequest "UnlockConnector" 1), (ex2, exReply)] none := by
  refine .cons ⟨[⟨"7", false⟩], ⟨none, none⟩, false⟩ (by decide +kernel) rfl ?_
  refine .cons ⟨[], ⟨none, none⟩, false⟩ (by decide +kernel) rfl ?_
  exact .nil _

/-- C140 is violated in OCPP 2.x: a station with bidirectional charging that is connected with OCPP 2.0.1 does not answer
NotifyAllowedEnergyTransfer, and its queue waits for that answer. -/
theorem C140_2_violated : ∃ r ∈ callback2 ex2 (exRequest "NotifyAllowedEnergyTransfer" 0), r.sent = [] ∧ r.q.hold = some "7" ∧ r.dead = false := by
  decide +kernel

/-! ### C141 -/

theorem finish_alive {A : Type} {m : Msg A} (q : Q) {o : Outcome} (ho : alive o = true) :
    (finish (fun _ => true) (fun _ => false) m q o).dead = false := by
  obtain ⟨l, f⟩ := o
  cases f with
  | ok => rfl
  | dead => simp [alive] at ho
  | exn e =>
    simp only [finish, if_true]
    split <;> rfl

theorem finish_alive2 {A : Type} {m : Msg A} (q : Q) {o : Outcome} (ho : alive2 o = true) : (finish caught2 always2 m q o).dead = false := by
  obtain ⟨l, f⟩ := o
  cases f with
  | ok => rfl
  | dead => simp [alive2] at ho
  | exn e =>
    have hc : caught2 e = true := ho
    simp only [finish, hc, if_true]
    split <;> rfl

/-- C141, OCPP 1.6: no text ends the process, also if code of the application throws exceptions or the database fails.  Partial: no second reset is
allowed by the application; see `C141_16_violated`. -/
theorem C141_16_partial (s : S16) (hr : s.resetAllowed = true → s.resetBefore = false) (t : Option J) : ∀ r ∈ callback16 s t, r.dead = false := by
  intro r hmem
  unfold callback16 at hmem
  split at hmem
  · simp only [List.mem_singleton] at hmem
    subst hmem
    rfl
  · rename_i q m hrec
    split at hmem
    · simp only [List.mem_singleton] at hmem
      subst hmem
      rfl
    · split at hmem
      · simp only [List.mem_singleton] at hmem
        subst hmem
        rfl
      · rename_i p hp
        have h1 := handle16_alive s.env ⟨s.connectors, s.resetAllowed, s.resetBefore, connectorOf m.elems⟩ hr m.act
        have h2 := handleResult16_alive s.env m.act
        have h3 := result16_alive s.env
        have h4 : (outs s.env resultOfCall).all alive = true := rfl
        have h5 : (outs s.env .done).all alive = true := rfl
        have h6 : (outs s.env reply).all alive = true := rfl
        have hall : (outs s.env p).all alive = true := by
          unfold dispatch16 at hp
          simp only at hp
          split at hp
          · cases hp; exact h5
          · (repeat' split at hp) <;> cases hp <;> first | exact h4 | exact h3 | exact h5
          · (repeat' split at hp) <;> cases hp <;> first | exact h4 | exact h3 | exact h5
          · (repeat' split at hp) <;> cases hp <;> first | exact h4 | exact h3 | exact h5 | exact h6 | exact h1 | exact h2
          · (repeat' split at hp) <;> cases hp <;> first | exact h1 | exact h2
        obtain ⟨o, ho, rfl⟩ := List.mem_map.mp hmem
        exact finish_alive q (List.all_eq_true.mp hall o ho)

example : ex16.resetAllowed = true ∧ ex16.resetBefore = false := by decide

/-- C141 is violated in OCPP 1.6: the second Reset request that the application allows ends the process by `std::terminate`. -/
theorem C141_16_violated : ∃ r ∈ callback16 { ex16 with resetBefore := true } (exRequest "Reset" 0), r.dead = true := by
  decide +kernel

/-- C141, OCPP 2.x: no text ends the process.  Partial: code of the application throws no exceptions, the database works, and no number outside of the
range of `int` is written to NetworkConfigurationPriority; see `C141_violated`. -/
theorem C141_2_partial (s : S2) (hw : s.env.wild = false) (hd : s.env.dbFails = false) (t : Option J) (hslots : SlotsInRange t) :
    ∀ r ∈ callback2 s t, r.dead = false := by
  intro r hmem
  unfold callback2 at hmem
  split at hmem
  · simp only [List.mem_singleton] at hmem
    subst hmem
    rfl
  · rename_i q m hrec
    split at hmem
    · simp only [List.mem_singleton] at hmem
      subst hmem
      rfl
    · have hslot : (ctx2 s m).bigSlot = .never := bigSlot_never (hslots _ (receive_elems hrec))
      have h1 := handle2_alive hw hd (ctx2 s m) hslot m.act
      have h2 := handleResult2_alive hw hd m.act
      have h3 : (outs s.env result2).all alive2 = true := by
        revert hw hd
        obtain ⟨w, d, o⟩ := s.env
        intro hw hd
        cases hw; cases hd
        cases o <;> rfl
      have h4 : (outs s.env resultOfCall).all alive2 = true := rfl
      have h5 : (outs s.env error).all alive2 = true := rfl
      have h6 : (outs s.env reply).all alive2 = true := rfl
      have hparse : ∀ p, (outs s.env p).all alive2 = true → (outs s.env (parse p)).all alive2 = true := by
        intro p hp
        cases ho : s.env.odd <;> simp [parse, outs, Env.possible, hp, ho, alive2, caught2]
      have hall : (outs s.env (dispatch2 s m)).all alive2 = true := by
        simp only [dispatch2]
        cases s.reg with
        | accepted => simp only; split <;> assumption
        | pending => simp only; (repeat' split) <;> first | assumption | (apply hparse; assumption)
        | rejected => simp only; (repeat' split) <;> first | assumption | (apply hparse; assumption)
      obtain ⟨o, ho, rfl⟩ := List.mem_map.mp hmem
      exact finish_alive2 q (List.all_eq_true.mp hall o ho)

/-- The request to set NetworkConfigurationPriority. -/
def exPriority (v : String) : Option J :=
  some (.arr [.int 2, .str "7", .str "SetVariables", .obj [("setVariableData", .arr [.obj [("component", .obj [("name", .str "OCPPCommCtrlr")]),
    ("variable", .obj [("name", .str "NetworkConfigurationPriority")]), ("attributeValue", .str v)]])]])

example : SlotsInRange (exPriority "1,2") := by
  intro l hl
  simp only [exPriority, Option.some.injEq, J.arr.injEq] at hl
  subst hl
  decide +kernel

/-- C141 is violated in OCPP 2.x: a request to set NetworkConfigurationPriority to 99999999999 is never answered; it is either not readable, which
this one is not, or ends the process with an exception that is not caught. -/
theorem C141_violated : (∃ r ∈ callback2 ex2 (exPriority "99999999999"), r.dead = true) ∧
    ∀ r ∈ callback2 ex2 (exPriority "99999999999"), r.dead = true ∨ r.sent = [⟨"7", true⟩] := by
  decide +kernel

end Verif.Recv
