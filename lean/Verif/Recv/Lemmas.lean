import Verif.Recv.Spec

/-!
Helper lemmas.
-/

namespace Verif.Recv

open Verif.Wire (J)

/-- A skeleton has an outcome. -/
theorem outs_ne (v : Env) (p : Prog) : outs v p ≠ [] := by
  induction p with
  | done => simp [outs]
  | answer e k ih => simpa [outs] using ih
  | may es k ih => simp [outs, ih]
  | raise e => simp [outs]
  | ext k ih => simp [outs, ih]
  | die => simp [outs]
  | choose a b iha ihb => simp [outs, iha]
  | attempt body c h k ihb ihh ihk =>
    intro he
    simp only [outs, List.flatMap_eq_nil_iff] at he
    cases hb : outs v body with
    | nil => exact ihb hb
    | cons o r =>
      have := he o (by simp [hb])
      cases hf : o.fin with
      | ok => simp [hf, ihk] at this
      | dead => simp [hf] at this
      | exn e =>
        simp only [hf] at this
        split at this
        · simp [ihh] at this
        · simp at this

/-- One answer, or none and an exception. -/
def one (o : Outcome) : Bool :=
  match o.fin with
  | .ok => o.answers.length == 1
  | .exn _ => o.answers.length == 0
  | .dead => o.answers.length == 1

/-- One answer, or none and an exception that is caught in 2.x. -/
def one2 (o : Outcome) : Bool :=
  match o.fin with
  | .ok => o.answers.length == 1
  | .exn e => o.answers.length == 0 && caught2 e
  | .dead => false

/-- The process goes on. -/
def alive (o : Outcome) : Bool := o.fin != .dead

/-- The process goes on in 2.x. -/
def alive2 (o : Outcome) : Bool :=
  match o.fin with
  | .ok => true
  | .exn e => caught2 e
  | .dead => false

/-- No answer. -/
def silent (o : Outcome) : Bool := o.answers.length == 0

/-- No answer, also not because of an exception. -/
def silent2 (o : Outcome) : Bool :=
  o.answers.length == 0 && match o.fin with
    | .exn e => !always2 e
    | _ => true

/-- The messages that are requests and supported with some feature profiles. -/
def acts16 : List A16 :=
  [.cancelReservation, .changeAvailability, .changeConfiguration, .clearCache, .clearChargingProfile, .dataTransfer, .getCompositeSchedule,
    .getConfiguration, .getDiagnostics, .getLocalListVersion, .remoteStartTransaction, .remoteStopTransaction, .reserveNow, .reset, .sendLocalList,
    .setChargingProfile, .triggerMessage, .unlockConnector, .updateFirmware, .certificateSigned, .deleteCertificate, .extendedTriggerMessage,
    .getInstalledCertificateIds, .getLog, .installCertificate, .signedUpdateFirmware]

theorem mem_names16 {n : String} {a : A16} (h : A16.ofName n = some a) : (n, a) ∈ A16.names := by
  unfold A16.ofName at h
  obtain ⟨p, hp, rfl⟩ := Option.map_eq_some_iff.mp h
  have h1 := List.find?_some hp
  have h2 := List.mem_of_find?_eq_some hp
  have : p.1 = n := by simpa using h1
  subst this
  exact h2

theorem mem_names2 {n : String} {a : A2} (h : A2.ofName n = some a) : (n, a) ∈ A2.names := by
  unfold A2.ofName at h
  obtain ⟨p, hp, rfl⟩ := Option.map_eq_some_iff.mp h
  have h1 := List.find?_some hp
  have h2 := List.mem_of_find?_eq_some hp
  have : p.1 = n := by simpa using h1
  subst this
  exact h2

/-- All messages of all feature profiles. -/
def allSupported : List A16 :=
  Feature.core.messages ++ Feature.firmware.messages ++ Feature.localList.messages ++ Feature.remoteTrigger.messages ++
    Feature.reservation.messages ++ Feature.smartCharging.messages ++ Feature.security.messages

theorem supported_all {fs : List Feature} {a : A16} (h : supported fs a = true) : a ∈ allSupported := by
  simp only [supported, Bool.or_eq_true, List.any_eq_true, List.contains_iff_mem] at h
  rcases h with ⟨f, -, hf⟩ | h
  · cases f <;> simp only [allSupported, List.mem_append] <;> simp [hf]
  · simp only [List.mem_cons, List.not_mem_nil, or_false] at h
    rcases h with h | h | h <;> subst h <;> decide

theorem table16 : A16.names.all (fun p => decide (EndsInResponse p.1) || !allSupported.contains p.2 || acts16.contains p.2) = true := by
  decide +kernel

theorem table_unlock : A16.names.all (fun p => p.2 != .unlockConnector || p.1 == "UnlockConnector") = true := by decide +kernel

theorem own16_names : own16.all (fun n => match A16.ofName (n ++ "Response") with
    | some a => a != .remoteStartTransaction && a != .remoteStopTransaction
    | none => false) = true := by decide +kernel

theorem own2_names : own2.all (fun n => (A2.ofName (n ++ "Response")).isSome) = true := by decide +kernel

theorem own16_act {n : String} (h : n ∈ own16) :
    A16.ofName (n ++ "Response") ≠ none ∧ ∀ a, A16.ofName (n ++ "Response") = some a → a ≠ .remoteStartTransaction ∧ a ≠ .remoteStopTransaction := by
  have := List.all_eq_true.mp own16_names n h
  cases ha : A16.ofName (n ++ "Response") with
  | none => simp [ha] at this
  | some a => simpa [ha] using this

theorem own2_act {n : String} (h : n ∈ own2) : A2.ofName (n ++ "Response") ≠ none := by
  have := List.all_eq_true.mp own2_names n h
  exact Option.isSome_iff_ne_none.mp this

/-- A supported message with a name that does not end in Response. -/
theorem supported_act {fs : List Feature} {n : String} {a : A16} (hn : A16.ofName n = some a) (hr : ¬ EndsInResponse n)
    (hs : supported fs a = true) : a ∈ acts16 := by
  have h := List.all_eq_true.mp table16 (n, a) (mem_names16 hn)
  simp only [Bool.or_eq_true, decide_eq_true_eq, Bool.not_eq_true', List.contains_iff_mem] at h
  rcases h with (h | h) | h
  · exact absurd h hr
  · have := supported_all hs
    simp at h
    exact absurd this h
  · exact h

theorem unlock_name {n : String} (hn : A16.ofName n = some .unlockConnector) : n = "UnlockConnector" := by
  have h := List.all_eq_true.mp table_unlock (n, .unlockConnector) (mem_names16 hn)
  simpa using h

theorem table_two : A2.names.all (fun p => (p.2 != .transactionEventResponse || p.1 == "TransactionEventResponse") &&
    (p.2 != .notifyAllowedEnergyTransfer || p.1 == "NotifyAllowedEnergyTransfer")) = true := by decide +kernel

theorem event_name {n : String} (hn : A2.ofName n = some .transactionEventResponse) : n = "TransactionEventResponse" := by
  have h := List.all_eq_true.mp table_two (n, .transactionEventResponse) (mem_names2 hn)
  simpa using h

theorem energy_name {n : String} (hn : A2.ofName n = some .notifyAllowedEnergyTransfer) : n = "NotifyAllowedEnergyTransfer" := by
  have h := List.all_eq_true.mp table_two (n, .notifyAllowedEnergyTransfer) (mem_names2 hn)
  simpa using h

theorem unlock_one {v : Env} (hv : v.wild = false) (n : Nat) (c : Option Int) (hc : ∀ k, c = some k → 0 ≤ k ∧ k ≤ (n : Int)) :
    (outs v (unlockConnector16 n c)).all one = true := by
  obtain ⟨w, d, o⟩ := v
  cases hv
  cases c with
  | none => cases d <;> cases o <;> rfl
  | some k =>
    have hk := hc k rfl
    have h1 : ¬ (k < 0 ∨ (n : Int) < k) := by omega
    simp only [unlockConnector16, h1, if_false]
    split <;> cases d <;> cases o <;> rfl

/-- In OCPP 1.6 the handlers answer requests once. -/
theorem handle16_one {v : Env} (hv : v.wild = false) (x : Ctx) {a : A16}
    (hx : a = .unlockConnector → ∀ k, x.connector = some k → 0 ≤ k ∧ k ≤ (x.connectors : Int)) (ha : a ∈ acts16) :
    (outs v (handle16 x a)).all one = true := by
  by_cases h1 : a = .unlockConnector
  · subst h1
    exact unlock_one hv x.connectors x.connector (hx rfl)
  · obtain ⟨w, d, o⟩ := v
    cases hv
    obtain ⟨n, al, bf, c⟩ := x
    clear hx
    simp only [acts16, List.mem_cons, List.not_mem_nil, or_false] at ha
    rcases ha with h | h | h | h | h | h | h | h | h | h | h | h | h | h | h | h | h | h | h | h | h | h | h | h | h | h <;> subst h <;>
      first
      | exact absurd rfl h1
      | (cases d <;> cases al <;> cases bf <;> cases o <;> rfl)

/-- In OCPP 1.6 handlers of results do not answer. -/
theorem handleResult16_silent (v : Env) (a : A16) : (outs v (handleResult16 a)).all silent = true := by
  obtain ⟨w, d, o⟩ := v
  cases w <;> cases d <;> cases a <;> cases o <;> rfl

/-- In OCPP 1.6 handlers end the process at most after a second reset. -/
theorem handle16_alive (v : Env) (x : Ctx) (hx : x.resetAllowed = true → x.resetBefore = false) (a : A16) :
    (outs v (handle16 x a)).all alive = true := by
  obtain ⟨w, d, o⟩ := v
  obtain ⟨n, al, bf, c⟩ := x
  by_cases h1 : a = .unlockConnector
  · subst h1
    cases c with
    | none => cases w <;> cases d <;> cases o <;> rfl
    | some k =>
      simp only [handle16, unlockConnector16]
      split
      · split <;> cases w <;> cases d <;> cases o <;> rfl
      · cases w <;> cases d <;> cases o <;> rfl
  · by_cases h2 : a = .reset
    · subst h2
      cases al <;> cases bf
      · cases w <;> cases d <;> cases o <;> rfl
      · cases w <;> cases d <;> cases o <;> rfl
      · cases w <;> cases d <;> cases o <;> rfl
      · exact absurd (hx rfl) (by simp)
    · cases a <;> first | exact absurd rfl h1 | exact absurd rfl h2 | (cases w <;> cases d <;> cases o <;> rfl)

theorem result16_alive (v : Env) : (outs v result16).all alive = true := by
  obtain ⟨w, d, o⟩ := v
  cases w <;> cases d <;> cases o <;> rfl

theorem handleResult16_alive (v : Env) (a : A16) : (outs v (handleResult16 a)).all alive = true := by
  obtain ⟨w, d, o⟩ := v
  cases w <;> cases d <;> cases a <;> cases o <;> rfl

/-- In OCPP 2.x the handlers answer requests once. -/
theorem handle2_one {v : Env} (hv : v.wild = false) (hd : v.dbFails = false) (x : Ctx2) (hx : x.bigSlot = .never) {a : A2}
    (h1 : a ≠ .transactionEventResponse) (h2 : a = .notifyAllowedEnergyTransfer → x.v21 = true) : (outs v (handle2 x a)).all one2 = true := by
  obtain ⟨w, d, o⟩ := v
  cases hv; cases hd
  obtain ⟨b1, b2, b3, b4, b5, b6, b7, b8⟩ := x
  cases hx
  by_cases h3 : a = .notifyAllowedEnergyTransfer
  · have := h2 h3
    subst h3
    cases this
    cases b5 <;> cases o <;> rfl
  · clear h2
    cases a <;>
      first
      | exact absurd rfl h1
      | exact absurd rfl h3
      | (cases o <;> rfl)
      | (cases b1 <;> cases o <;> rfl)
      | (cases b2 <;> cases o <;> rfl)
      | (cases b3 <;> cases o <;> rfl)
      | (cases b4 <;> cases o <;> rfl)
      | (cases b6 <;> cases o <;> rfl)

/-- In OCPP 2.x the handlers of requests let the process go on. -/
theorem handle2_alive {v : Env} (hv : v.wild = false) (hd : v.dbFails = false) (x : Ctx2) (hx : x.bigSlot = .never) (a : A2) :
    (outs v (handle2 x a)).all alive2 = true := by
  obtain ⟨w, d, o⟩ := v
  cases hv; cases hd
  obtain ⟨b1, b2, b3, b4, b5, b6, b7, b8⟩ := x
  cases hx
  cases a <;>
    first
    | (cases o <;> rfl)
    | (cases b1 <;> cases o <;> rfl)
    | (cases b2 <;> cases o <;> rfl)
    | (cases b3 <;> cases o <;> rfl)
    | (cases b4 <;> cases o <;> rfl)
    | (cases b5 <;> cases b7 <;> cases o <;> rfl)
    | (cases b6 <;> cases o <;> rfl)

theorem handleResult2_alive {v : Env} (hv : v.wild = false) (hd : v.dbFails = false) (a : A2) :
    (outs v (handleResult2 a)).all alive2 = true := by
  obtain ⟨w, d, o⟩ := v
  cases hv; cases hd
  cases a <;> cases o <;> rfl

/-- In OCPP 2.x handlers of results do not answer. -/
theorem handleResult2_silent (v : Env) (a : A2) : (outs v (handleResult2 a)).all silent2 = true := by
  obtain ⟨w, d, o⟩ := v
  cases w <;> cases d <;> cases a <;> cases o <;> rfl

/-! ### Reception -/

theorem isNum_of {n : Int} {j : J} (h : IsNumber n j) : isNum j n = true := by
  rcases h with rfl | rfl <;> simp [isNum]

theorem isNum_iff {n : Int} {j : J} : isNum j n = true ↔ IsNumber n j := by
  constructor
  · intro h
    cases j <;> simp [isNum] at h
    · subst h; exact Or.inl rfl
    · subst h; exact Or.inr rfl
  · exact isNum_of

theorem kind_call {k : J} (h : IsNumber 2 k) (l : List J) : kindOf (k :: l) = .call := by
  have : isNum k 2 = true := isNum_of h
  simp [kindOf, this]

theorem kind_reply {k : J} (h : IsNumber 3 k ∨ IsNumber 4 k) (l : List J) : kindOf (k :: l) = .result ∨ kindOf (k :: l) = .error := by
  rcases h with h | h <;> rcases h with rfl | rfl <;> simp only [kindOf, isNum] <;> decide

theorem call_kind {l : List J} (h : kindOf l = .call) : ∃ k r, IsNumber 2 k ∧ l = k :: r := by
  cases l with
  | nil => simp [kindOf] at h
  | cons k r =>
    refine ⟨k, r, ?_, rfl⟩
    simp only [kindOf] at h
    split at h
    · rename_i h2
      exact isNum_iff.mp h2
    · split at h
      · simp at h
      · split at h <;> simp at h

theorem id_of {k : J} {id : String} {rest : List J} (hid : id.utf8ByteSize ≤ 36) : idOf (k :: .str id :: rest) = .ok id := by
  have hl : ¬ rest.length + 1 + 1 < 2 := by omega
  simp [idOf, hid, hl]

theorem of_id {l : List J} {id : String} (h : idOf l = .ok id) : ∃ k r, l = k :: .str id :: r ∧ id.utf8ByteSize ≤ 36 := by
  unfold idOf at h
  split at h
  · simp at h
  · match l with
    | [] => simp at h
    | [_] => simp at h
    | k :: j :: r =>
      cases j <;> simp at h
      rename_i s
      split at h
      · rename_i h36
        simp at h
        subst h
        exact ⟨k, r, rfl, h36⟩
      · simp at h

/-- A request with a known action. -/
theorem receive_request {A : Type} (ofName : String → Option A) (internal : A) (q : Q) {id action : String} {k : J} {rest : List J} {a : A}
    (hk : IsNumber 2 k) (hid : id.utf8ByteSize ≤ 36) (ha : ofName action = some a) :
    receive ofName internal q (some (.arr (k :: .str id :: .str action :: rest))) =
      ({ q with hold := some id }, .ok ⟨.call, id, a, k :: .str id :: .str action :: rest⟩) := by
  simp [receive, id_of hid, kind_call hk, ha]

/-- A request with an unknown action. -/
theorem receive_unknown {A : Type} (ofName : String → Option A) (internal : A) (q : Q) {id action : String} {k : J} {rest : List J}
    (hk : IsNumber 2 k) (hid : id.utf8ByteSize ≤ 36) (ha : ofName action = none) :
    receive ofName internal q (some (.arr (k :: .str id :: .str action :: rest))) = (q, .error .enumConv) := by
  simp [receive, id_of hid, kind_call hk, ha]

/-- A reply. -/
theorem receive_reply {A : Type} (ofName : String → Option A) (internal : A) (q : Q) {id : String} {k : J} {rest : List J}
    (hk : IsNumber 3 k ∨ IsNumber 4 k) (hid : id.utf8ByteSize ≤ 36) {own : List String} (hq : OwnInFlight own q)
    (hown : ∀ n ∈ own, ofName (n ++ "Response") ≠ none) :
    ∃ q' m, receive ofName internal q (some (.arr (k :: .str id :: rest))) = (q', .ok m) ∧ (m.kind = .result ∨ m.kind = .error) ∧
      (m.act = internal ∨ ∃ n ∈ own, ofName (n ++ "Response") = some m.act) := by
  have hs : ∀ kd, ∃ a, resultType ofName internal q kd id = some a ∧ (a = internal ∨ ∃ n ∈ own, ofName (n ++ "Response") = some a) := by
    intro kd
    unfold resultType
    split
    · rename_i i n hf
      split
      · have hn := hq i n hf
        obtain ⟨a, ha⟩ := Option.ne_none_iff_exists'.mp (hown n hn)
        exact ⟨a, ha, Or.inr ⟨n, hn, ha⟩⟩
      · exact ⟨_, rfl, Or.inl rfl⟩
    · exact ⟨_, rfl, Or.inl rfl⟩
  rcases kind_reply hk (.str id :: rest) with h | h
  · obtain ⟨a, ha, ha'⟩ := hs .result
    exact ⟨_, _, by simp only [receive, id_of hid, h, ha]; rfl, Or.inl rfl, ha'⟩
  · obtain ⟨a, ha, ha'⟩ := hs .error
    exact ⟨_, _, by simp only [receive, id_of hid, h, ha]; rfl, Or.inr rfl, ha'⟩

/-- What was received as a request was one. -/
theorem receive_call {A : Type} {ofName : String → Option A} {internal : A} {q q' : Q} {t : Option J} {m : Msg A}
    (h : receive ofName internal q t = (q', .ok m)) (hk : m.kind = .call) : ∃ action, IsRequest t m.id action ∧ ofName action = some m.act := by
  cases t with
  | none => simp [receive] at h
  | some j =>
    cases j with
    | arr l =>
      cases h1 : idOf l with
      | error e => simp [receive, h1] at h
      | ok id =>
        cases h2 : kindOf l with
        | call =>
          simp only [receive, h1, h2] at h
          cases h3 : (l[2]? : Option J) with
          | none => simp [h3] at h
          | some y =>
            cases y with
            | str s =>
              cases h4 : ofName s with
              | none => simp [h3, h4] at h
              | some a =>
                simp only [h3, h4, Prod.mk.injEq, Except.ok.injEq] at h
                obtain ⟨-, rfl⟩ := h
                obtain ⟨k, r, hl, h36⟩ := of_id h1
                obtain ⟨k', r', hk', hl'⟩ := call_kind h2
                subst hl
                simp only [List.cons.injEq] at hl'
                obtain ⟨rfl, -⟩ := hl'
                cases r with
                | nil => simp at h3
                | cons y r =>
                  simp only [List.getElem?_cons_succ, List.getElem?_cons_zero, Option.some.injEq] at h3
                  subst h3
                  exact ⟨s, ⟨k, r, hk', rfl, h36⟩, h4⟩
            | _ => simp [h3] at h
        | result =>
          simp only [receive, h1, h2] at h
          split at h
          · simp at h
          · simp only [Prod.mk.injEq, Except.ok.injEq] at h
            obtain ⟨-, rfl⟩ := h
            simp at hk
        | error =>
          simp only [receive, h1, h2] at h
          split at h
          · simp at h
          · simp only [Prod.mk.injEq, Except.ok.injEq] at h
            obtain ⟨-, rfl⟩ := h
            simp at hk
        | unknown =>
          simp only [receive, h1, h2, Prod.mk.injEq, Except.ok.injEq] at h
          obtain ⟨-, rfl⟩ := h
          simp at hk
    | _ => simp [receive] at h

/-- The message is kept as it was. -/
theorem receive_elems {A : Type} {ofName : String → Option A} {internal : A} {q q' : Q} {t : Option J} {m : Msg A}
    (h : receive ofName internal q t = (q', .ok m)) : t = some (.arr m.elems) := by
  unfold receive at h
  split at h
  · (repeat' split at h) <;> simp only [Prod.mk.injEq, Except.ok.injEq, reduceCtorEq, and_false] at h <;> (obtain ⟨-, rfl⟩ := h; rfl)
  · simp at h

/-- What `receive` does to the queue: a request is waited for, a reply ends the waiting, otherwise nothing. -/
theorem receive_hold {A : Type} (ofName : String → Option A) (internal : A) (q : Q) (t : Option J) :
    match receive ofName internal q t with
    | (q', .error _) => q' = q ∨ q'.hold = none
    | (q', .ok m) => (m.kind = .call → q'.hold = some m.id) ∧ (m.kind = .result ∨ m.kind = .error → q'.hold = none) ∧
        (m.kind = .unknown → q' = q) := by
  cases t with
  | none => simp [receive]
  | some j =>
    cases j with
    | arr l =>
      cases h1 : idOf l with
      | error e => simp [receive, h1]
      | ok id =>
        cases h2 : kindOf l with
        | call =>
          simp only [receive, h1, h2]
          cases h3 : (l[2]? : Option J) with
          | none => simp
          | some y =>
            cases y with
            | str s =>
              cases h4 : ofName s with
              | none => simp [h4]
              | some a => simp [h4]
            | _ => simp
        | result =>
          simp only [receive, h1, h2]
          cases h3 : resultType ofName internal q .result id <;> simp
        | error =>
          simp only [receive, h1, h2]
          cases h3 : resultType ofName internal q .error id <;> simp
        | unknown => simp [receive, h1, h2]
    | _ => simp [receive]

end Verif.Recv
