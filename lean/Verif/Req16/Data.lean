set_option linter.constructorNameAsVariable false

/-!
# DataTransfer, UnlockConnector and reservations of OCPP 1.6

Models of `handleDataTransferRequest`, `handleUnlockConnectorRequest`, `handleReserveNowRequest` and
`handleCancelReservationRequest` (lib/ocpp/v16/charge_point_impl.cpp), with specifications and theorems.
-/

namespace Verif.Req16

/-! ## DataTransfer: model -/

/-- `DataTransferStatus`. -/
inductive DStatus
  | accepted | rejected | unknownMessageId | unknownVendorId
  deriving DecidableEq, Repr

/-- A function of the application for one vendor and message (`data_transfer_callbacks`). `registers`: it registers another
one while it runs. -/
structure Handler where
  id : Nat
  reply : Option String → DStatus × Option String
  registers : Bool := false

/-- A function of the application for all messages (`data_transfer_callback`). -/
structure General where
  id : Nat
  reply : String → Option String → Option String → DStatus × Option String

/-- What was registered (charge_point_impl.hpp l.130-138). The map of maps `data_transfer_callbacks` is a list of entries
with different keys. -/
structure Registry where
  handlers : List ((String × String) × Handler) := []
  general : Option General := none
  /-- `is_iso15118_certificate_management_enabled`. -/
  pnc : Bool := false

/-- What can be observed. -/
inductive DOut
  /-- A built-in function for certificates of ISO 15118 takes the request, and answers it. -/
  | builtin (message : String)
  | handler (id : Nat) (data : Option String)
  | general (id : Nat) (vendor : String) (message : Option String) (data : Option String)
  | answer (s : DStatus) (data : Option String)
  /-- A mutex is locked by the thread that holds it. -/
  | stuck
  deriving DecidableEq, Repr

/-- `ISO15118_PNC_VENDOR_ID` (l.27). -/
def pncVendor : String := "org.openchargealliance.iso15118pnc"

/-- The keys of `data_transfer_pnc_callbacks` (l.186-207). -/
def pncMessages : List String :=
  ["TriggerMessage", "CertificateSigned", "GetInstalledCertificateIds", "DeleteCertificate", "InstallCertificate"]

/-- `register_data_transfer_callback` (l.4258-4265). -/
def register (r : Registry) (v m : String) (f : Handler) : Registry :=
  { r with handlers := ((v, m), f) :: r.handlers.filter (fun p => p.1 != (v, m)) }

/-- Look up an entry. -/
def find (r : Registry) (v m : String) : Option Handler := (r.handlers.find? (fun p => p.1 == (v, m))).map Prod.snd

/-- `data_transfer_callbacks.count(vendorId) != 0`. -/
def knowsVendor (r : Registry) (v : String) : Bool := r.handlers.any (fun p => p.1.1 == v)

/-- The outcome of the part under the mutex (l.2087-2115): done, or an answer that may still be changed. -/
inductive First
  | done (o : List DOut)
  | reply (o : List DOut) (s : DStatus) (data : Option String)

/-- The part of `handleDataTransferRequest` under `data_transfer_callbacks_mutex` (l.2086-2115). -/
def first (r : Registry) (v : String) (m : String) (data : Option String) : First :=
  if v == pncVendor && !r.pnc then .reply [] .unknownVendorId none
  else if v == pncVendor && r.pnc then
    if pncMessages.contains m then .done [.builtin m] else .reply [] .unknownMessageId none
  else if !knowsVendor r v then .reply [] .unknownVendorId none
  else
    match find r v m with
    | none => .reply [] .unknownMessageId none
    | some f =>
      if f.registers then .done [.handler f.id data, .stuck]
      else .reply [.handler f.id data] (f.reply data).1 (f.reply data).2

/-- `handleDataTransferRequest` (l.2078-2127). -/
def onDataTransfer (r : Registry) (v : String) (m : Option String) (data : Option String) : List DOut :=
  match first r v (m.getD "") data with
  | .done o => o
  | .reply o s d =>
    if s = .unknownVendorId ∨ s = .unknownMessageId then
      match r.general with
      | some g => o ++ [.general g.id v m data, .answer (g.reply v m data).1 (g.reply v m data).2]
      | none => o ++ [.answer s d]
    else o ++ [.answer s d]

/-- What the application does. -/
inductive Reg
  | register (v m : String) (f : Handler)
  | general (g : General)
  | pnc (on : Bool)

/-- One registration. -/
def apply (r : Registry) : Reg → Registry
  | .register v m f => register r v m f
  | .general g => { r with general := some g }
  | .pnc b => { r with pnc := b }

/-- The registry after some registrations. -/
def registry (h : List Reg) : Registry := h.foldl apply {}

/-! ## DataTransfer: specification -/

/-- The function registered last for a vendor and a message. -/
def handlerFor (v m : String) (h : List Reg) : Option Handler :=
  (h.filterMap (fun e => match e with
    | .register a b f => if a = v ∧ b = m then some f else none
    | _ => none)).getLast?

/-- The function for all messages registered last. -/
def generalFor (h : List Reg) : Option General :=
  (h.filterMap (fun e => match e with
    | .general g => some g
    | _ => none)).getLast?

/-- Plug and charge is on. -/
def pncOn (h : List Reg) : Bool :=
  ((h.filterMap (fun e => match e with
    | .pnc b => some b
    | _ => none)).getLast?).getD false

/-- Some function was registered for the vendor. -/
def vendorKnown (v : String) (h : List Reg) : Bool := h.any (fun e => match e with
  | .register a _ _ => a == v
  | _ => false)

/-- Who is responsible for a message. -/
inductive Owner
  | builtin
  | handler (f : Handler)
  | general (g : General)
  | nobody (s : DStatus)

/-- What to do if no function was registered for the message: the function for all messages, or else an answer that says
what is unknown. -/
def otherwise (h : List Reg) (s : DStatus) : Owner :=
  match generalFor h with
  | some g => .general g
  | none => .nobody s

/-- Who is responsible. -/
def owner (h : List Reg) (v m : String) : Owner :=
  if v = pncVendor then
    if pncOn h then (if m ∈ pncMessages then .builtin else otherwise h .unknownMessageId)
    else otherwise h .unknownVendorId
  else
    match handlerFor v m h with
    | some f => .handler f
    | none => otherwise h (if vendorKnown v h then .unknownMessageId else .unknownVendorId)

/-- What is to be observed: who is responsible is asked, and nobody else, and their answer is sent. -/
def expected (o : Owner) (v : String) (m data : Option String) : List DOut :=
  match o with
  | .builtin => [.builtin (m.getD "")]
  | .handler f => [.handler f.id data, .answer (f.reply data).1 (f.reply data).2]
  | .general g => [.general g.id v m data, .answer (g.reply v m data).1 (g.reply v m data).2]
  | .nobody s => [.answer s none]

/-- The function answers something else than that it does not know the message. -/
def Knows (f : Handler) (data : Option String) : Prop :=
  (f.reply data).1 ≠ .unknownMessageId ∧ (f.reply data).1 ≠ .unknownVendorId

/-! ## DataTransfer: proofs -/

theorem snocInd {α : Type} {P : List α → Prop} (nil : P []) (snoc : ∀ l a, P l → P (l ++ [a])) : ∀ l, P l := by
  intro l
  have : ∀ m : List α, P m.reverse := by
    intro m
    induction m with
    | nil => exact nil
    | cons a m ih => rw [List.reverse_cons]; exact snoc _ _ ih
  simpa using this l.reverse

theorem find_filter (l : List ((String × String) × Handler)) (k k' : String × String) (h : k' ≠ k) :
    (l.filter (fun p => p.1 != k)).find? (fun p => p.1 == k') = l.find? (fun p => p.1 == k') := by
  induction l with
  | nil => rfl
  | cons p l ih =>
    rw [List.filter_cons]
    by_cases hp : p.1 = k
    · have : (p.1 != k) = false := by simp [hp]
      rw [this]
      have h2 : (p.1 == k') = false := by rw [hp]; simpa using Ne.symm h
      rw [List.find?_cons, h2]
      exact ih
    · have : (p.1 != k) = true := by simpa using hp
      rw [this]
      simp only [if_true, List.find?_cons, ih]

theorem find_registry (h : List Reg) (v m : String) : find (registry h) v m = handlerFor v m h := by
  induction h using snocInd with
  | nil => rfl
  | snoc h e ih =>
    have hr : registry (h ++ [e]) = apply (registry h) e := by simp [registry]
    rw [hr]
    unfold handlerFor
    rw [List.filterMap_append]
    cases e with
    | general g => simp only [List.filterMap_cons, List.filterMap_nil, List.append_nil]; exact ih
    | pnc b => simp only [List.filterMap_cons, List.filterMap_nil, List.append_nil]; exact ih
    | register a b f =>
      by_cases hab : a = v ∧ b = m
      · obtain ⟨rfl, rfl⟩ := hab
        simp [apply, find, register]
      · simp only [List.filterMap_cons, List.filterMap_nil, if_neg hab, List.append_nil]
        have hne : (a, b) ≠ (v, m) := fun g => hab ⟨congrArg Prod.fst g, congrArg Prod.snd g⟩
        have hb : (((a, b), f).1 == (v, m)) = false := by simpa using hne
        rw [← show find (registry h) v m = (h.filterMap _).getLast? from ih]
        simp only [apply, find, register, List.find?_cons, hb]
        rw [find_filter _ (a, b) (v, m) (Ne.symm hne)]

theorem general_registry (h : List Reg) : (registry h).general = generalFor h ∧ (registry h).pnc = pncOn h := by
  induction h using snocInd with
  | nil => exact ⟨rfl, rfl⟩
  | snoc h e ih =>
    have hr : registry (h ++ [e]) = apply (registry h) e := by simp [registry]
    rw [hr]
    unfold generalFor pncOn
    rw [List.filterMap_append, List.filterMap_append]
    cases e with
    | general g => exact ⟨by simp [apply], by simp only [List.filterMap_cons, List.filterMap_nil, List.append_nil]; exact ih.2⟩
    | pnc b => exact ⟨by simp only [List.filterMap_cons, List.filterMap_nil, List.append_nil]; exact ih.1, by simp [apply]⟩
    | register a b f =>
      simp only [List.filterMap_cons, List.filterMap_nil, List.append_nil]
      exact ih

theorem vendor_registry (h : List Reg) (v : String) : knowsVendor (registry h) v = vendorKnown v h := by
  induction h using snocInd with
  | nil => rfl
  | snoc h e ih =>
    have hr : registry (h ++ [e]) = apply (registry h) e := by simp [registry]
    rw [hr]
    unfold vendorKnown
    rw [List.any_append]
    cases e with
    | general g => simp only [List.any_cons, List.any_nil, Bool.or_false]; exact ih
    | pnc b => simp only [List.any_cons, List.any_nil, Bool.or_false]; exact ih
    | register a b f =>
      simp only [List.any_cons, List.any_nil, Bool.or_false]
      rw [← show knowsVendor (registry h) v = h.any _ from ih]
      simp only [apply, knowsVendor, register, List.any_cons]
      by_cases ha : a = v
      · subst ha; simp
      · have : (a == v) = false := by simpa using ha
        rw [this, Bool.false_or, Bool.or_false]
        rw [Bool.eq_iff_iff, List.any_eq_true, List.any_eq_true]
        constructor
        · rintro ⟨p, hp, hv⟩
          exact ⟨p, (List.mem_filter.1 hp).1, hv⟩
        · rintro ⟨p, hp, hv⟩
          refine ⟨p, ?_, hv⟩
          rw [List.mem_filter]
          refine ⟨hp, ?_⟩
          have hv' : p.1.1 = v := by simpa using hv
          have : p.1 ≠ (a, b) := by
            intro g
            rw [g] at hv'
            exact ha hv'
          simpa using this

/-- A vendor for which a function was registered is known. -/
theorem known_of_handler (h : List Reg) (v m : String) (f : Handler) (hf : handlerFor v m h = some f) :
    vendorKnown v h = true := by
  unfold handlerFor at hf
  have := List.mem_of_getLast? hf
  rw [List.mem_filterMap] at this
  obtain ⟨e, he, hx⟩ := this
  unfold vendorKnown
  rw [List.any_eq_true]
  refine ⟨e, he, ?_⟩
  cases e with
  | register a b g =>
    simp only at hx ⊢
    split at hx
    · rename_i hab; simp [hab.1]
    · cases hx
  | general g => cases hx
  | pnc b => cases hx

/-- **C174**: a DataTransfer reaches who is responsible for it, and nobody else: the built-in functions for ISO 15118; else
the function registered last for exactly this vendor and message; else the function for all messages; their answer is
sent. If there is none the answer tells whether the vendor or the message is unknown. Assumed: the function registered for
the message knows it, or there is no function for all messages; and it registers no other while it runs. -/
theorem C174_partial (h : List Reg) (v : String) (m data : Option String)
    (hk : ∀ f, handlerFor v (m.getD "") h = some f →
      f.registers = false ∧ (Knows f data ∨ generalFor h = none)) :
    onDataTransfer (registry h) v m data = expected (owner h v (m.getD "")) v m data := by
  have e1 := find_registry h v (m.getD "")
  have e2 := (general_registry h).1
  have e3 := (general_registry h).2
  have e4 := vendor_registry h v
  have other : ∀ s, s = .unknownVendorId ∨ s = .unknownMessageId →
      (match (registry h).general with
      | some g => [] ++ [.general g.id v m data, .answer (g.reply v m data).1 (g.reply v m data).2]
      | none => [] ++ [DOut.answer s none]) = expected (otherwise h s) v m data := by
    intro s _
    rw [e2]
    unfold otherwise
    cases generalFor h <;> rfl
  unfold onDataTransfer first owner
  rw [e1, e3, e4]
  by_cases hv : v = pncVendor
  · have hb : (v == pncVendor) = true := by simpa using hv
    rw [if_pos hv, hb]
    cases pncOn h with
    | false =>
      simp only [Bool.not_false, Bool.and_true, if_true, Bool.false_eq_true, if_false, true_or]
      exact other _ (Or.inl rfl)
    | true =>
      simp only [Bool.not_true, Bool.and_false, Bool.false_eq_true, if_false, Bool.and_true, if_true]
      by_cases hm : m.getD "" ∈ pncMessages
      · have : pncMessages.contains (m.getD "") = true := by simpa using hm
        rw [if_pos hm, this]
        rfl
      · have : pncMessages.contains (m.getD "") = false := by simpa using hm
        rw [if_neg hm, this]
        simp only [Bool.false_eq_true, if_false, or_true, if_true]
        exact other _ (Or.inr rfl)
  · have hb : (v == pncVendor) = false := by simpa using hv
    rw [if_neg hv, hb]
    simp only [Bool.false_and, Bool.false_eq_true, if_false]
    cases hf : handlerFor v (m.getD "") h with
    | some f =>
      rw [known_of_handler h v _ f hf]
      obtain ⟨g1, g2⟩ := hk f hf
      simp only [Bool.not_true, Bool.false_eq_true, if_false, g1]
      unfold expected
      rcases g2 with g2 | g2
      · rw [if_neg (by rintro (a | a); exact g2.2 a; exact g2.1 a)]
        rfl
      · rw [e2, g2]
        split <;> rfl
    | none =>
      cases vendorKnown v h with
      | false =>
        simp only [Bool.not_false, if_true, true_or, Bool.false_eq_true, if_false]
        exact other _ (Or.inl rfl)
      | true =>
        simp only [Bool.not_true, Bool.false_eq_true, if_false, or_true, if_true]
        exact other _ (Or.inr rfl)

/-- Functions for the examples. -/
def accept (id : Nat) : Handler := ⟨id, fun d => (.accepted, d), false⟩

/-- A history for the examples: two functions for the same message, and one for all messages. -/
def exampleRegs : List Reg :=
  [.register "Acme" "Blink" (accept 1), .register "Acme" "Blink" (accept 2),
    .general ⟨9, fun _ _ _ => (.rejected, none)⟩, .pnc true]

example : onDataTransfer (registry exampleRegs) "Acme" (some "Blink") (some "x") =
    [.handler 2 (some "x"), .answer .accepted (some "x")] := by decide

example : onDataTransfer (registry exampleRegs) "Acme" (some "Ring") none =
    [.general 9 "Acme" (some "Ring") none, .answer .rejected none] := by decide

example : ∀ f, handlerFor "Acme" "Blink" exampleRegs = some f →
    f.registers = false ∧ (Knows f (some "x") ∨ generalFor exampleRegs = none) := by
  intro f hf
  have : handlerFor "Acme" "Blink" exampleRegs = some (accept 2) := by
    simp [handlerFor, exampleRegs]
  rw [this] at hf
  cases hf
  exact ⟨rfl, Or.inl ⟨by simp [accept], by simp [accept]⟩⟩

/-- **C174 (violated)**: if the function registered for a message answers that it does not know (the content of) it, the
function for all messages is asked as well, and the answer of the first is lost. -/
theorem C174_overridden_violated :
    onDataTransfer (registry [.register "Acme" "Blink" ⟨1, fun _ => (.unknownMessageId, some "no such lamp"), false⟩,
      .general ⟨9, fun _ _ _ => (.rejected, none)⟩]) "Acme" (some "Blink") none =
      [.handler 1 none, .general 9 "Acme" (some "Blink") none, .answer .rejected none] := by decide

/-- **C174 (violated)**: vendor and message ids are case-insensitive in OCPP 1.6, but a function registered for them gets
only messages in the same spelling. -/
theorem C174_case_violated :
    onDataTransfer (registry [.register "Acme" "Blink" (accept 1)]) "ACME" (some "Blink") none =
      [.answer .unknownVendorId none] := by decide

/-- **C174 (violated)**: a function that registers another one while it runs never returns. -/
theorem C174_stuck_violated :
    onDataTransfer (registry [.register "Acme" "Blink" { accept 1 with registers := true }]) "Acme" (some "Blink") none =
      [.handler 1 none, .stuck] := by decide

/-! ## UnlockConnector -/

/-- `UnlockStatus` (include/ocpp/v16/ocpp_enums.hpp). -/
inductive Unlock
  | unlocked | unlockFailed | notSupported
  deriving DecidableEq, Repr

/-- What can be observed. -/
inductive UOut
  /-- `unlock_connector_callback`. -/
  | unlock (c : Int)
  | answer (s : Unlock)
  /-- `stop_transaction_callback` with `UnlockCommand`. -/
  | stop (c : Int)
  /-- The handler is left by an exception, after the answer (see C138). -/
  | throws
  /-- A mutex is locked by the thread that holds it. -/
  | stuck
  deriving DecidableEq, Repr

/-- The charge point: `unlock` is the callback of the application, `active` whether a transaction runs, `ifUnsupported` the
key StopTransactionIfUnlockNotSupported, and `stopsAtOnce` tells that the application ends the transaction (calling
`on_transaction_stopped`) before its callback returns. -/
structure Point where
  n : Nat
  unlock : Option (Int → Unlock)
  active : Int → Bool
  ifUnsupported : Bool
  stopsAtOnce : Bool

/-- The answer (l.2442-2453). -/
def unlockAnswer (p : Point) (c : Int) : List UOut × Unlock :=
  if c ≤ 0 ∨ (p.n : Int) < c then ([], .notSupported)
  else
    match p.unlock with
    | some f => ([.unlock c], f c)
    | none => ([], .notSupported)

/-- `handleUnlockConnectorRequest` (l.2438-2462). `transaction_active` uses `active_transactions.at(connector)`, which
throws if the number is negative or too large. `stop_transaction_mutex` is held all the time, and `stop_transaction`
(l.4498) locks it. -/
def onUnlock (p : Point) (c : Int) : List UOut :=
  (unlockAnswer p c).1 ++ .answer (unlockAnswer p c).2 ::
    (if (unlockAnswer p c).2 = .notSupported then
      if c < 0 ∨ (p.n : Int) < c then [.throws]
      else if p.active c && p.ifUnsupported then (if p.stopsAtOnce then [.stop c, .stuck] else [.stop c])
      else []
    else [])

/-- The connector exists. -/
def IsConnector (n : Nat) (c : Int) : Prop := 1 ≤ c ∧ c ≤ n

/-- What the application says of a lock. -/
def lockSays (p : Point) (c : Int) : Unlock :=
  match p.unlock with
  | some f => f c
  | none => .notSupported

/-- **C175**: for a connector that exists UnlockConnector tells what the application says of the lock (NotSupported if it
does not say); if, and only if, unlocking is not supported, a transaction runs and the configuration demands it, the
transaction is asked to stop. Assumed: the application does not end the transaction before its function returns. -/
theorem C175_partial (p : Point) (c : Int) (hc : IsConnector p.n c) (hs : p.stopsAtOnce = false) :
    onUnlock p c = (if p.unlock.isSome then [.unlock c] else []) ++ [.answer (lockSays p c)] ++
      (if lockSays p c = .notSupported ∧ p.active c = true ∧ p.ifUnsupported = true then [.stop c] else []) := by
  obtain ⟨h1, h2⟩ := hc
  have e1 : ¬ (c ≤ 0 ∨ (p.n : Int) < c) := by omega
  have e2 : ¬ (c < 0 ∨ (p.n : Int) < c) := by omega
  have e3 : unlockAnswer p c = (if p.unlock.isSome then [.unlock c] else [], lockSays p c) := by
    unfold unlockAnswer lockSays
    rw [if_neg e1]
    cases p.unlock <;> rfl
  unfold onUnlock
  rw [e3, if_neg e2, hs]
  simp only
  generalize (if p.unlock.isSome = true then [UOut.unlock c] else []) = l
  cases lockSays p c <;> cases p.active c <;> cases p.ifUnsupported <;> simp

example : IsConnector 2 1 ∧ onUnlock ⟨2, none, fun _ => true, true, false⟩ 1 = [.answer .notSupported, .stop 1] ∧
    onUnlock ⟨2, some fun _ => .unlocked, fun _ => true, true, false⟩ 1 = [.unlock 1, .answer .unlocked] := by
  refine ⟨⟨by decide, by decide⟩, by decide, by decide⟩

/-- **C175**: a connector that does not exist is never unlocked, the answer is NotSupported, and no transaction is asked to
stop, unless one runs at connector 0. -/
theorem C175_unknown_partial (p : Point) (c : Int) (hc : ¬ IsConnector p.n c) (h0 : p.active 0 = false) :
    onUnlock p c = [.answer .notSupported] ∨ onUnlock p c = [.answer .notSupported, .throws] := by
  have e1 : c ≤ 0 ∨ (p.n : Int) < c := by
    unfold IsConnector at hc
    omega
  unfold onUnlock unlockAnswer
  rw [if_pos e1]
  by_cases e2 : c < 0 ∨ (p.n : Int) < c
  · rw [if_pos e2]; exact Or.inr rfl
  · have : c = 0 := by omega
    subst this
    rw [if_neg e2, h0]
    exact Or.inl rfl

example : ¬ IsConnector 2 3 := by simp [IsConnector]

/-- **C175 (violated)**: an application that ends the transaction in the function it is asked with never gets out of it,
and neither does the charge point. -/
theorem C175_stuck_violated :
    onUnlock ⟨2, none, fun _ => true, true, true⟩ 1 = [.answer .notSupported, .stop 1, .stuck] := by decide

/-! ## Reservations -/

/-- `ReservationStatus` (include/ocpp/v16/ocpp_enums.hpp). -/
inductive Reserve
  | accepted | faulted | occupied | rejected | unavailable
  deriving DecidableEq, Repr

/-- The statuses of a connector that matter. -/
inductive Conn
  | faulted | preparing | other
  deriving DecidableEq, Repr

/-- The charge point: `status` is `status->get_state` (Unavailable, hence `other`, for numbers that are no connector),
`reserve` and `cancel` are the callbacks. -/
structure Desk where
  n : Nat
  status : Int → Conn
  reserve : Option (Int → Reserve)
  cancel : Option (Int → Bool)
  /-- SupportedFeatureProfiles contains "Reservation". -/
  profile : Bool
  /-- ReserveConnectorZeroSupported. -/
  zero : Bool

/-- What can be observed of a reservation. -/
inductive ROut
  | reserve (c : Int)
  | cancel (id : Int)
  | answer (s : Reserve)
  | cancelled (accepted : Bool)
  deriving DecidableEq, Repr

/-- `handleReserveNowRequest` (l.3112-3129). -/
def onReserve (d : Desk) (c : Int) : List ROut :=
  if d.status c = .faulted then [.answer .faulted]
  else if d.status c = .preparing then [.answer .occupied]
  else
    match d.reserve with
    | none => [.answer .rejected]
    | some f =>
      if d.profile then
        if c ≠ 0 || d.zero then [.reserve c, .answer (f c)] else [.answer .rejected]
      else [.answer .rejected]

/-- `handleCancelReservationRequest` (l.3131-3143). -/
def onCancel (d : Desk) (id : Int) : List ROut :=
  match d.cancel with
  | some f => [.cancel id, .cancelled (f id)]
  | none => [.cancelled false]

/-- **C176**: for a connector that exists, or the charge point as a whole: a faulted connector is not reserved, neither one
in front of which somebody stands; otherwise the application decides, if the charge point supports reservations, and those
of the charge point as a whole if they are about it; else the request is rejected. -/
theorem C176_partial (d : Desk) (c : Int) :
    (∀ s, .answer s ∈ onReserve d c → onReserve d c = [.answer s] ∨ onReserve d c = [.reserve c, .answer s]) ∧
    (.reserve c ∈ onReserve d c ↔
      d.status c = .other ∧ d.reserve.isSome ∧ d.profile = true ∧ (c = 0 → d.zero = true)) ∧
    (∀ f, d.reserve = some f → .reserve c ∈ onReserve d c → onReserve d c = [.reserve c, .answer (f c)]) ∧
    (.reserve c ∉ onReserve d c → onReserve d c = [.answer (match d.status c with
      | .faulted => .faulted
      | .preparing => .occupied
      | .other => .rejected)]) := by
  unfold onReserve
  cases hs : d.status c with
  | faulted => simp
  | preparing => simp
  | other =>
    cases hr : d.reserve with
    | none => simp
    | some f =>
      cases hp : d.profile with
      | false => simp
      | true =>
        by_cases h0 : c = 0
        · cases hz : d.zero <;> simp [h0]
        · simp [h0]

/-- **C176**: a reservation is cancelled exactly if the application says so. -/
theorem C176_cancel (d : Desk) (id : Int) :
    (∀ f, d.cancel = some f → onCancel d id = [.cancel id, .cancelled (f id)]) ∧
    (d.cancel = none → onCancel d id = [.cancelled false]) := by
  constructor
  · intro f hf; simp [onCancel, hf]
  · intro hf; simp [onCancel, hf]

example : onReserve ⟨2, fun _ => .other, some fun _ => .accepted, none, true, false⟩ 1 = [.reserve 1, .answer .accepted] ∧
    onReserve ⟨2, fun _ => .other, some fun _ => .accepted, none, true, false⟩ 0 = [.answer .rejected] := by decide

/-- **C176 (violated)**: the application is asked to reserve connectors that do not exist. -/
theorem C176_unknown_violated :
    onReserve ⟨2, fun _ => .other, some fun _ => .accepted, none, true, false⟩ 77 = [.reserve 77, .answer .accepted] ∧
    onReserve ⟨2, fun _ => .other, some fun _ => .accepted, none, true, false⟩ (-5) = [.reserve (-5), .answer .accepted] := by
  decide

end Verif.Req16
