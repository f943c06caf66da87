import Verif.Recv.Results
import Verif.Wire.EnumTables

/-!
# Feature profiles of an OCPP 1.6 station (C257)

The setting SupportedFeatureProfiles: whether the station can be made with it, and which requests of the CSMS it then handles.
-/

namespace Verif.Recv

open Verif.Wire (J)

/-! ### The model -/

/-- `conversions::string_to_supported_feature_profiles` (lib/ocpp/v16/types.cpp l.462-498); `none` is `StringToEnumException`. -/
def profileNamed (x : List Char) : Option String := Wire.e_v16_SupportedFeatureProfiles.read (String.ofList x)

/-- The loop of lib/ocpp/v16/charge_point_configuration.cpp l.107-115; `none`: `std::runtime_error`. -/
def readProfiles : List (List Char) → Option (List String)
  | [] => some []
  | x :: r =>
    match profileNamed x with
    | none => none
    | some p => (readProfiles r).map (p :: ·)

/-- Sections of the configuration that are looked for. -/
structure Sections where
  pnc : Bool
  price : Bool
  custom : Bool

/-- The constructor of `ChargePointConfiguration` as far as it concerns the feature profiles (lib/ocpp/v16/charge_point_configuration.cpp l.98-141):
the profiles, or `none` if it throws.  `boost::split` gives at least one piece (`commaParts`); the set of profiles is a list.  What else the
constructor checks, before and after, is not modelled. -/
def profilesOf (value : Option (List Char)) (x : Sections) : Option (List String) :=
  match value with
  | none => none
  | some l =>
    let ps := if l = [] then some [] else (readProfiles (commaParts l)).map (fun ps => ps ++ ["Security", "Internal"] ++
      (if x.pnc then ["PnC"] else []) ++ (if x.price then ["CostAndPrice"] else []) ++ (if x.custom then ["Custom"] else []))
    match ps with
    | none => none
    | some ps => if "Core" ∈ ps then some ps else none

/-- The entry of `supported_message_types_from_central_system` (l.177-199) a profile selects; the others have none. -/
def featureOf (p : String) : Option Feature :=
  if p = "Core" then some .core
  else if p = "FirmwareManagement" then some .firmware
  else if p = "LocalAuthListManagement" then some .localList
  else if p = "RemoteTrigger" then some .remoteTrigger
  else if p = "Reservation" then some .reservation
  else if p = "SmartCharging" then some .smartCharging
  else if p = "Security" then some .security
  else none

/-- The loop of l.201-209. -/
def featuresOf (ps : List String) : List Feature := ps.filterMap featureOf

/-! ### Specification -/

/-- `x` is one of the texts between the commas of `l`. -/
def Between (x l : List Char) : Prop :=
  ∃ pre post, l = pre ++ x ++ post ∧ ',' ∉ x ∧ (pre = [] ∨ ∃ p, pre = p ++ [',']) ∧ (post = [] ∨ ∃ q, post = ',' :: q)

/-- The names of feature profiles: of OCPP 1.6 (edition 2, section 3.2), and those that libocpp adds. -/
def profileNames : List String :=
  ["Core", "FirmwareManagement", "LocalAuthListManagement", "Reservation", "SmartCharging", "RemoteTrigger",
   "Security", "Internal", "PnC", "CostAndPrice", "Custom"]

/-- The requests of a CSMS by feature profile: OCPP 1.6 (edition 2, section 3.2) and the security whitepaper. -/
def requestsOf : String → List String
  | "Core" => ["ChangeAvailability", "ChangeConfiguration", "ClearCache", "DataTransfer", "GetConfiguration", "RemoteStartTransaction",
      "RemoteStopTransaction", "Reset", "UnlockConnector"]
  | "FirmwareManagement" => ["GetDiagnostics", "UpdateFirmware"]
  | "LocalAuthListManagement" => ["GetLocalListVersion", "SendLocalList"]
  | "Reservation" => ["CancelReservation", "ReserveNow"]
  | "SmartCharging" => ["ClearChargingProfile", "GetCompositeSchedule", "SetChargingProfile"]
  | "RemoteTrigger" => ["TriggerMessage"]
  | "Security" => ["CertificateSigned", "DeleteCertificate", "ExtendedTriggerMessage", "GetInstalledCertificateIds", "GetLog", "InstallCertificate",
      "SignedUpdateFirmware"]
  | _ => []

/-- The request belongs to a profile in the list, or to those that are always handled: the requests of the security whitepaper, and GetLocalListVersion,
SendLocalList and ReserveNow, which have answers of their own for stations without the profile. -/
def Offered (l : List Char) (action : String) : Prop :=
  (∃ p, Between p.toList l ∧ action ∈ requestsOf p) ∨ action ∈ requestsOf "Security" ∨
    action ∈ ["GetLocalListVersion", "SendLocalList", "ReserveNow"]

/-! ### Proofs -/

theorem mem_commaParts (x : List Char) : ∀ l : List Char, x ∈ commaParts l ↔ Between x l := by
  have hne : ∀ l : List Char, commaParts l ≠ [] := by
    intro l
    cases l with
    | nil => simp [commaParts]
    | cons c r =>
      rw [commaParts]
      split
      · simp
      · split <;> simp
  -- the first part is what is before the first comma
  have hhead : ∀ l : List Char, ∃ p ps, commaParts l = p :: ps ∧ ',' ∉ p ∧ ((l = p ∧ ps = []) ∨ ∃ q, l = p ++ ',' :: q ∧ ps = commaParts q) := by
    intro l
    induction l with
    | nil => exact ⟨[], [], rfl, by simp, Or.inl ⟨rfl, rfl⟩⟩
    | cons c r ih =>
      rw [commaParts]
      by_cases hc : c = ','
      · rw [if_pos hc]
        exact ⟨[], commaParts r, rfl, by simp, Or.inr ⟨r, by rw [hc]; rfl, rfl⟩⟩
      · rw [if_neg hc]
        obtain ⟨p, ps, h1, h2, h3⟩ := ih
        rw [h1]
        refine ⟨c :: p, ps, rfl, ?_, ?_⟩
        · intro h
          rcases List.mem_cons.mp h with h | h
          · exact hc h.symm
          · exact h2 h
        · rcases h3 with ⟨h3, h4⟩ | ⟨q, h3, h4⟩
          · exact Or.inl ⟨by rw [h3], h4⟩
          · exact Or.inr ⟨q, by rw [h3]; rfl, h4⟩
  -- two ways to cut a text at its first comma are the same
  have hcut : ∀ (a b a' b' : List Char), ',' ∉ a → ',' ∉ a' → a ++ ',' :: b = a' ++ ',' :: b' → a = a' ∧ b = b' := by
    intro a
    induction a with
    | nil =>
      intro b a' b' _ h2 h
      cases a' with
      | nil => exact ⟨rfl, by simpa using h⟩
      | cons c a' =>
        simp only [List.nil_append, List.cons_append, List.cons.injEq] at h
        exact absurd (h.1 ▸ List.mem_cons_self ..) h2
    | cons c a ih =>
      intro b a' b' h1 h2 h
      cases a' with
      | nil =>
        simp only [List.nil_append, List.cons_append, List.cons.injEq] at h
        exact absurd (h.1 ▸ List.mem_cons_self ..) h1
      | cons d a' =>
        simp only [List.cons_append, List.cons.injEq] at h
        obtain ⟨e1, e2⟩ := ih b a' b' (fun hm => h1 (List.mem_cons_of_mem _ hm)) (fun hm => h2 (List.mem_cons_of_mem _ hm)) h.2
        exact ⟨by rw [h.1, e1], e2⟩
  intro l
  induction hn : l.length using Nat.strongRecOn generalizing l with
  | ind n ih =>
    obtain ⟨p, ps, h1, h2, h3⟩ := hhead l
    rw [h1, List.mem_cons]
    rcases h3 with ⟨h3, h4⟩ | ⟨q, h3, h4⟩
    · subst h3 h4
      simp only [List.not_mem_nil, or_false]
      constructor
      · intro h
        subst h
        exact ⟨[], [], by simp, h2, Or.inl rfl, Or.inl rfl⟩
      · rintro ⟨pre, post, e, _, e1, e2⟩
        have h0 : pre = [] := by
          rcases e1 with e1 | ⟨p, e1⟩
          · exact e1
          · exact absurd (by rw [e, e1]; simp) h2
        have h0' : post = [] := by
          rcases e2 with e2 | ⟨p, e2⟩
          · exact e2
          · exact absurd (by rw [e, e2]; simp) h2
        rw [e, h0, h0']
        simp
    · rw [h4, ih q.length (by rw [← hn, h3]; simp; omega) q rfl]
      constructor
      · rintro (h | ⟨pre, post, e, hx, e1, e2⟩)
        · subst h
          exact ⟨[], ',' :: q, by rw [h3]; simp, h2, Or.inl rfl, Or.inr ⟨q, rfl⟩⟩
        · refine ⟨p ++ ',' :: pre, post, by rw [h3, e]; simp, hx, Or.inr ?_, e2⟩
          rcases e1 with e1 | ⟨w, e1⟩
          · exact ⟨p, by rw [e1]⟩
          · exact ⟨p ++ ',' :: w, by rw [e1]; simp⟩
      · rintro ⟨pre, post, e, hx, e1, e2⟩
        rcases e1 with e1 | ⟨w, e1⟩
        · left
          subst e1
          rcases e2 with e2 | ⟨v, e2⟩
          · subst e2
            simp only [List.nil_append, List.append_nil] at e
            exact absurd (by rw [← e, h3]; simp) hx
          · subst e2
            rw [h3] at e
            exact (hcut _ _ _ _ h2 hx (by simpa using e)).1.symm
        · right
          -- the first comma of the text is in `pre`
          have hcw : ∀ w : List Char, ∃ a b, ',' ∉ a ∧ w ++ [','] = a ++ ',' :: b ∧ (b = [] ∨ ∃ y, b = y ++ [',']) := by
            intro w
            induction w with
            | nil => exact ⟨[], [], by simp, rfl, Or.inl rfl⟩
            | cons c w ihw =>
              by_cases hc : c = ','
              · exact ⟨[], w ++ [','], by simp, by rw [hc]; rfl, Or.inr ⟨w, rfl⟩⟩
              · obtain ⟨a, b, i1, i2, i3⟩ := ihw
                refine ⟨c :: a, b, ?_, by rw [List.cons_append, i2]; rfl, i3⟩
                intro h
                rcases List.mem_cons.mp h with h | h
                · exact hc h.symm
                · exact i1 h
          obtain ⟨a, b, i1, i2, i3⟩ := hcw w
          have he : p ++ ',' :: q = a ++ ',' :: (b ++ x ++ post) := by
            rw [← h3, e, e1, i2]; simp
          obtain ⟨_, hq⟩ := hcut _ _ _ _ h2 i1 he
          exact ⟨b, post, hq, hx, i3, e2⟩

theorem named_iff (x : List Char) (p : String) : profileNamed x = some p ↔ p.toList = x ∧ p ∈ profileNames := by
  have hread : ∀ s : String, Wire.e_v16_SupportedFeatureProfiles.read s = if s ∈ profileNames then some s else none := by
    intro s
    by_cases h : s ∈ profileNames
    · rw [if_pos h]
      have := List.all_eq_true.mp (show (profileNames.all fun s => Wire.e_v16_SupportedFeatureProfiles.read s == some s) = true from by decide +kernel) s h
      simpa using this
    · rw [if_neg h]
      simp only [profileNames, List.mem_cons, List.not_mem_nil, or_false, not_or] at h
      obtain ⟨h1, h2, h3, h4, h5, h6, h7, h8, h9, h10, h11⟩ := h
      simp [Wire.EnumTable.read, Wire.e_v16_SupportedFeatureProfiles, Wire.lookup, Ne.symm h1, Ne.symm h2, Ne.symm h3, Ne.symm h4, Ne.symm h5,
        Ne.symm h6, Ne.symm h7, Ne.symm h8, Ne.symm h9, Ne.symm h10, Ne.symm h11]
  unfold profileNamed
  rw [hread]
  constructor
  · intro h
    split at h
    · rename_i hm
      injection h with h
      subst h
      exact ⟨by simp, hm⟩
    · cases h
  · rintro ⟨h1, h2⟩
    subst h1
    rw [String.ofList_toList, if_pos h2]

theorem readProfiles_some : ∀ (l : List (List Char)) (ps : List String), readProfiles l = some ps →
    (∀ x ∈ l, ∃ p ∈ profileNames, p.toList = x) ∧ ∀ p, p ∈ ps ↔ p.toList ∈ l := by
  intro l
  induction l with
  | nil =>
    intro ps h
    cases h
    exact ⟨by simp, by simp⟩
  | cons x l ih =>
    intro ps h
    rw [readProfiles] at h
    cases hx : profileNamed x with
    | none => rw [hx] at h; cases h
    | some p =>
      rw [hx] at h
      obtain ⟨q, hq, rfl⟩ := Option.map_eq_some_iff.mp h
      obtain ⟨i1, i2⟩ := ih q hq
      obtain ⟨j1, j2⟩ := (named_iff x p).mp hx
      refine ⟨?_, ?_⟩
      · intro y hy
        rcases List.mem_cons.mp hy with hy | hy
        · exact ⟨p, j2, by rw [hy, j1]⟩
        · exact i1 y hy
      · intro r
        rw [List.mem_cons, List.mem_cons, i2]
        constructor
        · rintro (h | h)
          · exact Or.inl (by rw [h, j1])
          · exact Or.inr h
        · rintro (h | h)
          · exact Or.inl (String.toList_injective (by rw [h, j1]))
          · exact Or.inr h

theorem readProfiles_isSome : ∀ l : List (List Char), (∀ x ∈ l, ∃ p ∈ profileNames, p.toList = x) → ∃ ps, readProfiles l = some ps := by
  intro l
  induction l with
  | nil => intro _; exact ⟨[], rfl⟩
  | cons x l ih =>
    intro h
    obtain ⟨ps, hps⟩ := ih (fun y hy => h y (List.mem_cons_of_mem _ hy))
    obtain ⟨p, hp, hx⟩ := h x (List.mem_cons_self ..)
    exact ⟨p :: ps, by rw [readProfiles, (named_iff x p).mpr ⟨hx, hp⟩, hps]; rfl⟩

/-- The profiles of a station that can be made. -/
theorem profiles_mem {l : List Char} {x : Sections} {ps : List String} (h : profilesOf (some l) x = some ps) :
    (∀ y, Between y l → ∃ p ∈ profileNames, p.toList = y) ∧ Between "Core".toList l ∧
    ∀ p, p ∈ ps ↔ Between p.toList l ∨ p = "Security" ∨ p = "Internal" ∨ (x.pnc = true ∧ p = "PnC") ∨ (x.price = true ∧ p = "CostAndPrice") ∨
      (x.custom = true ∧ p = "Custom") := by
  unfold profilesOf at h
  dsimp only at h
  by_cases hl : l = []
  · rw [if_pos hl] at h
    simp at h
  · rw [if_neg hl] at h
    cases hr : readProfiles (commaParts l) with
    | none => rw [hr] at h; cases h
    | some qs =>
      rw [hr] at h
      simp only [Option.map_some] at h
      by_cases hc : "Core" ∈ qs ++ ["Security", "Internal"] ++ (if x.pnc then ["PnC"] else []) ++ (if x.price then ["CostAndPrice"] else []) ++
          (if x.custom then ["Custom"] else [])
      · rw [if_pos hc] at h
        injection h with h
        obtain ⟨i1, i2⟩ := readProfiles_some _ _ hr
        have hm : ∀ p, p ∈ ps ↔ Between p.toList l ∨ p = "Security" ∨ p = "Internal" ∨ (x.pnc = true ∧ p = "PnC") ∨
            (x.price = true ∧ p = "CostAndPrice") ∨ (x.custom = true ∧ p = "Custom") := by
          intro p
          have hif : ∀ (b : Bool) (s : String), p ∈ (if b = true then [s] else []) ↔ b = true ∧ p = s := by
            intro b s; cases b <;> simp
          rw [← h, List.mem_append, List.mem_append, List.mem_append, List.mem_append, hif, hif, hif, i2, mem_commaParts]
          simp only [List.mem_cons, List.not_mem_nil, or_false, or_assoc]
        refine ⟨fun y hy => i1 y ((mem_commaParts y l).mpr hy), ?_, hm⟩
        rw [h] at hc
        rcases (hm "Core").mp hc with hc | hc | hc | hc | hc | hc
        · exact hc
        · exact absurd hc (by decide)
        · exact absurd hc (by decide)
        · exact absurd hc.2 (by decide)
        · exact absurd hc.2 (by decide)
        · exact absurd hc.2 (by decide)
      · rw [if_neg hc] at h
        cases h

/-- What the table of the code says about the requests of the standard. -/
theorem messages_requests {n : String} (hn : n ∈ requests16) {a : A16} (ha : A16.ofName n = some a) (p : String) :
    (∃ f, featureOf p = some f ∧ f.messages.contains a = true) ↔ n ∈ requestsOf p := by
  have hall : ∀ q ∈ ["Core", "FirmwareManagement", "LocalAuthListManagement", "Reservation", "SmartCharging", "RemoteTrigger", "Security"],
      ∀ n ∈ requests16, (match A16.ofName n, featureOf q with
        | some a, some f => f.messages.contains a == (requestsOf q).contains n
        | _, _ => false) = true := by decide +kernel
  by_cases hp : p ∈ ["Core", "FirmwareManagement", "LocalAuthListManagement", "Reservation", "SmartCharging", "RemoteTrigger", "Security"]
  · have := hall p hp n hn
    rw [ha] at this
    cases hf : featureOf p with
    | none => rw [hf] at this; cases this
    | some f =>
      rw [hf] at this
      have hc : f.messages.contains a = (requestsOf p).contains n := by simpa using this
      constructor
      · rintro ⟨g, hg, h⟩
        injection hg with hg
        subst hg
        rw [hc] at h
        simpa using h
      · intro h
        exact ⟨f, rfl, by rw [hc]; simpa using h⟩
  · simp only [List.mem_cons, List.not_mem_nil, or_false, not_or] at hp
    obtain ⟨h1, h2, h3, h4, h5, h6, h7⟩ := hp
    have hf : featureOf p = none := by simp [featureOf, h1, h2, h3, h4, h5, h6, h7]
    rw [hf]
    have hr : requestsOf p = [] := by
      unfold requestsOf
      split
      all_goals first | rfl | (exfalso; simp_all; done)
    rw [hr]
    simp

theorem supported_iff {l : List Char} {x : Sections} {ps : List String} (h : profilesOf (some l) x = some ps) {n : String} (hn : n ∈ requests16)
    {a : A16} (ha : A16.ofName n = some a) : supported (featuresOf ps) a = true ↔ Offered l n := by
  obtain ⟨-, -, hm⟩ := profiles_mem h
  have halways : [A16.getLocalListVersion, .sendLocalList, .reserveNow].contains a = true ↔ n ∈ ["GetLocalListVersion", "SendLocalList", "ReserveNow"] := by
    have := List.all_eq_true.mp (show (requests16.all fun n => match A16.ofName n with
      | some a => [A16.getLocalListVersion, .sendLocalList, .reserveNow].contains a == ["GetLocalListVersion", "SendLocalList", "ReserveNow"].contains n
      | none => false) = true from by decide +kernel) n hn
    rw [ha] at this
    have hc : [A16.getLocalListVersion, .sendLocalList, .reserveNow].contains a = ["GetLocalListVersion", "SendLocalList", "ReserveNow"].contains n := by
      simpa using this
    rw [hc]
    exact List.contains_iff_mem
  have hany : (featuresOf ps).any (fun f => f.messages.contains a) = true ↔ ∃ p ∈ ps, n ∈ requestsOf p := by
    rw [List.any_eq_true]
    constructor
    · rintro ⟨f, hf, hc⟩
      obtain ⟨p, hp, hpf⟩ := List.mem_filterMap.mp hf
      exact ⟨p, hp, (messages_requests hn ha p).mp ⟨f, hpf, hc⟩⟩
    · rintro ⟨p, hp, hr⟩
      obtain ⟨f, hf, hc⟩ := (messages_requests hn ha p).mpr hr
      exact ⟨f, List.mem_filterMap.mpr ⟨p, hp, hf⟩, hc⟩
  unfold supported Offered
  rw [Bool.or_eq_true, hany, halways]
  constructor
  · rintro (⟨p, hp, hr⟩ | h)
    · rcases (hm p).mp hp with h | h | h | h | h | h
      · exact Or.inl ⟨p, h, hr⟩
      · exact Or.inr (Or.inl (h ▸ hr))
      · rw [h] at hr; exact absurd hr (by simp [requestsOf])
      · rw [h.2] at hr; exact absurd hr (by simp [requestsOf])
      · rw [h.2] at hr; exact absurd hr (by simp [requestsOf])
      · rw [h.2] at hr; exact absurd hr (by simp [requestsOf])
    · exact Or.inr (Or.inr h)
  · rintro (⟨p, hp, hr⟩ | h | h)
    · exact Or.inl ⟨p, (hm p).mpr (Or.inl hp), hr⟩
    · exact Or.inl ⟨"Security", (hm _).mpr (Or.inr (Or.inl rfl)), h⟩
    · exact Or.inr h

/-! ### The theorems -/

/-- **C257**: with which values of SupportedFeatureProfiles a station can be made: the setting is there, every text between its commas is the name of a
feature profile, and one of them is Core. -/
theorem C257_made (value : Option (List Char)) (x : Sections) :
    profilesOf value x ≠ none ↔ ∃ l, value = some l ∧ (∀ y, Between y l → ∃ p ∈ profileNames, p.toList = y) ∧ Between "Core".toList l := by
  constructor
  · intro h
    cases value with
    | none => exact absurd rfl h
    | some l =>
      cases hp : profilesOf (some l) x with
      | none => exact absurd hp h
      | some ps => exact ⟨l, rfl, (profiles_mem hp).1, (profiles_mem hp).2.1⟩
  · rintro ⟨l, rfl, h1, h2⟩ hno
    have hl : l ≠ [] := by
      intro hl
      subst hl
      obtain ⟨pre, post, e, _⟩ := h2
      have := congrArg List.length e
      simp at this
    obtain ⟨ps, hps⟩ := readProfiles_isSome (commaParts l) (fun y hy => h1 y ((mem_commaParts y l).mp hy))
    unfold profilesOf at hno
    dsimp only at hno
    rw [if_neg hl, hps] at hno
    simp only [Option.map_some] at hno
    have hin : "Core" ∈ ps := ((readProfiles_some _ _ hps).2 "Core").mpr ((mem_commaParts _ _).mpr h2)
    rw [if_pos (by simp [hin])] at hno
    cases hno

/-- **C257**: such a station refuses a request of the standard that it does not offer, whatever its state is. -/
theorem C257_refused (l : List Char) (x : Sections) (ps : List String) (h : profilesOf (some l) x = some ps) (s : S16) (hs : s.features = featuresOf ps)
    (t : Option J) (id action : String) (ht : IsRequest t id action) (hn : action ∈ requests16) (ho : ¬ Offered l action) :
    Refused (callback16 s t) id := by
  have hall := List.all_eq_true.mp (show (requests16.all fun n => (A16.ofName n).isSome) = true from by decide +kernel) action hn
  obtain ⟨a, ha⟩ := Option.isSome_iff_exists.mp hall
  refine C138_16_refused s t id action a ht ha ?_
  rw [hs]
  cases hsup : supported (featuresOf ps) a with
  | false => rfl
  | true => exact absurd ((supported_iff h hn ha).mp hsup) ho

/-- **C257**: and one that it offers it handles: when nothing goes wrong it is answered with a CALLRESULT. -/
theorem C257_handled (l : List Char) (x : Sections) (ps : List String) (h : profilesOf (some l) x = some ps) (s : S16) (hs : s.features = featuresOf ps)
    (hc : s.conn = .booted ∨ s.conn = .pending ∧ s.reg = .pending) (hv : Calm s.env)
    (t : Option J) (id action : String) (ht : IsRequest t id action) (hn : action ∈ requests16) (ho : Offered l action)
    (hunlock : action = "UnlockConnector" → ∃ l c, t = some (.arr l) ∧ connectorOf l = some c ∧ 0 ≤ c ∧ c ≤ (s.connectors : Int)) :
    Granted (callback16 s t) id := by
  have hall := List.all_eq_true.mp (show (requests16.all fun n => (A16.ofName n).isSome && !decide (EndsInResponse n)) = true from by decide +kernel) action hn
  simp only [Bool.and_eq_true, Bool.not_eq_true', decide_eq_false_iff_not] at hall
  obtain ⟨a, ha⟩ := Option.isSome_iff_exists.mp hall.1
  exact C138_16_result s hc hv t id action a ht ha hall.2 (by rw [hs]; exact (supported_iff h hn ha).mpr ho) hunlock

/-- A station with three profiles; a comma at the end of the list, a blank in it, or a list without Core cannot be used. -/
example : profilesOf (some "Core,SmartCharging,RemoteTrigger".toList) ⟨true, false, false⟩ =
      some ["Core", "SmartCharging", "RemoteTrigger", "Security", "Internal", "PnC"] ∧
    profilesOf (some "Core,".toList) ⟨false, false, false⟩ = none ∧ profilesOf (some "Core, SmartCharging".toList) ⟨false, false, false⟩ = none ∧
    profilesOf (some "SmartCharging".toList) ⟨false, false, false⟩ = none ∧
    supported (featuresOf ["Core", "SmartCharging", "RemoteTrigger", "Security", "Internal", "PnC"]) .getDiagnostics = false := by
  decide +kernel

end Verif.Recv
