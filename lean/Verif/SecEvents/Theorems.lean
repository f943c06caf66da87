import Verif.SecEvents.Model

/-! # C215, C216: security events -/

namespace Verif.SecEvents

/-! ## Specification -/

/-- The events marked critical in the OCPP 1.6 security whitepaper. -/
def critical16 : List String :=
  ["FirmwareUpdated", "SettingSystemTime", "StartupOfTheDevice", "ResetOrReboot", "SecurityLogWasCleared", "MemoryExhaustion",
   "TamperDetectionActivated"]

/-- The events marked critical in OCPP 2.x. -/
def critical2 : List String :=
  critical16 ++ ["InvalidFirmwareSignature", "InvalidFirmwareSigningCertificate", "InvalidCsmsCertificate",
    "InvalidChargingStationCertificate", "InvalidTLSVersion", "InvalidTLSCipherSuite", "MaintenanceLoginAccepted",
    "MaintenanceLoginFailed"]

/-- An event is critical: as it is said, otherwise by its name. -/
def Critical (v : Version) (type : String) : Option Bool → Prop
  | some b => b = true
  | none => match v with
    | .v16 => type ∈ critical16
    | .v2 => type ∈ critical2

/-- The central system may be told: always in 2.x, in 1.6 unless DisableSecurityEventNotifications. -/
def MayTell (v : Version) (s : State) : Prop :=
  match v with
  | .v16 => s.disabled = false
  | .v2 => True

/-- The effects of one event: it is in the security log once, it is sent once if `tell`, and the application is called once if `call`, each
with the type, the text and the time. In 1.6 the application gets an empty text for none. -/
structure Reported (v : Version) (effs : List Eff) (type : String) (tech : Option String) (time : Nat) (tell call : Prop) : Prop where
  logged : effs.count (.log type tech time) = 1
  sent : (tell → effs.count (.send type tech time) = 1) ∧ (¬ tell → ∀ a b c, Eff.send a b c ∉ effs)
  called : (call → effs.count (.call type (match v with | .v16 => some (tech.getD "") | .v2 => tech)) = 1) ∧
    (¬ call → ∀ a b, Eff.call a b ∉ effs)
  only : effs.length ≤ 3 ∧ ∀ e ∈ effs, e = .log type tech time ∨ e = .send type tech time ∨
    e = .call type (match v with | .v16 => some (tech.getD "") | .v2 => tech)

/-! ## Helper lemmas -/

theorem crit16 (e : String) : isCritical16 e = true ↔ e ∈ critical16 := by
  simp only [isCritical16, critical16, List.mem_cons, List.not_mem_nil, or_false]
  repeat (split; · simp_all)
  simp_all

theorem crit2 (e : String) : isCritical2 e = true ↔ e ∈ critical2 := by
  simp only [isCritical2, critical2, critical16, List.mem_cons, List.not_mem_nil, or_false, List.cons_append, List.nil_append]
  repeat (split; · simp_all)
  simp_all

theorem notify16_reported (s : State) (now : Nat) (type : String) (tech : Option String) (internal : Bool) (critical : Option Bool)
    (time : Option Nat) :
    Reported .v16 (notify16 s now type tech internal critical time) type tech (time.getD now)
      (Critical .v16 type critical ∧ s.disabled = false) (internal = true ∧ s.callback = true) := by
  have hc : critOf16 type critical = true ↔ Critical .v16 type critical := by
    cases critical with
    | none => exact crit16 type
    | some b => rfl
  unfold notify16
  dsimp only
  rw [← hc]
  generalize critOf16 type critical = c
  by_cases h1 : c = true ∧ s.disabled = false <;> by_cases h2 : internal = true ∧ s.callback = true <;>
    simp only [h1, h2, and_self, if_true, if_false] <;>
    constructor <;> simp_all [List.count_cons, shownTech]

theorem notify2_reported (s : State) (now : Nat) (type : String) (tech : Option String) (internal critical : Bool)
    (time : Option Nat) :
    Reported .v2 (notify2 s now type tech internal critical time) type tech (time.getD now)
      (critical = true) (internal = true ∧ s.callback = true) := by
  unfold notify2
  dsimp only
  by_cases h1 : critical = true <;> by_cases h2 : internal = true ∧ s.callback = true <;>
    simp only [h1, h2, and_self, if_true, if_false] <;>
    constructor <;> simp_all [List.count_cons]

theorem reported_congr {v effs type tech time} {p q p' q' : Prop} (h : Reported v effs type tech time p q) (hp : p ↔ p') (hq : q ↔ q') :
    Reported v effs type tech time p' q' := by
  rw [propext hp, propext hq] at h; exact h

/-! ## C215 -/

/-- **C215.** An event that the application reports is put into the security log, and is sent to the CSMS exactly if it is critical
(as said by the application, otherwise by its name) and, in 1.6, notifications are not disabled; the application is not called back. An
event of libocpp itself (here: the station could not authenticate) is treated in the same way, and the application is told. -/
theorem C215 (v : Version) (s : State) (now : Nat) :
    (∀ type tech critical time, Reported v (step v s now (.report type tech critical time)).2 type tech (time.getD now)
      (Critical v type critical ∧ MayTell v s) False) ∧
    Reported v (step v s now .failedAuth).2 "FailedToAuthenticateAtCsms" none now False (s.callback = true) := by
  constructor
  · intro type tech critical time
    cases v with
    | v16 =>
      exact reported_congr (notify16_reported s now type tech false critical time) Iff.rfl (by simp)
    | v2 =>
      cases critical with
      | none =>
        exact reported_congr (notify2_reported s now type tech false (isCritical2 type) time)
          ((crit2 type).trans (by simp [Critical, MayTell])) (by simp)
      | some b =>
        exact reported_congr (notify2_reported s now type tech false b time) (by simp [Critical, MayTell]) (by simp)
  · cases v with
    | v16 =>
      exact reported_congr (notify16_reported s now _ none true none none) (by simp [Critical, critical16]) (by simp)
    | v2 =>
      exact reported_congr (notify2_reported s now _ none true (isCritical2 _) none) (by decide) (by simp)

/-- **C215, start.** A start is reported with one critical event: after a firmware update as such, after a reset that was requested as a
reset. (2.x: if the firmware version has at most 180 bytes.) -/
theorem C215_start (s : State) (now : Nat) (fw : String) (r : Boot) (hfw : fw.utf8ByteSize ≤ 180) :
    ∃ type effs, boot2 s now fw r = some effs ∧
      (∃ tech, Reported .v2 effs type tech now True (s.callback = true)) ∧ type ∈ critical2 ∧
      (type = "FirmwareUpdated" ↔ r = .firmwareUpdate) ∧ (r = .remoteReset ∨ r = .scheduledReset → type = "ResetOrReboot") ∧
      (∃ type' tech, Reported .v16 (boot16 s now r) type' tech now (s.disabled = false) (s.callback = true) ∧ type' ∈ critical16 ∧
      (type' = "FirmwareUpdated" ↔ r = .firmwareUpdate) ∧ (r = .remoteReset ∨ r = .scheduledReset → type' = "ResetOrReboot")) := by
  have h2 : ∀ type tech, Reported .v2 (notify2 s now type tech true true none) type tech now True (s.callback = true) :=
    fun type tech => reported_congr (notify2_reported s now type tech true true none) (by simp) (by simp)
  have h1 : ∀ type tech, type ∈ critical16 →
      Reported .v16 (notify16 s now type tech true none none) type tech now (s.disabled = false) (s.callback = true) :=
    fun type tech h => reported_congr (notify16_reported s now type tech true none none) (by simp [Critical, h]) (by simp)
  have hf : ∀ pre : String, pre.utf8ByteSize ≤ 75 → fit255 (pre ++ fw) = some (pre ++ fw) := by
    intro pre hp
    unfold fit255
    rw [if_pos]
    rw [String.utf8ByteSize_append]; omega
  have k1 := hf "Charging Station powered up! Firmware version: " (by decide +kernel)
  have k2 := hf "Charging station reboot after firmware update. Firmware version: " (by decide +kernel)
  have k3 := hf "Charging station reset or reboot. Firmware version: " (by decide +kernel)
  cases r <;> simp only [boot2, k1, k2, k3, Option.map_some]
  case firmwareUpdate =>
    exact ⟨"FirmwareUpdated", _, rfl, ⟨_, h2 _ _⟩, by decide, by decide, by decide, "FirmwareUpdated", _, h1 _ _ (by decide), by decide,
      by decide, by decide⟩
  case remoteReset =>
    exact ⟨"ResetOrReboot", _, rfl, ⟨_, h2 _ _⟩, by decide, by decide, by decide, "ResetOrReboot", _, h1 _ _ (by decide), by decide,
      by decide, by decide⟩
  case scheduledReset =>
    exact ⟨"ResetOrReboot", _, rfl, ⟨_, h2 _ _⟩, by decide, by decide, by decide, "ResetOrReboot", _, h1 _ _ (by decide), by decide,
      by decide, by decide⟩
  case powerUp =>
    exact ⟨"StartupOfTheDevice", _, rfl, ⟨_, h2 _ _⟩, by decide, by decide, by decide, "StartupOfTheDevice", _, h1 _ _ (by decide),
      by decide, by decide, by decide⟩
  all_goals
    exact ⟨"ResetOrReboot", _, rfl, ⟨_, h2 _ _⟩, by decide, by decide, by decide, "StartupOfTheDevice", _, h1 _ _ (by decide),
      by decide, by decide, by decide⟩

example : (step .v16 ⟨false, true, false⟩ 5 (.report "ResetOrReboot" none none none)).2 =
      [.log "ResetOrReboot" none 5, .send "ResetOrReboot" none 5] ∧
    (step .v16 ⟨true, true, false⟩ 5 (.report "ResetOrReboot" none (some true) (some 3))).2 = [.log "ResetOrReboot" none 3] ∧
    (step .v2 ⟨true, true, false⟩ 5 (.report "InvalidTLSVersion" (some "x") none none)).2 =
      [.log "InvalidTLSVersion" (some "x") 5, .send "InvalidTLSVersion" (some "x") 5] ∧
    boot2 ⟨false, false, false⟩ 5 "1.0" .powerUp = some [.log "StartupOfTheDevice"
      (some "Charging Station powered up! Firmware version: 1.0") 5, .send "StartupOfTheDevice"
      (some "Charging Station powered up! Firmware version: 1.0") 5] := by decide +kernel

/-! ## C216: a certificate of the CSMS that cannot be verified -/

/-- The certificate failed before, and there was no connection since. -/
def FailedSince (hist : List (Nat × Input)) : Prop :=
  ∃ a b t, hist = a ++ (t, .failedCert) :: b ∧ ∀ x ∈ b, x.2 ≠ .connected

theorem skip_after (v : Version) : ∀ (hist : List (Nat × Input)) (s : State),
    ((after v s hist).skip = true ↔ FailedSince hist ∨ (s.skip = true ∧ ∀ x ∈ hist, x.2 ≠ .connected))
  | [], s => by
    simp only [after, FailedSince]
    constructor
    · intro h; exact Or.inr ⟨h, by simp⟩
    · rintro (⟨a, b, t, h, _⟩ | h)
      · simp at h
      · exact h.1
  | (now, i) :: l, s => by
    have ih := skip_after v l (step v s now i).1
    have hcons : FailedSince ((now, i) :: l) ↔ FailedSince l ∨ (i = .failedCert ∧ ∀ x ∈ l, x.2 ≠ .connected) := by
      constructor
      · rintro ⟨a, b, t, h, hb⟩
        cases a with
        | nil => simp at h; exact Or.inr ⟨h.1.2, by rw [h.2]; exact hb⟩
        | cons x a => simp at h; exact Or.inl ⟨a, b, t, h.2, hb⟩
      · rintro (⟨a, b, t, h, hb⟩ | ⟨rfl, hb⟩)
        · exact ⟨(now, i) :: a, b, t, by rw [h]; rfl, hb⟩
        · exact ⟨[], l, now, rfl, hb⟩
    rw [show after v s ((now, i) :: l) = after v (step v s now i).1 l from rfl, ih, hcons]
    cases i <;> simp only [step]
    case failedCert =>
      by_cases hs : s.skip = true
      · simp [hs]
      · simp [hs]
    all_goals simp

theorem run_get (v : Version) : ∀ (a b : List (Nat × Input)) (s : State) (now : Nat) (i : Input),
    (run v s (a ++ (now, i) :: b))[a.length]? = some (step v (after v s a) now i).2
  | [], b, s, now, i => rfl
  | (t, j) :: a, b, s, now, i => by
    simp only [List.cons_append, run, List.length_cons, List.getElem?_cons_succ, after]
    exact run_get v a b _ now i

/-- **C216.** In every history: when the certificate of the CSMS cannot be verified, this is reported exactly if it was not already since
the last connection (or the start); it is then sent to the CSMS (unless notifications are disabled in 1.6) although in 1.6 it has no
critical name. So a station that tries for hours reports it once. -/
theorem C216 (v : Version) (disabled callback : Bool) (a b : List (Nat × Input)) (now : Nat) :
    ∃ effs, (run v ⟨disabled, callback, false⟩ (a ++ (now, .failedCert) :: b))[a.length]? = some effs ∧
      (FailedSince a → effs = []) ∧
      (¬ FailedSince a → Reported v effs (match v with | .v16 => "InvalidCentralSystemCertificate" | .v2 => "InvalidCsmsCertificate") none
        now (MayTell v (after v ⟨disabled, callback, false⟩ a)) ((after v ⟨disabled, callback, false⟩ a).callback = true)) := by
  refine ⟨_, run_get v a b _ now .failedCert, ?_⟩
  have hs := skip_after v a ⟨disabled, callback, false⟩
  simp only [Bool.false_eq_true, false_and, or_false] at hs
  generalize after v ⟨disabled, callback, false⟩ a = s at hs ⊢
  refine ⟨fun h => ?_, fun h => ?_⟩
  · simp [step, hs.mpr h]
  · have : s.skip = false := by
      cases hk : s.skip with
      | false => rfl
      | true => exact absurd (hs.mp hk) h
    simp only [step, this, Bool.false_eq_true, if_false]
    cases v with
    | v16 => exact reported_congr (notify16_reported s now _ none true (some true) none) (by simp [Critical, MayTell]) (by simp)
    | v2 => exact reported_congr (notify2_reported s now _ none true true none) (by simp [MayTell]) (by simp)

/-- What the configuration and the application have said last. -/
theorem C216_settings (v : Version) (s : State) : ∀ (a : List (Nat × Input)),
    ((after v s a).callback = true ↔ s.callback = true ∨ ∃ t, (t, .register) ∈ a) ∧
    (∀ a1 a2 t d, a = a1 ++ (t, .setDisabled d) :: a2 → (∀ x ∈ a2, ∀ d', x.2 ≠ .setDisabled d') → (after v s a).disabled = d) := by
  intro a
  constructor
  · induction a generalizing s with
    | nil => simp [after]
    | cons x l ih =>
      obtain ⟨t, i⟩ := x
      rw [show after v s ((t, i) :: l) = after v (step v s t i).1 l from rfl, ih]
      cases i <;> simp only [step]
      case failedCert => split <;> simp
      all_goals simp
  · have keep : ∀ (l : List (Nat × Input)) (s : State), (∀ x ∈ l, ∀ d', x.2 ≠ .setDisabled d') → (after v s l).disabled = s.disabled := by
      intro l
      induction l with
      | nil => intro s _; rfl
      | cons x l ih =>
        intro s h
        obtain ⟨t, i⟩ := x
        rw [show after v s ((t, i) :: l) = after v (step v s t i).1 l from rfl,
          ih _ (fun y hy => h y (List.mem_cons_of_mem _ hy))]
        cases i <;> simp only [step]
        case failedCert => split <;> rfl
        case setDisabled d => exact absurd rfl (h _ List.mem_cons_self d)
    intro a1 a2 t d ha h2
    subst ha
    have happ : ∀ (l1 l2 : List (Nat × Input)) (s : State), after v s (l1 ++ l2) = after v (after v s l1) l2 := by
      intro l1
      induction l1 with
      | nil => intro l2 s; rfl
      | cons x l ih => intro l2 s; exact ih l2 _
    rw [happ]
    exact keep a2 _ h2

example : run .v16 ⟨false, false, false⟩ [(1, .failedCert), (2, .failedCert), (3, .connected), (4, .failedCert)] =
    [[.log "InvalidCentralSystemCertificate" none 1, .send "InvalidCentralSystemCertificate" none 1], [], [],
     [.log "InvalidCentralSystemCertificate" none 4, .send "InvalidCentralSystemCertificate" none 4]] := by decide

example : FailedSince [(1, .failedCert), (2, .failedAuth)] ∧ ¬ FailedSince [(1, .failedCert), (3, .connected)] := by
  refine ⟨⟨[], [(2, .failedAuth)], 1, rfl, by simp⟩, ?_⟩
  intro h
  have := (skip_after .v2 [(1, .failedCert), (3, .connected)] ⟨false, false, false⟩).mpr (Or.inl h)
  exact absurd this (by decide)

end Verif.SecEvents
