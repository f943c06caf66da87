import Verif.CertOps.Model

/-!
# C212–C214: certificates

Specification: the names of types and algorithms (`name`), what the security module accepts (`Module.accepts`), and what a truthful
handling of a request is (`Truthful`).
-/

namespace Verif.CertOps

open Verif.Sec (CertType Policy mayInstall)

/-! ## Specification -/

/-- Names of root certificates, as in the messages. -/
def LCa.name : LCa → String
  | .v2g => "V2GRootCertificate"
  | .mo => "MORootCertificate"
  | .csms => "CSMSRootCertificate"
  | .mf => "ManufacturerRootCertificate"

def _root_.Verif.Sec.CertType.name : CertType → String
  | .v2gRoot => "V2GRootCertificate"
  | .moRoot => "MORootCertificate"
  | .csmsRoot => "CSMSRootCertificate"
  | .manufacturerRoot => "ManufacturerRootCertificate"
  | .oemRoot => "OEMRootCertificate"

def LType.name : LType → String
  | .v2gRoot => "V2GRootCertificate"
  | .moRoot => "MORootCertificate"
  | .csmsRoot => "CSMSRootCertificate"
  | .v2gChain => "V2GCertificateChain"
  | .mfRoot => "ManufacturerRootCertificate"

def IdUse.name : IdUse → String
  | .v2gRoot => "V2GRootCertificate"
  | .moRoot => "MORootCertificate"
  | .csmsRoot => "CSMSRootCertificate"
  | .v2gChain => "V2GCertificateChain"
  | .manufacturerRoot => "ManufacturerRootCertificate"
  | .oemRoot => "OEMRootCertificate"

def LAlg.name : LAlg → String
  | .sha256 => "SHA256"
  | .sha384 => "SHA384"
  | .sha512 => "SHA512"

/-- The central system of 1.6 is the CSMS. -/
def Use16.name : Use16 → String
  | .centralSystemRoot => "CSMSRootCertificate"
  | .manufacturerRoot => "ManufacturerRootCertificate"

/-- A hash of the module as it is to be reported. -/
def LHash.shown (h : LHash) : HashW := ⟨h.alg.name, h.name, h.key, h.serial⟩

/-- A certificate of the module as it is to be reported (2.x): children only if there are any. -/
def LChain.shown (c : LChain) : ChainW :=
  ⟨some c.type.name, c.hash.shown, if c.children = [] then none else some (c.children.map LHash.shown)⟩

/-- The same in 1.6: the hash only. -/
def LChain.shown16 (c : LChain) : ChainW := ⟨none, c.hash.shown, none⟩

/-- The hash of a request names this certificate of the module. -/
def Names (h : Hash) (l : LHash) : Prop := l.shown = ⟨h.alg.wire, h.name, h.key, h.serial⟩

/-- The limits of OCPP for the members of a hash. -/
def LHash.Fits (h : LHash) : Prop := h.name.utf8ByteSize ≤ 128 ∧ h.key.utf8ByteSize ≤ 128 ∧ h.serial.utf8ByteSize ≤ 40

def LChain.Fits (c : LChain) : Prop := c.hash.Fits ∧ ∀ h ∈ c.children, h.Fits

/-- The module does what it is asked for; for a list: there is something to list. -/
def Module.accepts (m : Module) : Ask → Prop
  | .install c t => m.install c t = .accepted
  | .leaf c t => m.leaf c t = .accepted
  | .delete h => m.delete h = .accepted
  | .list ts => m.list ts ≠ []

/-- Requests to the module that change something. -/
def Ask.changes : Ask → Bool
  | .list _ => false
  | _ => true

/-- Answers and CALLERRORs. -/
def Ev.isReply : Ev → Bool
  | .answer _ _ | .exc _ => true
  | _ => false

def Ev.isAsk : Ev → Bool
  | .asked _ => true
  | _ => false

/-- A request is handled truthfully: there is exactly one reply and at most one request to the module; the answer is 'Accepted' exactly
if the module accepted; and after an exception nothing was changed. -/
structure Truthful (m : Module) (evs : List Ev) : Prop where
  one : (evs.filter Ev.isReply).length = 1
  asks : (evs.filter Ev.isAsk).length ≤ 1
  accepted : ∀ st c, .answer st c ∈ evs → (st = "Accepted" ↔ ∃ a, .asked a ∈ evs ∧ m.accepts a)
  exc : ∀ e, .exc e ∈ evs → ∀ a, .asked a ∈ evs → a.changes = false

/-! ## Helper lemmas -/

theorem installRes_wire (r : LInstall) : (r.ocpp.wire = "Accepted" ↔ r = .accepted) := by cases r <;> decide

theorem installRes_acc (r : LInstall) : (r.ocpp = .accepted ↔ r = .accepted) := by cases r <;> decide

theorem install16_acc (r : LInstall) : (install16Status r.ocpp = "Accepted" ↔ r = .accepted) := by cases r <;> decide

theorem deleteRes_wire (r : LDelete) : (r.ocpp.wire = "Accepted" ↔ r = .accepted) := by cases r <;> decide

theorem wire_type (t : LType) : t.ocpp.wire = t.name := by cases t <;> rfl

theorem wire_alg (a : LAlg) : a.ocpp.wire = a.name := by cases a <;> rfl

theorem names_lib (h : Hash) : Names h h.lib := by
  rcases h with ⟨a, n, k, s⟩
  cases a <;> rfl

theorem ocpp_fits (h : LHash) (hf : h.Fits) : ∃ k, h.ocpp = .ok k ∧ k.wire = h.shown := by
  rcases h with ⟨a, n, k, s⟩
  obtain ⟨h1, h2, h3⟩ := hf
  refine ⟨⟨a.ocpp, n, k, s⟩, ?_, by simp [Hash.wire, LHash.shown, wire_alg]⟩
  simp only at h1 h2 h3
  simp [LHash.ocpp, fit, h1, h2, h3, bind, Except.bind, pure, Except.pure]

theorem ocpp_sound (h : LHash) (k : Hash) (he : h.ocpp = .ok k) : k.wire = h.shown := by
  by_cases hf : h.Fits
  · obtain ⟨k', h1, h2⟩ := ocpp_fits h hf
    rw [he] at h1
    injection h1 with h1
    rw [h1, h2]
  · rcases h with ⟨a, n, ke, s⟩
    simp only [LHash.Fits] at hf
    simp only [LHash.ocpp, fit, bind, Except.bind, pure, Except.pure] at he
    by_cases h1 : n.utf8ByteSize ≤ 128
    · by_cases h2 : ke.utf8ByteSize ≤ 128
      · by_cases h3 : s.utf8ByteSize ≤ 40
        · exact absurd ⟨h1, h2, h3⟩ hf
        · simp [h1, h2, h3] at he
      · simp [h1, h2] at he
    · simp [h1] at he

theorem mapM_map {α β γ : Type} (f : α → Except Exc β) (g : β → γ) (s : α → γ) (hs : ∀ a b, f a = .ok b → g b = s a) :
    ∀ (l : List α) (r : List β), l.mapM f = .ok r → r.map g = l.map s
  | [], r, h => by
    simp only [List.mapM_nil, pure, Except.pure] at h
    injection h with h; subst h; rfl
  | a :: l, r, h => by
    rw [List.mapM_cons] at h
    cases ha : f a with
    | error e => rw [ha] at h; cases h
    | ok b =>
      rw [ha] at h
      cases hl : l.mapM f with
      | error e => rw [hl] at h; cases h
      | ok bs =>
        rw [hl] at h
        simp only [bind, Except.bind, pure, Except.pure] at h
        injection h with h
        subst h
        rw [List.map_cons, List.map_cons, hs _ _ ha, mapM_map f g s hs l bs hl]

theorem mapM_total {α β : Type} (f : α → Except Exc β) : ∀ (l : List α), (∀ a ∈ l, ∃ b, f a = .ok b) → ∃ r, l.mapM f = .ok r
  | [], _ => ⟨[], rfl⟩
  | a :: l, h => by
    obtain ⟨b, hb⟩ := h a List.mem_cons_self
    obtain ⟨bs, hbs⟩ := mapM_total f l (fun x hx => h x (List.mem_cons_of_mem _ hx))
    refine ⟨b :: bs, ?_⟩
    rw [List.mapM_cons, hb, hbs]; rfl

theorem chain_sound (c : LChain) (k : Chain) (he : c.ocpp = .ok k) :
    k.wire = c.shown ∧ (⟨none, k.hash.wire, none⟩ : ChainW) = c.shown16 := by
  simp only [LChain.ocpp, bind, Except.bind, pure, Except.pure] at he
  cases hh : c.hash.ocpp with
  | error e => rw [hh] at he; cases he
  | ok h =>
    rw [hh] at he
    cases hc : c.children.mapM LHash.ocpp with
    | error e => simp only [hc] at he; cases he
    | ok cs =>
      simp only [hc] at he
      injection he with he
      subst he
      have hw := ocpp_sound _ _ hh
      have hm := mapM_map LHash.ocpp Hash.wire LHash.shown ocpp_sound _ _ hc
      refine ⟨?_, by simp [LChain.shown16, hw]⟩
      simp only [Chain.wire, LChain.shown, wire_type, hw]
      cases cs with
      | nil =>
        have : c.children = [] := by
          cases hcc : c.children with
          | nil => rfl
          | cons a l => rw [hcc] at hm; cases hm
        simp [this, childrenWire]
      | cons a l =>
        have : c.children ≠ [] := by
          intro h0; rw [h0] at hm; cases hm
        simp only [childrenWire, this, if_false, hm]

theorem chain_fits (c : LChain) (hf : c.Fits) : ∃ k, c.ocpp = .ok k := by
  obtain ⟨h, hh, _⟩ := ocpp_fits _ hf.1
  obtain ⟨cs, hcs⟩ := mapM_total LHash.ocpp c.children (fun a ha => by
    obtain ⟨k, hk, _⟩ := ocpp_fits _ (hf.2 a ha); exact ⟨k, hk⟩)
  exact ⟨⟨c.type.ocpp, h, some cs⟩, by simp only [LChain.ocpp, bind, Except.bind, pure, Except.pure, hh, hcs]⟩

/-- Neither a reply nor a request to the module. -/
def Ev.quiet : Ev → Bool
  | .secEvent _ _ | .reconnect | .ocsp | .links => true
  | _ => false

theorem quiet_reply : ∀ (l : List Ev), l.all Ev.quiet = true → l.filter Ev.isReply = [] ∧ l.filter Ev.isAsk = [] ∧
    (∀ st c, .answer st c ∉ l) ∧ (∀ e, .exc e ∉ l) ∧ ∀ a, .asked a ∉ l
  | [], _ => ⟨rfl, rfl, by simp, by simp, by simp⟩
  | e :: l, h => by
    rw [List.all_cons, Bool.and_eq_true] at h
    obtain ⟨h1, h2, h3, h4, h5⟩ := quiet_reply l h.2
    cases e
    case asked | answer | exc => exact absurd h.1 (by simp [Ev.quiet])
    all_goals exact ⟨by simpa [Ev.isReply] using h1, by simpa [Ev.isAsk] using h2, by simpa using h3, by simpa using h4, by simpa using h5⟩

/-- One request to the module, answered with the result. -/
theorem truthful_answer (m : Module) (pre post : List Ev) (a : Ask) (st : String) (c : Option (List ChainW))
    (hpre : pre.all Ev.quiet = true) (hpost : post.all Ev.quiet = true) (hacc : st = "Accepted" ↔ m.accepts a) :
    Truthful m ([.asked a] ++ pre ++ [.answer st c] ++ post) ∧
    ∀ b, .asked b ∈ [.asked a] ++ pre ++ [.answer st c] ++ post ↔ b = a := by
  obtain ⟨h1, h2, h3, h4, h5⟩ := quiet_reply pre hpre
  obtain ⟨k1, k2, k3, k4, k5⟩ := quiet_reply post hpost
  have hm : ∀ b, .asked b ∈ [.asked a] ++ pre ++ [.answer st c] ++ post ↔ b = a := by
    intro b; simp [h5, k5]
  refine ⟨⟨?_, ?_, ?_, ?_⟩, hm⟩
  · rw [List.filter_append, List.filter_append, List.filter_append, h1, k1]; rfl
  · rw [List.filter_append, List.filter_append, List.filter_append, h2, k2]; exact Nat.le_refl 1
  · intro st' c' h
    have : st' = st := by simp [h3, k3] at h; exact h.1
    rw [this, hacc]
    exact ⟨fun h => ⟨a, (hm a).mpr rfl, h⟩, fun ⟨b, hb, h⟩ => by rw [(hm b).mp hb] at h; exact h⟩
  · intro e h
    simp [h4, k4] at h

/-! ## C212: installing, deleting and signing -/

/-- The request to the module, if there is one, is for this certificate and type. -/
def AsksInstall (cert name : String) (evs : List Ev) : Prop :=
  ∀ a, .asked a ∈ evs → ∃ t, a = .install cert t ∧ t.name = name

/-- **C212, InstallCertificate.** In all versions: the answer is truthful, and if the module is asked, then to install this certificate
as one of the type named in the request. -/
theorem C212_install (m : Module) (cert : String) :
    (∀ p t, Truthful m (install2 m p t cert) ∧ AsksInstall cert t.name (install2 m p t cert)) ∧
    (∀ t, Truthful m (install16 m t cert) ∧ AsksInstall cert t.name (install16 m t cert)) ∧
    (∀ t, Truthful m (installPEvs m t cert) ∧ AsksInstall cert t.name (installPEvs m t cert)) := by
  have hexc : Truthful m ([] ++ [.exc .enum]) ∧ AsksInstall cert "OEMRootCertificate" ([] ++ [.exc .enum]) :=
    ⟨⟨rfl, Nat.zero_le 1, by simp, by simp⟩, by simp [AsksInstall]⟩
  have key : ∀ (lc : LCa) pre st post, pre.all Ev.quiet = true → post.all Ev.quiet = true →
      (st = "Accepted" ↔ m.install cert lc = .accepted) → ∀ n, lc.name = n →
      Truthful m ([.asked (.install cert lc)] ++ pre ++ [.answer st none] ++ post) ∧
      AsksInstall cert n ([.asked (.install cert lc)] ++ pre ++ [.answer st none] ++ post) := by
    intro lc pre st post h1 h2 h3 n hn
    obtain ⟨h, k⟩ := truthful_answer m pre post (.install cert lc) st none h1 h2 h3
    exact ⟨h, fun b hb => ⟨lc, (k b).mp hb, hn⟩⟩
  refine ⟨fun p t => ?_, fun t => ?_, fun t => ?_⟩
  · unfold install2
    by_cases hp : mayInstall p t = true
    · simp only [hp, Bool.not_true, Bool.false_eq_true, if_false]
      cases t
      case oemRoot => exact hexc
      all_goals
        simp only [useCa, installCa, Ca.lib]
        rw [← List.append_nil (_ ++ _ ++ [_])]
        refine key _ _ _ _ ?_ rfl (installRes_wire _) _ rfl
        split <;> rfl
    · simp only [hp, Bool.not_false, if_true]
      exact ⟨⟨rfl, Nat.zero_le 1, by simp, by simp⟩, by simp [AsksInstall]⟩
  · unfold install16
    cases t
    all_goals
      simp only [ca16, installCa, Ca.lib]
      refine key _ [] _ _ rfl ?_ (install16_acc _) _ rfl
      split <;> rfl
  · unfold installPEvs
    cases t
    case oemRoot => exact hexc
    all_goals
      simp only [useCa, installCa, Ca.lib]
      exact key _ [] _ [] rfl rfl (installRes_wire _) _ rfl

/-- **C212, DeleteCertificate.** The certificate deleted is the one named in the request, and the answer says what the module did. -/
theorem C212_delete (m : Module) (h : Hash) :
    (Truthful m (delete2 m h) ∧ ∀ a, .asked a ∈ delete2 m h → ∃ l, a = .delete l ∧ Names h l) ∧
    (Truthful m (delete16 m h) ∧ ∀ a, .asked a ∈ delete16 m h → ∃ l, a = .delete l ∧ Names h l) ∧
    (∀ st, .answer st none ∈ delete2 m h → ∃ l, Names h l ∧ (st = "NotFound" ↔ m.delete l = .notFound) ∧
      (st = "Failed" ↔ m.delete l = .failed)) := by
  have h2 := truthful_answer m (if (m.delete h.lib).ocpp.wire = "Accepted" then
      [.secEvent "ReconfigurationOfSecurityParameters" false] else []) [] (.delete h.lib) _ none (by split <;> rfl) rfl
      (deleteRes_wire (m.delete h.lib))
  rw [List.append_nil] at h2
  have h16 := truthful_answer m [] [] (.delete h.lib) _ none rfl rfl (deleteRes_wire (m.delete h.lib))
  refine ⟨⟨h2.1, fun a ha => ⟨_, (h2.2 a).mp ha, names_lib h⟩⟩, ⟨h16.1, fun a ha => ⟨_, (h16.2 a).mp ha, names_lib h⟩⟩, ?_⟩
  intro st hs
  refine ⟨h.lib, names_lib h, ?_⟩
  have : st = (m.delete h.lib).ocpp.wire := by
    unfold delete2 at hs
    dsimp only at hs
    split at hs <;> simpa using hs
  rw [this]
  cases m.delete h.lib <;> decide

/-- The kind of leaf certificate a CertificateSigned.req is for: by default that of the station. -/
def leafOf : Option SigningUse → LLeaf
  | none | some .chargingStation => .csms
  | some .v2g | some .v2g20 => .v2g

/-- **C212, CertificateSigned.** The chain of the request is handed to the module for the certificate the request is for, and the answer
says whether the module accepted it. -/
theorem C212_signed (m : Module) (chain : String) :
    (∀ t links profile, Truthful m (certificateSigned2 m t chain links profile) ∧
      ∀ a, .asked a ∈ certificateSigned2 m t chain links profile ↔ a = .leaf chain (leafOf t)) ∧
    (∀ profile, Truthful m (certificateSigned16 m chain profile) ∧
      ∀ a, .asked a ∈ certificateSigned16 m chain profile ↔ a = .leaf chain .csms) := by
  have hst : ∀ lt, ((if (m.leaf chain lt).ocpp = .accepted then "Accepted" else "Rejected") = "Accepted" ↔
      m.leaf chain lt = .accepted) := by
    intro lt; cases m.leaf chain lt <;> decide
  refine ⟨fun t links profile => ?_, fun profile => ?_⟩
  · have key : ∀ u lt, Truthful m ([.asked (.leaf chain lt)] ++ afterSigned2 u links profile (m.leaf chain lt).ocpp) ∧
        ∀ a, .asked a ∈ [.asked (.leaf chain lt)] ++ afterSigned2 u links profile (m.leaf chain lt).ocpp ↔ a = .leaf chain lt := by
      intro u lt
      have := truthful_answer m
        ((if (m.leaf chain lt).ocpp = .accepted ∧ u = .v2g then [.ocsp] else []) ++ (if u = .v2g ∧ links = true then [.links] else []))
        ((if (m.leaf chain lt).ocpp ≠ .accepted then [.secEvent "InvalidChargingStationCertificate" true] else []) ++
          (if (if (m.leaf chain lt).ocpp = .accepted then "Accepted" else "Rejected") = "Accepted" ∧ u = .chargingStation ∧ profile = 3
            then [.reconnect, .secEvent "ReconfigurationOfSecurityParameters" false] else []))
        (.leaf chain lt) _ none (by split <;> split <;> rfl) (by
          generalize (if (m.leaf chain lt).ocpp = .accepted then "Accepted" else "Rejected") = st
          split <;> split <;> rfl) (hst lt)
      simpa only [afterSigned2, List.append_assoc] using this
    rcases t with _ | (_ | _ | _)
    · exact key .chargingStation .csms
    · exact key .chargingStation .csms
    · exact key .v2g .v2g
    · exact key .v2g .v2g
  · have := truthful_answer m [] ((if (m.leaf chain .csms).ocpp = .accepted then [] else
        [.secEvent "InvalidChargePointCertificate" true]) ++
        (if (m.leaf chain .csms).ocpp = .accepted ∧ profile = 3 then [.reconnect] else []))
      (.leaf chain .csms) _ none rfl (by split <;> split <;> rfl) (hst .csms)
    simpa only [certificateSigned16, updateLeaf, Signing.lib, List.append_assoc, List.nil_append] using this

/-- **C212, Plug&Charge of 1.6.** What is said through DataTransfer is the answer of the handlers above; a request that cannot be read
changes nothing; for CertificateSigned: the module is asked exactly for V2G chains that are not too long, and the answer is 'Accepted'
exactly if the module accepted the chain. -/
theorem C212_pnc (m : Module) (max : Option Int) (t : Option SigningUse) (chain : String) :
    (let evs := certificateSignedP m max (some (t, chain));
     (∀ a, .ev (.asked a) ∈ evs ↔ (t = none ∨ t = some .v2g) ∧ (∀ n : Nat, max = some (n : Int) → chain.utf8ByteSize ≤ n) ∧
        (∀ n : Int, max = some n → n < 0 → chain.utf8ByteSize ≤ 2 ^ 64 - n.natAbs) ∧ a = .leaf chain .v2g) ∧
     (∀ st data, .dt st data ∈ evs → st = "Accepted" ∧ (data = some ("Accepted", none) ↔
        .ev (.asked (.leaf chain .v2g)) ∈ evs ∧ m.leaf chain .v2g = .accepted))) ∧
    (∀ evs, (evs = certificateSignedP m max none ∨ evs = installP m none ∨ evs = deleteP m none ∨ evs = getInstalledP m none) →
      evs = [.dt "Rejected" none]) := by
  have htl : tooLong max chain = false ↔ (∀ n : Nat, max = some (n : Int) → chain.utf8ByteSize ≤ n) ∧
      (∀ n : Int, max = some n → n < 0 → chain.utf8ByteSize ≤ 2 ^ 64 - n.natAbs) := by
    unfold tooLong
    cases max with
    | none => simp
    | some n =>
      dsimp only
      by_cases hn : n < 0
      · rw [if_pos hn]
        have h0 : n.toNat = 0 := by omega
        rw [h0]
        constructor
        · intro h
          simp at h
          refine ⟨fun k hk => ?_, fun k hk _ => ?_⟩
          · injection hk with hk; omega
          · injection hk with hk; subst hk; simpa using h
        · rintro ⟨_, h⟩
          have := h n rfl hn
          simp; omega
      · rw [if_neg hn]
        constructor
        · intro h
          simp at h
          refine ⟨fun k hk => ?_, fun k hk hk0 => ?_⟩
          · injection hk with hk; omega
          · injection hk with hk; omega
        · rintro ⟨h, _⟩
          have := h n.toNat (by rw [Int.toNat_of_nonneg (by omega)])
          simp; omega
  refine ⟨?_, ?_⟩
  · have hr := installRes_acc (m.leaf chain .v2g)
    simp only [certificateSignedP, updateLeaf, Signing.lib]
    by_cases h1 : t ≠ none ∧ t ≠ some .v2g
    · rw [if_pos h1]
      refine ⟨fun a => ⟨fun h => by simp [afterSignedP] at h, fun h => absurd h.1 (by rintro (h | h); exact h1.1 h; exact h1.2 h)⟩, ?_⟩
      intro st data h
      simp [afterSignedP] at h
      simp [h, afterSignedP]
    · rw [if_neg h1]
      have h1' : t = none ∨ t = some .v2g := by
        by_cases ht : t = none
        · exact Or.inl ht
        · by_cases ht2 : t = some .v2g
          · exact Or.inr ht2
          · exact absurd ⟨ht, ht2⟩ h1
      by_cases h2 : tooLong max chain = true
      · rw [if_pos h2]
        have h2' : ¬ ((∀ n : Nat, max = some (n : Int) → chain.utf8ByteSize ≤ n) ∧
            (∀ n : Int, max = some n → n < 0 → chain.utf8ByteSize ≤ 2 ^ 64 - n.natAbs)) := by
          rw [← htl, h2]; simp
        refine ⟨fun a => ⟨fun h => by simp [afterSignedP] at h, fun h => absurd ⟨h.2.1, h.2.2.1⟩ h2'⟩, ?_⟩
        intro st data h
        simp [afterSignedP] at h
        simp [h, afterSignedP]
      · rw [if_neg h2]
        have h2' := htl.mp (by simpa using h2)
        by_cases hacc : (m.leaf chain .v2g).ocpp = .accepted
        · have hl := hr.mp hacc
          refine ⟨fun a => ?_, ?_⟩
          · simp only [hacc, decide_true, afterSignedP, if_true]
            simp only [List.map_cons, List.map_nil, List.mem_append, List.mem_cons, List.not_mem_nil, or_false, PEv.ev.injEq,
              Ev.asked.injEq, reduceCtorEq]
            exact ⟨fun h => ⟨h1', h2'.1, h2'.2, h⟩, fun h => h.2.2.2⟩
          · intro st data h
            simp [hacc, afterSignedP] at h
            simp [h, hl, hacc, afterSignedP]
        · have hl : m.leaf chain .v2g ≠ .accepted := fun h => hacc (hr.mpr h)
          refine ⟨fun a => ?_, ?_⟩
          · simp only [hacc, decide_false, afterSignedP, Bool.false_eq_true, if_false]
            simp only [List.map_cons, List.map_nil, List.mem_append, List.mem_cons, List.not_mem_nil, or_false, PEv.ev.injEq,
              Ev.asked.injEq, reduceCtorEq]
            exact ⟨fun h => ⟨h1', h2'.1, h2'.2, h⟩, fun h => h.2.2.2⟩
          · intro st data h
            simp [hacc, afterSignedP] at h
            simp [h, hl, hacc, afterSignedP]
  · rintro evs (h | h | h | h) <;> exact h

/-- A module for the examples: it accepts the certificate "good" and has one root certificate of the CSMS. -/
def sample : Module where
  install c _ := if c = "good" then .accepted else .expired
  leaf c _ := if c = "good" then .accepted else .invalidSignature
  delete h := if h.serial = "1" then .accepted else .notFound
  list ts := if .csmsRoot ∈ ts then [⟨.csmsRoot, ⟨.sha256, "n", "k", "1"⟩, []⟩] else []

example : install2 sample ⟨2, none, none⟩ .moRoot "good" =
      [.asked (.install "good" .mo), .secEvent "ReconfigurationOfSecurityParameters" false, .answer "Accepted" none] ∧
    install16 sample .centralSystemRoot "bad" =
      [.asked (.install "bad" .csms), .answer "Rejected" none, .secEvent "InvalidCentralSystemCertificate" false] ∧
    delete2 sample ⟨.sha256, "n", "k", "2"⟩ = [.asked (.delete ⟨.sha256, "n", "k", "2"⟩), .answer "NotFound" none] ∧
    certificateSigned16 sample "good" 3 = [.asked (.leaf "good" .csms), .answer "Accepted" none, .reconnect] ∧
    certificateSignedP sample (some 4) (some (none, "good")) =
      [.ev (.asked (.leaf "good" .v2g)), .dt "Accepted" (some ("Accepted", none)), .ev .ocsp] ∧
    certificateSignedP sample (some 3) (some (none, "good")) =
      [.dt "Accepted" (some ("Rejected", none)), .ev (.secEvent "InvalidChargePointCertificate" false)] := by decide +kernel

/-! ## C213: listing -/

theorem listed_exact (f : Chain → ChainW) (g : LChain → ChainW) (hg : ∀ c k, LChain.ocpp c = .ok k → f k = g c) (evs : List Ev)
    (l : List LChain) (r : List Chain) (hr : l.mapM LChain.ocpp = .ok r) :
    listed f (evs, .ok r) = evs ++ [if l = [] then .answer "NotFound" none else .answer "Accepted" (some (l.map g))] := by
  have hm := mapM_map LChain.ocpp f g hg _ _ hr
  cases r with
  | nil =>
    cases l with
    | nil => rfl
    | cons a l => cases hm
  | cons a r =>
    cases l with
    | nil => cases hm
    | cons b l => simp only [listed, hm]; simp

/-- The types asked for, by their names: all but OEM if none are named (2.x). -/
def askedNames : Option (List IdUse) → List String
  | some l => l.map IdUse.name
  | none => ["CSMSRootCertificate", "ManufacturerRootCertificate", "MORootCertificate", "V2GCertificateChain", "V2GRootCertificate"]

theorem libs_ok : ∀ (l : List IdUse), .oemRoot ∉ l → ∃ lts : List LType, (l.map IdUse.ocpp).mapM CType.lib = .ok lts ∧
    lts.map LType.name = l.map IdUse.name
  | [], _ => ⟨[], rfl, rfl⟩
  | t :: l, h => by
    obtain ⟨lts, h1, h2⟩ := libs_ok l (fun hx => h (List.mem_cons_of_mem _ hx))
    have ht : ∃ lt : LType, CType.lib (IdUse.ocpp t) = .ok lt ∧ lt.name = t.name := by
      cases t
      case oemRoot => exact absurd List.mem_cons_self h
      all_goals exact ⟨_, rfl, rfl⟩
    obtain ⟨lt, h3, h4⟩ := ht
    refine ⟨lt :: lts, ?_, by simp [h2, h4]⟩
    rw [List.map_cons, List.mapM_cons, h3, h1]
    rfl

/-- **C213 (partial: OEM certificates, texts within their limits).** GetInstalledCertificateIds of 2.x: the module is asked for the
types named in the request, in this order (all if none are named); the answer lists exactly what the module returned, in this order, each
certificate with its type, hash and children; it is 'NotFound' exactly if there is nothing. -/
theorem C213_list2_partial (m : Module) (ts : Option (List IdUse)) (ho : ∀ l, ts = some l → .oemRoot ∉ l)
    (hf : ∀ lts, ∀ c ∈ m.list lts, c.Fits) :
    ∃ lts, lts.map LType.name = askedNames ts ∧
      getInstalled2 m ts = [.asked (.list lts),
        if m.list lts = [] then .answer "NotFound" none else .answer "Accepted" (some ((m.list lts).map LChain.shown))] := by
  have key : ∀ cts lts, cts.mapM CType.lib = .ok lts → listed Chain.wire (installed m cts) = [.asked (.list lts),
        if m.list lts = [] then .answer "NotFound" none else .answer "Accepted" (some ((m.list lts).map LChain.shown))] := by
    intro cts lts h
    obtain ⟨r, hr⟩ := mapM_total LChain.ocpp (m.list lts) (fun c hc => chain_fits c (hf lts c hc))
    simp only [installed, h, hr]
    exact listed_exact _ _ (fun c k hk => (chain_sound c k hk).1) _ _ _ hr
  cases ts with
  | none => exact ⟨[.csmsRoot, .mfRoot, .moRoot, .v2gChain, .v2gRoot], rfl, key _ _ rfl⟩
  | some l =>
    obtain ⟨lts, h1, h2⟩ := libs_ok l (ho l rfl)
    exact ⟨lts, h2, key _ _ h1⟩

/-- **C213, 1.6 (partial: texts within their limits).** The module is asked for the one type of the request, and the answer lists
exactly the hashes of what it returned. -/
theorem C213_list16_partial (m : Module) (t : Use16) (hf : ∀ lts, ∀ c ∈ m.list lts, c.Fits) :
    ∃ lt : LType, lt.name = t.name ∧
      getInstalled16 m t = [.asked (.list [lt]),
        if m.list [lt] = [] then .answer "NotFound" none else .answer "Accepted" (some ((m.list [lt]).map LChain.shown16))] := by
  have key : ∀ ct lt, CType.lib ct = .ok lt → listed (fun c => ⟨none, c.hash.wire, none⟩) (installed m [ct]) = [.asked (.list [lt]),
        if m.list [lt] = [] then .answer "NotFound" none else .answer "Accepted" (some ((m.list [lt]).map LChain.shown16))] := by
    intro ct lt h
    obtain ⟨r, hr⟩ := mapM_total LChain.ocpp (m.list [lt]) (fun c hc => chain_fits c (hf [lt] c hc))
    have h' : [ct].mapM CType.lib = .ok [lt] := by rw [List.mapM_cons, h]; rfl
    simp only [installed, h', hr]
    exact listed_exact _ _ (fun c k hk => (chain_sound c k hk).2) _ _ _ hr
  cases t with
  | centralSystemRoot => exact ⟨.csmsRoot, rfl, key _ _ rfl⟩
  | manufacturerRoot => exact ⟨.mfRoot, rfl, key _ _ rfl⟩

/-- **C213, Plug&Charge of 1.6 (partial: types are named, no OEM certificates, texts within their limits).** -/
theorem C213_pnc_partial (m : Module) (l : List IdUse) (ho : .oemRoot ∉ l) (hf : ∀ lts, ∀ c ∈ m.list lts, c.Fits) :
    ∃ lts, lts.map LType.name = l.map IdUse.name ∧
      getInstalledP m (some (some l)) = [.ev (.asked (.list lts)),
        .dt "Accepted" (some (if m.list lts = [] then ("NotFound", none) else ("Accepted", some ((m.list lts).map LChain.shown))))] := by
  obtain ⟨lts, h1, h2⟩ := C213_list2_partial m (some l) (fun l' hl => by injection hl with hl; subst hl; exact ho) hf
  refine ⟨lts, h1, ?_⟩
  have : getInstalledP m (some (some l)) = (getInstalled2 m (some l)).map wrap := rfl
  rw [this, h2]
  by_cases hl : m.list lts = [] <;> simp [hl, wrap]

/-- **C213, whatever is said is true.** Without any condition: an answer lists exactly what the module returned for the types asked for,
and 'NotFound' is said only if the module returned nothing. -/
theorem C213_sound (m : Module) (ts : Option (List IdUse)) (st : String) (cs : Option (List ChainW))
    (h : .answer st cs ∈ getInstalled2 m ts) :
    ∃ lts, .asked (.list lts) ∈ getInstalled2 m ts ∧ lts.map LType.name = askedNames ts ∧
      ((st = "NotFound" ∧ cs = none ∧ m.list lts = []) ∨
       (st = "Accepted" ∧ cs = some ((m.list lts).map LChain.shown) ∧ m.list lts ≠ [])) := by
  unfold getInstalled2 at h ⊢
  have hn : (types2 ts).map CType.wire = askedNames ts := by
    cases ts with
    | none => rfl
    | some l =>
      simp only [types2, askedNames, List.map_map]
      refine List.map_congr_left fun t _ => ?_
      cases t <;> rfl
  generalize types2 ts = cts at h hn ⊢
  unfold installed at h ⊢
  cases hc : cts.mapM CType.lib with
  | error e => rw [hc] at h; simp [listed] at h
  | ok lts =>
    rw [hc] at h
    dsimp only at h ⊢
    cases hr : (m.list lts).mapM LChain.ocpp with
    | error e => rw [hr] at h; simp [listed] at h
    | ok r =>
      rw [hr] at h
      rw [listed_exact Chain.wire LChain.shown (fun c k hk => (chain_sound c k hk).1) _ _ _ hr] at h ⊢
      refine ⟨lts, by simp, ?_, ?_⟩
      · rw [mapM_map CType.lib LType.name CType.wire (fun c lt hh => by cases c <;> cases hh <;> rfl) _ _ hc, hn]
      by_cases hl : m.list lts = []
      · simp [hl] at h; exact Or.inl ⟨h.1, h.2, hl⟩
      · simp [hl] at h; exact Or.inr ⟨h.1, h.2, hl⟩

example : getInstalled2 sample none =
      [.asked (.list [.csmsRoot, .mfRoot, .moRoot, .v2gChain, .v2gRoot]),
       .answer "Accepted" (some [⟨some "CSMSRootCertificate", ⟨"SHA256", "n", "k", "1"⟩, none⟩])] ∧
    getInstalled16 sample .manufacturerRoot = [.asked (.list [.mfRoot]), .answer "NotFound" none] ∧
    getInstalledP sample (some (some [.csmsRoot])) = [.ev (.asked (.list [.csmsRoot])),
       .dt "Accepted" (some ("Accepted", some [⟨some "CSMSRootCertificate", ⟨"SHA256", "n", "k", "1"⟩, none⟩]))] ∧
    (∀ lts, ∀ c ∈ sample.list lts, c.Fits) := by
  refine ⟨by decide +kernel, by decide +kernel, by decide +kernel, ?_⟩
  intro lts c hc
  simp only [sample] at hc
  split at hc
  · simp at hc; subst hc; exact ⟨⟨by decide +kernel, by decide +kernel, by decide +kernel⟩, by simp⟩
  · cases hc

theorem wrap_dt (evs : List Ev) (st : String) (data : Option (String × Option (List ChainW))) (h : .dt st data ∈ evs.map wrap) :
    (st = "Accepted" ∧ ∃ s cs, data = some (s, cs) ∧ .answer s cs ∈ evs) ∨ (st = "Rejected" ∧ data = none ∧ ∃ e, .exc e ∈ evs) := by
  obtain ⟨e, he, hw⟩ := List.mem_map.mp h
  cases e <;> simp only [wrap, PEv.dt.injEq, reduceCtorEq] at hw
  case answer s cs => exact Or.inl ⟨hw.1.symm, s, cs, hw.2.symm, he⟩
  case exc e => exact Or.inr ⟨hw.1.symm, hw.2.symm, e, he⟩

/-- **C212 and C213, Plug&Charge of 1.6.** What is said through DataTransfer is what the handlers above answer: a DataTransfer.conf that is
'Accepted' carries their answer, and one that is 'Rejected' says that the request failed with an exception. -/
theorem C212_pnc_answers (m : Module) (st : String) (data : Option (String × Option (List ChainW))) :
    (∀ t cert, .dt st data ∈ installP m (some (t, cert)) →
      (st = "Accepted" ∧ ∃ s cs, data = some (s, cs) ∧ .answer s cs ∈ installPEvs m t cert) ∨
      (st = "Rejected" ∧ data = none ∧ ∃ e, .exc e ∈ installPEvs m t cert)) ∧
    (∀ h, .dt st data ∈ deleteP m (some h) →
      (st = "Accepted" ∧ ∃ s cs, data = some (s, cs) ∧ .answer s cs ∈ delete16 m h) ∨
      (st = "Rejected" ∧ data = none ∧ ∃ e, .exc e ∈ delete16 m h)) ∧
    (∀ l, .dt st data ∈ getInstalledP m (some (some l)) →
      (st = "Accepted" ∧ ∃ s cs, data = some (s, cs) ∧ .answer s cs ∈ getInstalled2 m (some l)) ∨
      (st = "Rejected" ∧ data = none ∧ ∃ e, .exc e ∈ getInstalled2 m (some l))) :=
  ⟨fun _ _ h => wrap_dt _ _ _ h, fun _ h => wrap_dt _ _ _ h, fun _ h => wrap_dt _ _ _ h⟩

/-- An OEM certificate cannot be installed: the module is not asked, and the answer is 'Rejected'. -/
example : installP sample (some (.oemRoot, "c")) = [.dt "Rejected" none] := by decide +kernel

/-- **C213 violated.** A request that names OEMRootCertificate among other types is not answered with the certificates of the other types
(nor 'NotFound') but with a CALLERROR, whatever is installed. Through DataTransfer of 1.6, a request that names no type, which asks for
all, is answered 'NotFound' by a module that returns certificates only of the types it is asked for. -/
theorem C213_violated (m : Module) (l : List IdUse) (ho : .oemRoot ∈ l)
    (hm : ∀ lts, ∀ c ∈ m.list lts, c.type ∈ lts) :
    getInstalled2 m (some l) = [.exc .enum] ∧
    getInstalledP m (some none) = [.ev (.asked (.list [])), .dt "Accepted" (some ("NotFound", none))] := by
  constructor
  · have : ∀ l : List IdUse, .oemRoot ∈ l → (l.map IdUse.ocpp).mapM CType.lib = .error .enum := by
      intro l
      induction l with
      | nil => intro h; cases h
      | cons t l ih =>
        intro h
        rw [List.map_cons, List.mapM_cons]
        by_cases ht : t = .oemRoot
        · subst ht; rfl
        · have hl := ih (by
            rcases List.mem_cons.mp h with h | h
            · exact absurd h.symm ht
            · exact h)
          cases t <;> first | exact absurd rfl ht | (simp only [IdUse.ocpp, CType.lib, bind, Except.bind, hl])
    unfold getInstalled2 installed
    simp only [types2]
    rw [this l ho]
    rfl
  · have h0 : m.list [] = [] := by
      cases hl : m.list [] with
      | nil => rfl
      | cons c t => exact absurd (hm [] c (by rw [hl]; exact List.mem_cons_self)) (by simp)
    simp [getInstalledP, installed, h0, listed, wrap, pure, Except.pure]

example : (.oemRoot : IdUse) ∈ [.csmsRoot, .oemRoot] ∧ (∀ lts, ∀ c ∈ sample.list lts, c.type ∈ lts) ∧ sample.list [.csmsRoot] ≠ [] := by
  refine ⟨by decide, ?_, by decide⟩
  intro lts c hc
  simp only [sample] at hc
  split at hc
  · simp at hc; subst hc; assumption
  · cases hc

/-! ## C214: a new certificate of the station -/

/-- **C214.** After CertificateSigned the connection is made anew, to use the new certificate, exactly if it is the certificate of the
station (not a V2G certificate), the module accepted it and the security profile is 3, and this happens after the answer. A chain that the
module refuses is reported to the CSMS with a security event. -/
theorem C214 (m : Module) (chain : String) (profile : Int) :
    (∀ t links, let evs := certificateSigned2 m t chain links profile;
      (.reconnect ∈ evs ↔ leafOf t = .csms ∧ m.leaf chain .csms = .accepted ∧ profile = 3) ∧
      (∀ a b, evs = a ++ .reconnect :: b → .answer "Accepted" none ∈ a) ∧
      ((∃ n, .secEvent n true ∈ evs) ↔ m.leaf chain (leafOf t) ≠ .accepted) ∧
      (.ocsp ∈ evs ↔ leafOf t = .v2g ∧ m.leaf chain .v2g = .accepted)) ∧
    (let evs := certificateSigned16 m chain profile;
      (.reconnect ∈ evs ↔ m.leaf chain .csms = .accepted ∧ profile = 3) ∧
      (∀ a b, evs = a ++ .reconnect :: b → .answer "Accepted" none ∈ a) ∧
      ((∃ n, .secEvent n true ∈ evs) ↔ m.leaf chain .csms ≠ .accepted)) := by
  constructor
  · intro t links
    have key : ∀ u lt, Signing.lib u = .ok lt → (u = .chargingStation ∧ lt = .csms ∨ u = .v2g ∧ lt = .v2g) →
        let evs := [.asked (.leaf chain lt)] ++ afterSigned2 u links profile (m.leaf chain lt).ocpp;
        (.reconnect ∈ evs ↔ lt = .csms ∧ m.leaf chain .csms = .accepted ∧ profile = 3) ∧
        (∀ a b, evs = a ++ .reconnect :: b → .answer "Accepted" none ∈ a) ∧
        ((∃ n, .secEvent n true ∈ evs) ↔ m.leaf chain lt ≠ .accepted) ∧
        (.ocsp ∈ evs ↔ lt = .v2g ∧ m.leaf chain .v2g = .accepted) := by
      rintro u lt hu (⟨rfl, rfl⟩ | ⟨rfl, rfl⟩)
      · have hr := installRes_acc (m.leaf chain .csms)
        by_cases hacc : (m.leaf chain .csms).ocpp = .accepted
        · have hl := hr.mp hacc
          by_cases c : profile = 3
          · have he : [.asked (.leaf chain .csms)] ++ afterSigned2 .chargingStation links profile (m.leaf chain .csms).ocpp =
                [.asked (.leaf chain .csms), .answer "Accepted" none, .reconnect,
                  .secEvent "ReconfigurationOfSecurityParameters" false] := by simp [afterSigned2, hacc, c]
            rw [he]
            refine ⟨by simp [hl, c], ?_, by simp [hl], by simp⟩
            intro a b h
            rcases a with _ | ⟨x, _ | ⟨y, a⟩⟩
            · simp at h
            · simp at h
            · simp only [List.cons_append, List.cons.injEq] at h
              rw [← h.2.1]; simp
          · have he : [.asked (.leaf chain .csms)] ++ afterSigned2 .chargingStation links profile (m.leaf chain .csms).ocpp =
                [.asked (.leaf chain .csms), .answer "Accepted" none] := by simp [afterSigned2, hacc, c]
            rw [he]
            refine ⟨by simp [c], ?_, by simp [hl], by simp⟩
            intro a b h
            have : Ev.reconnect ∈ [.asked (.leaf chain .csms), .answer "Accepted" none] := by rw [h]; simp
            simp at this
        · have hl : m.leaf chain .csms ≠ .accepted := fun h => hacc (hr.mpr h)
          have he : [.asked (.leaf chain .csms)] ++ afterSigned2 .chargingStation links profile (m.leaf chain .csms).ocpp =
                [.asked (.leaf chain .csms), .answer "Rejected" none, .secEvent "InvalidChargingStationCertificate" true] := by
            simp [afterSigned2, hacc]
          rw [he]
          refine ⟨by simp [hl], ?_, by simp [hl], by simp⟩
          intro a b h
          have : Ev.reconnect ∈ [.asked (.leaf chain .csms), .answer "Rejected" none,
            .secEvent "InvalidChargingStationCertificate" true] := by rw [h]; simp
          simp at this
      · have hr := installRes_acc (m.leaf chain .v2g)
        have hno : Ev.reconnect ∉ [.asked (.leaf chain .v2g)] ++ afterSigned2 .v2g links profile (m.leaf chain .v2g).ocpp := by
          unfold afterSigned2
          by_cases hacc : (m.leaf chain .v2g).ocpp = .accepted <;> cases links <;> simp [hacc]
        refine ⟨by simp only [hno, false_iff]; simp, ?_, ?_, ?_⟩
        · intro a b h
          exact absurd (by rw [h]; simp) hno
        · by_cases hacc : (m.leaf chain .v2g).ocpp = .accepted
          · have hl := hr.mp hacc
            cases links <;> simp [afterSigned2, hl, LInstall.ocpp]
          · have hl : m.leaf chain .v2g ≠ .accepted := fun h => hacc (hr.mpr h)
            cases links <;> simp [afterSigned2, hacc, hl]
        · by_cases hacc : (m.leaf chain .v2g).ocpp = .accepted
          · have hl := hr.mp hacc
            cases links <;> simp [afterSigned2, hl, LInstall.ocpp]
          · have hl : m.leaf chain .v2g ≠ .accepted := fun h => hacc (hr.mpr h)
            cases links <;> simp [afterSigned2, hacc, hl]
    rcases t with _ | (_ | _ | _)
    · exact key .chargingStation .csms rfl (Or.inl ⟨rfl, rfl⟩)
    · exact key .chargingStation .csms rfl (Or.inl ⟨rfl, rfl⟩)
    · exact key .v2g .v2g rfl (Or.inr ⟨rfl, rfl⟩)
    · exact key .v2g .v2g rfl (Or.inr ⟨rfl, rfl⟩)
  · have hr := installRes_acc (m.leaf chain .csms)
    by_cases hacc : (m.leaf chain .csms).ocpp = .accepted
    · have hl := hr.mp hacc
      by_cases c : profile = 3
      · have he : certificateSigned16 m chain profile = [.asked (.leaf chain .csms), .answer "Accepted" none, .reconnect] := by
          simp [certificateSigned16, updateLeaf, Signing.lib, hacc, c]
        rw [he]
        refine ⟨by simp [hl, c], ?_, by simp [hl]⟩
        intro a b h
        rcases a with _ | ⟨x, _ | ⟨y, a⟩⟩
        · simp at h
        · simp at h
        · simp only [List.cons_append, List.cons.injEq] at h
          rw [← h.2.1]; simp
      · have he : certificateSigned16 m chain profile = [.asked (.leaf chain .csms), .answer "Accepted" none] := by
          simp [certificateSigned16, updateLeaf, Signing.lib, hacc, c]
        rw [he]
        refine ⟨by simp [c], ?_, by simp [hl]⟩
        intro a b h
        have : Ev.reconnect ∈ [.asked (.leaf chain .csms), .answer "Accepted" none] := by rw [h]; simp
        simp at this
    · have hl : m.leaf chain .csms ≠ .accepted := fun h => hacc (hr.mpr h)
      have he : certificateSigned16 m chain profile = [.asked (.leaf chain .csms), .answer "Rejected" none,
          .secEvent "InvalidChargePointCertificate" true] := by
        simp [certificateSigned16, updateLeaf, Signing.lib, hacc]
      rw [he]
      refine ⟨by simp [hl], ?_, by simp [hl]⟩
      intro a b h
      have : Ev.reconnect ∈ [.asked (.leaf chain .csms), .answer "Rejected" none,
          .secEvent "InvalidChargePointCertificate" true] := by rw [h]; simp
      simp at this

example : certificateSigned2 sample none "good" false 3 = [.asked (.leaf "good" .csms), .answer "Accepted" none, .reconnect,
      .secEvent "ReconfigurationOfSecurityParameters" false] ∧
    certificateSigned2 sample (some .v2g) "good" true 3 = [.asked (.leaf "good" .v2g), .ocsp, .links, .answer "Accepted" none] ∧
    certificateSigned16 sample "bad" 3 =
      [.asked (.leaf "bad" .csms), .answer "Rejected" none, .secEvent "InvalidChargePointCertificate" true] := by decide +kernel

end Verif.CertOps
