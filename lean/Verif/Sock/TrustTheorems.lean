import Verif.Sock.Trust

set_option linter.unusedSimpArgs false

/-! Theorems about the trust in the CSMS and the certificate of the station (C241–C244). -/

namespace Verif.Sock

/-! ## Specification -/

/-- The security profile uses TLS. -/
def UsesTls (o : TrustOptions) : Prop := o.profile = 2 ∨ o.profile = 3

/-- The roots that are to be trusted: those installed for the CSMS, and those of the system if the configuration says so. -/
def Roots (o : TrustOptions) (e : Env) (a : Anchor) : Prop := (a = .csms ∧ e.csmsInstalled = true) ∨ (a = .system ∧ o.defaultPaths = true)

/-- The server is to be trusted with the given roots: it has a certificate, every certificate of its chain is verified, and, if the configuration says so, the name of the
leaf matches the host that is connected to. -/
def Trustworthy (o : TrustOptions) (srv : Server) (roots : List Anchor) : Prop :=
  srv.verdicts roots ≠ [] ∧ (∀ b ∈ srv.verdicts roots, b = true) ∧ (o.verifyName = true → srv.hostMatches o.wildcards o.host = true)

/-- The files of the certificate of the station, taken from what the store answers now. -/
def StationCert (e : Env) (c : ClientCert) : Prop :=
  ∃ i, e.leaf = some i ∧ c.key = i.key ∧ c.password = i.password ∧ (i.chain = some c.chain ∨ (i.chain = none ∧ i.single = some c.chain)) ∧
    c.chain ≠ "" ∧ c.key ≠ "" ∧ e.chainLoads c.chain = true ∧ e.keyLoads c.key c.password = true ∧ e.keyMatches = true

/-! ## Lemmas -/

theorem clientCert_some {o : TrustOptions} {e : Env} {chain key : String} {pw : Option String} {c : Option ClientCert} (h : clientCert o e chain key pw = some c) :
    (o.profile ≠ 3 ∧ c = none) ∨
    (o.profile = 3 ∧ c = some ⟨chain, key, pw⟩ ∧ chain ≠ "" ∧ key ≠ "" ∧ e.chainLoads chain = true ∧ e.keyLoads key pw = true ∧ e.keyMatches = true) := by
  unfold clientCert at h
  repeat' split at h
  all_goals grind

theorem anchorsOf_some {o : TrustOptions} {e : Env} {a : List Anchor} (h : anchorsOf o e = some a) : ∀ x, x ∈ a ↔ Roots o e x := by
  unfold anchorsOf at h
  repeat' split at h
  all_goals first | cases h | skip
  all_goals
    intro x
    unfold Roots
    cases x <;> simp_all

theorem leafPaths_three {o : TrustOptions} {e : Env} {c k : String} {pw : Option String} (h3 : o.profile = 3) (h : leafPaths o e = some (c, k, pw)) :
    ∃ i, e.leaf = some i ∧ k = i.key ∧ pw = i.password ∧ (i.chain = some c ∨ (i.chain = none ∧ i.single = some c)) := by
  unfold leafPaths at h
  rw [if_pos h3] at h
  split at h
  · cases h
  · next i hi =>
    refine ⟨i, hi, ?_⟩
    split at h
    · next c' x hc => cases h; exact ⟨rfl, rfl, .inl hc⟩
    · next s hc hs => cases h; exact ⟨rfl, rfl, .inr ⟨hc, hs⟩⟩
    · cases h

theorem prepare_some {o : TrustOptions} {e : Env} {s : Ssl} (h : (prepare o e).result = some (some s)) :
    UsesTls o ∧ (prepare o e).created = true ∧ s.verifyPeer = true ∧ (∀ x, x ∈ s.anchors ↔ Roots o e x) ∧
    ((o.profile = 2 ∧ s.client = none) ∨ (o.profile = 3 ∧ ∃ c, s.client = some c ∧ StationCert e c)) := by
  unfold prepare at h ⊢
  split at h
  · next ht =>
    rw [if_pos ht]
    split at h
    · cases h
    · next chain key pw hl =>
      split at h
      · cases h
      · next hn =>
        split at h
        · cases h
        · next s' hs =>
          split at h
          · next hw =>
            cases h
            rw [if_neg hn, if_pos hw]
            refine ⟨ht, rfl, ?_⟩
            unfold tlsInit at hs
            split at hs
            · cases hs
            · split at hs
              · cases hs
              · next c hc =>
                split at hs
                · cases hs
                · next a ha =>
                  cases hs
                  refine ⟨rfl, anchorsOf_some ha, ?_⟩
                  rcases clientCert_some hc with ⟨h3, hn⟩ | ⟨h3, hcc, r1, r2, r3, r4, r5⟩
                  · left
                    exact ⟨ht.resolve_right h3, hn⟩
                  · right
                    obtain ⟨i, hi, q1, q2, q3⟩ := leafPaths_three h3 hl
                    exact ⟨h3, _, hcc, i, hi, q1, q2, q3, r1, r2, r3, r4, r5⟩
          · cases h
  · split at h <;> cases h

theorem prepare_none {o : TrustOptions} {e : Env} (h : (prepare o e).result = some none) : ¬ UsesTls o ∧ (prepare o e).created = false := by
  unfold prepare at h ⊢
  split at h
  · split at h
    · cases h
    · split at h
      · cases h
      · split at h
        · cases h
        · split at h <;> cases h
  · next ht =>
    rw [if_neg ht]
    split at h
    · next hw => rw [if_pos hw]; exact ⟨ht, rfl⟩
    · cases h

theorem verifyChain_iff (o : TrustOptions) (srv : Server) : ∀ l : List Bool, (verifyChain o srv l).1 = true ↔
    (∀ b ∈ l, b = true) ∧ (l ≠ [] → o.verifyName = true → srv.hostMatches o.wildcards o.host = true)
  | [] => by simp [verifyChain]
  | pre :: rest => by
    have ih := verifyChain_iff o srv rest
    cases pre <;> cases hn : o.verifyName <;> simp only [verifyChain, verifyCn, hn] at ih ⊢
    · simp
    · simp
    · simp [ih]
    · cases rest with
      | nil => cases hm : srv.hostMatches o.wildcards o.host <;> simp [verifyChain]
      | cons b rest => simp [ih]

theorem verifyChain_reports (o : TrustOptions) (srv : Server) : ∀ l : List Bool, (verifyChain o srv l).2 =
    if o.verifyName = true ∧ (verifyChain o srv l).1 = false then 1 else 0
  | [] => by simp [verifyChain]
  | pre :: rest => by
    have ih := verifyChain_reports o srv rest
    cases pre <;> cases hn : o.verifyName <;> simp only [verifyChain, verifyCn, hn] at ih ⊢
    · simp
    · simp
    · simpa using ih
    · cases rest with
      | nil => cases hm : srv.hostMatches o.wildcards o.host <;> simp [verifyChain]
      | cons b rest => simpa using ih

/-- The roots in the TLS context of an attempt. -/
theorem attempt_secured {o : TrustOptions} {e : Env} {srv : Server} {c : Option ClientCert} (h : (attempt o e srv).ending = .secured c) :
    ∃ s, (prepare o e).result = some (some s) ∧ s.client = c ∧ Trustworthy o srv s.anchors := by
  unfold attempt at h
  dsimp only at h
  split at h
  · cases h
  · split at h
    · cases h
    · split at h
      · cases h
      · next s hr =>
        have hv := (prepare_some hr).2.2.1
        rw [if_pos hv] at h
        split at h
        · cases h
        · next hne =>
          split at h
          · next ht =>
            have hc : s.client = c := by injection h
            have := (verifyChain_iff o srv _).1 ht
            exact ⟨s, hr, hc, hne, this.1, this.2 hne⟩
          · cases h

/-! ## C241 -/

/-- **C241.** A secured connection is only made to a server that is to be trusted: there is a list of roots, exactly those installed for the CSMS and, if configured, those of the
system, with which every certificate of the chain is verified, and the name matches the host if it has to, with wildcards only if they are allowed. -/
theorem C241_trusted (o : TrustOptions) (e : Env) (srv : Server) (c : Option ClientCert) (h : (attempt o e srv).ending = .secured c) :
    ∃ roots, (∀ x, x ∈ roots ↔ Roots o e x) ∧ Trustworthy o srv roots := by
  obtain ⟨s, hr, _, ht⟩ := attempt_secured h
  exact ⟨s.anchors, (prepare_some hr).2.2.2.1, ht⟩

/-- **C241.** With a security profile that uses TLS there is never a connection without it, and with another profile there is never one with it. -/
theorem C241_no_plain (o : TrustOptions) (e : Env) (srv : Server) :
    (UsesTls o → (attempt o e srv).ending ≠ .plain) ∧ (¬ UsesTls o → ∀ c, (attempt o e srv).ending ≠ .secured c) := by
  refine ⟨fun ht h => ?_, fun ht c h => ?_⟩
  · unfold attempt at h
    dsimp only at h
    split at h
    · cases h
    · split at h
      · cases h
      · split at h
        · next hr => exact (prepare_none hr).1 ht
        · split at h
          · cases h
          · repeat' split at h
            all_goals cases h
  · obtain ⟨s, hr, _, _⟩ := attempt_secured h
    exact ht (prepare_some hr).1

/-- **C241, the other direction.** If everything needed is available, a server that is to be trusted is accepted; TLS 1.3 cipher suites that OpenSSL does not know do not prevent it. -/
theorem C241_accepted (o : TrustOptions) (e : Env) (srv : Server) (ht : UsesTls o) (h12 : e.ciphers12 = true) (hctx : e.newContext = true) (hlws : e.lwsContext = true)
    (hcon : e.lwsConnect = true) (hca : e.csmsInstalled = true → e.csmsLoads = true) (hdef : o.defaultPaths = true → e.defaultLoads = true)
    (hcert : o.profile = 3 → ∃ c, StationCert e c) (hsrv : ∀ roots, (∀ x, x ∈ roots ↔ Roots o e x) → Trustworthy o srv roots) :
    ∃ c, (attempt o e srv).ending = .secured c := by
  have ha : ∃ a, anchorsOf o e = some a := by
    unfold anchorsOf
    cases h1 : e.csmsInstalled <;> cases h2 : o.defaultPaths <;> simp_all
  obtain ⟨a, ha⟩ := ha
  have hp : ∃ s, (prepare o e).result = some (some s) := by
    by_cases h3 : o.profile = 3
    · obtain ⟨c, i, hi, q1, q2, q3, r1, r2, r3, r4, r5⟩ := hcert h3
      have hl : leafPaths o e = some (c.chain, c.key, c.password) := by
        rcases q3 with q | ⟨q, q'⟩ <;> simp [leafPaths, h3, hi, q, q1, q2, *]
      exact ⟨⟨a, some c, true⟩, by simp [prepare, h3, hl, hctx, tlsInit, h12, clientCert, r1, r2, r3, r4, r5, ha, hlws]⟩
    · have h2 : o.profile = 2 := ht.resolve_right h3
      exact ⟨⟨a, none, true⟩, by simp [prepare, h2, leafPaths, hctx, tlsInit, h12, clientCert, ha, hlws]⟩
  obtain ⟨s, hs⟩ := hp
  obtain ⟨_, _, hv, hr, _⟩ := prepare_some hs
  obtain ⟨t1, t2, t3⟩ := hsrv s.anchors hr
  refine ⟨s.client, ?_⟩
  have hvc : (verifyChain o srv (srv.verdicts s.anchors)).1 = true := (verifyChain_iff o srv _).2 ⟨t2, fun _ => t3⟩
  simp [attempt, hs, hcon, t1, hv, hvc]

def exTrustOptions : TrustOptions := ⟨3, true, false, false, "csms.example"⟩
def exEnv : Env := { leaf := some ⟨none, some "/cert", "/key", none⟩ }
/-- A server whose chain is verified with the roots of the CSMS only, and whose name is a wildcard. -/
def exServer : Server := ⟨fun a => if Anchor.csms ∈ a then [true, true, true] else [false], fun w h => w && h == "csms.example"⟩

/-- With wildcards the server is accepted, without it is not, and with the roots of the system alone it is not. -/
example : (attempt { exTrustOptions with wildcards := true } exEnv exServer).ending = .secured (some ⟨"/cert", "/key", none⟩) ∧
    (attempt exTrustOptions exEnv exServer).ending = .refused ∧
    (attempt { exTrustOptions with wildcards := true, defaultPaths := true } { exEnv with csmsInstalled := false } exServer).ending = .refused := by decide

/-! ## C242 -/

/-- **C242.** With security profile 3 a connection is only made with the certificate and key that the store names for the station at that attempt, which OpenSSL has loaded and found to
belong together; with security profile 2 no certificate is presented. -/
theorem C242_client_certificate (o : TrustOptions) (e : Env) (srv : Server) (c : Option ClientCert) (h : (attempt o e srv).ending = .secured c) :
    (o.profile = 3 ∧ ∃ x, c = some x ∧ StationCert e x) ∨ (o.profile = 2 ∧ c = none) := by
  obtain ⟨s, hr, rfl, _⟩ := attempt_secured h
  rcases (prepare_some hr).2.2.2.2 with ⟨h2, hc⟩ | ⟨h3, x, hx, hs⟩
  · exact .inr ⟨h2, hc⟩
  · exact .inl ⟨h3, x, hx, hs⟩

/-- **C242.** Without a certificate of the station there is no connection with security profile 3, whatever the server. -/
theorem C242_no_certificate (o : TrustOptions) (e : Env) (srv : Server) (h3 : o.profile = 3) (he : e.leaf = none) : (attempt o e srv).ending = .notPrepared := by
  have : (prepare o e).result = none := by simp [prepare, h3, leafPaths, he]
  simp [attempt, this]

/-- The chain is preferred to the single certificate. -/
example : (attempt { exTrustOptions with wildcards := true } { exEnv with leaf := some ⟨some "/chain", some "/cert", "/key", some "pw"⟩ } exServer).ending =
    .secured (some ⟨"/chain", "/key", some "pw"⟩) ∧ (attempt exTrustOptions {} exServer).ending = .notPrepared ∧
    (attempt { exTrustOptions with profile := 2, wildcards := true } {} exServer).ending = .secured none := by decide

/-! ## C243 -/

/-- The attempt reached the server, and the certificates it presented were refused. -/
def Refused (o : TrustOptions) (e : Env) (srv : Server) : Prop :=
  (attempt o e srv).ending = .refused ∧ ∃ s, (prepare o e).result = some (some s) ∧ srv.verdicts s.anchors ≠ []

theorem attempt_reports (o : TrustOptions) (e : Env) (srv : Server) (hn : o.verifyName = true) :
    ((attempt o e srv).reports = 1 ∧ Refused o e srv) ∨ ((attempt o e srv).reports = 0 ∧ ¬ Refused o e srv) := by
  unfold Refused attempt
  dsimp only
  split
  · right; simp
  · split
    · right; simp
    · split
      · right; simp
      · next s hr =>
        have hv := (prepare_some hr).2.2.1
        rw [if_pos hv]
        have hrep := verifyChain_reports o srv (srv.verdicts s.anchors)
        split
        · next h0 =>
          right
          refine ⟨rfl, ?_⟩
          rintro ⟨_, s', hs', hne⟩
          rw [hr] at hs'
          cases hs'
          exact hne h0
        · next h0 =>
          split
          · next hv1 => right; rw [hv1] at hrep; simp [hrep]
          · next hv1 =>
            left
            rw [hrep]
            have hf : (verifyChain o srv (srv.verdicts s.anchors)).1 = false := by simpa using hv1
            rw [if_pos ⟨hn, hf⟩]
            exact ⟨rfl, rfl, s, hr, h0⟩

/-- **C243, proved part.** If the name of the CSMS is verified, a refused certificate is reported exactly once, and nothing else is reported as a refused certificate.

Missing: stations that do not verify the name; there nothing is reported (`C243_violated`). -/
theorem C243_reported_partial (o : TrustOptions) (e : Env) (srv : Server) (hn : o.verifyName = true) :
    ((attempt o e srv).reports = 1 ↔ Refused o e srv) ∧ (attempt o e srv).reports ≤ 1 := by
  rcases attempt_reports o e srv hn with ⟨h1, h2⟩ | ⟨h1, h2⟩ <;> simp [h1, h2]

/-- **C243 (violated).** Without verification of the name, a server whose certificate is refused (here: it has expired, or its root is not installed) is not reported as one with an
invalid certificate, so that no security event is sent either. -/
theorem C243_violated (o : TrustOptions) (hn : o.verifyName = false) :
    (∀ e srv, (attempt o e srv).reports = 0) ∧ (UsesTls o → ∃ e srv, Refused o e srv) := by
  constructor
  · intro e srv
    unfold attempt
    dsimp only
    split
    · rfl
    · split
      · rfl
      · split
        · rfl
        · split
          · rfl
          · have := fun l => verifyChain_reports o srv l
            simp only [hn, Bool.false_eq_true, false_and, if_false] at this
            repeat' split
            all_goals exact this _
  · intro ht
    refine ⟨exEnv, ⟨fun _ => [false], fun _ _ => true⟩, ?_⟩
    have hp : ∃ s, (prepare o exEnv).result = some (some s) := by
      rcases ht with h | h
      · exact ⟨_, by simp [prepare, h, leafPaths, exEnv, tlsInit, clientCert, anchorsOf]; rfl⟩
      · exact ⟨_, by simp [prepare, h, leafPaths, exEnv, tlsInit, clientCert, anchorsOf]; rfl⟩
    obtain ⟨s, hs⟩ := hp
    have hv := (prepare_some hs).2.2.1
    refine ⟨?_, s, hs, by simp⟩
    have hc : exEnv.lwsConnect = true := rfl
    unfold attempt
    simp [hs, hv, verifyChain, hn, hc]

example : Refused { exTrustOptions with verifyName := false } exEnv ⟨fun _ => [true, false], fun _ _ => true⟩ ∧
    Refused exTrustOptions exEnv exServer ∧ (attempt exTrustOptions exEnv exServer).reports = 1 :=
  ⟨⟨by decide, ⟨[.csms], some ⟨"/cert", "/key", none⟩, true⟩, by decide, by decide⟩, ⟨by decide, ⟨[.csms], some ⟨"/cert", "/key", none⟩, true⟩, by decide, by decide⟩, by decide⟩

/-! ## C244 -/

/-- **C244, proved part.** An attempt that gets as far as connecting frees the TLS context that it made, whether or not the connection is established.

Missing: attempts whose preparation fails (`C244_violated`). -/
theorem C244_partial (o : TrustOptions) (as : List (Env × Server)) (h : ∀ a ∈ as, (attempt o a.1 a.2).ending ≠ .notPrepared) : leftOver o as = 0 := by
  induction as with
  | nil => rfl
  | cons a as ih =>
    obtain ⟨e, srv⟩ := a
    have h1 := h (e, srv) (List.mem_cons_self ..)
    have h2 := ih (fun a ha => h a (List.mem_cons_of_mem _ ha))
    have : (attempt o e srv).created = (attempt o e srv).freed := by
      unfold attempt at h1 ⊢
      dsimp only at h1 ⊢
      split
      · next hr => rw [hr] at h1; exact absurd rfl h1
      · split
        · rfl
        · split
          · rfl
          · split
            · rfl
            · repeat' split
              all_goals rfl
    simp [leftOver, this, h2]

/-- **C244 (violated).** With a security profile that uses TLS, the TLS contexts that were made and not freed grow with every attempt while the roots of the CSMS cannot be loaded (or
another step of the preparation fails): there is no bound. -/
theorem C244_violated (o : TrustOptions) (ht : UsesTls o) (srv : Server) (n : Nat) :
    leftOver o (List.replicate n ({ exEnv with csmsLoads := false }, srv)) = n := by
  have h : (attempt o { exEnv with csmsLoads := false } srv).created = 1 ∧ (attempt o { exEnv with csmsLoads := false } srv).freed = 0 := by
    rcases ht with h | h <;> simp [attempt, prepare, h, leafPaths, exEnv, tlsInit, clientCert, anchorsOf]
  induction n with
  | zero => rfl
  | succ n ih => rw [List.replicate_succ]; simp only [leftOver]; rw [h.1, h.2, ih]; omega

example : leftOver exTrustOptions [(exEnv, exServer), ({ exEnv with lwsConnect := false }, exServer)] = 0 ∧
    (attempt exTrustOptions exEnv exServer).created = 1 := by decide

end Verif.Sock
