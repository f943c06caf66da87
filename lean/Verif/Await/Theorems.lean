import Verif.Await.Model

/-!
# Property C208: what the functions that wait for the CSMS return
-/

namespace Verif.Await

/-- **C208, answers get through.** If a readable answer of the CSMS is there, every waiting function passes it on as it is
(for 1.6 DataTransfer and Authorize of 2.x: provided the station was connected when the function was called). -/
theorem C208_answer :
    (∀ (f : Fut DTResp) r, f.answer = some r → (dataTransfer2 f).res = .ok (some r)) ∧
    (∀ (f : Fut DTResp) r, f.answer = some r → (dataTransfer16 true f).res = .ok (some r)) ∧
    (∀ (f : Fut AuthStatus) r, f.answer = some r → (authorize2 true f).res = .ok r) ∧
    (∀ (f : Fut EvStatus) r, f.answer = some r → (evCertificate2 true f).res = .ok (some r)) ∧
    (∀ (α : Type) (f : Fut α) r, f.answer = some r → (sendCallback f).map (·.res) = some (.ok r)) := by
  refine ⟨?_, ?_, ?_, ?_, ?_⟩
  all_goals intros; rename_i h; revert h
  all_goals (rename_i f r; rcases f with _ | _ | p | _ | _ <;> try (intro h; cases h))
  all_goals (rcases p with a | _ | _ | _ <;> intro h <;> cases h <;> rfl)

/-- **C208, nothing is made up.** What is returned is the answer of the CSMS or the fallback: 'Rejected' without data (only
after a CALLERROR, or in 1.6 an unreadable answer), 'Unknown', 'Failed'. In particular, without an 'Accepted' of the CSMS no
function returns 'Accepted'. -/
theorem C208_sound :
    (∀ (f : Fut DTResp) r, (dataTransfer2 f).res = .ok (some r) → f.answer = some r ∨ (f = .callError ∧ r = ⟨.rejected, none⟩)) ∧
    (∀ c (f : Fut DTResp) r, (dataTransfer16 c f).res = .ok (some r) →
      c = true ∧ (f.answer = some r ∨ ((f = .callError ∨ f = .result .jsonErr) ∧ r = ⟨.rejected, none⟩))) ∧
    (∀ c (f : Fut AuthStatus) r, (authorize2 c f).res = .ok r → (c = true ∧ f.answer = some r) ∨ r = .unknown) ∧
    (∀ e (f : Fut EvStatus) r, (evCertificate2 e f).res = .ok (some r) → (e = true ∧ f.answer = some r) ∨ r = .failed) ∧
    (∀ (α : Type) (f : Fut α) r, (sendCallback f).map (·.res) = some (.ok r) → f.answer = some r) := by
  refine ⟨?_, ?_, ?_, ?_, ?_⟩
  · intro f r h
    rcases f with _ | _ | (a | _ | _ | _) | _ | _ <;> simp_all [dataTransfer2, Fut.answer, DTResp.fallback]
  · intro c f r h
    cases c <;> rcases f with _ | _ | (a | _ | _ | _) | _ | _ <;>
      simp_all [dataTransfer16, Fut.answer, DTResp.fallback]
  · intro c f r h
    cases c <;> rcases f with _ | _ | (a | _ | _ | _) | _ | _ <;> simp_all [authorize2, Fut.answer]
  · intro e f r h
    cases e <;> rcases f with _ | _ | (a | _ | _ | _) | _ | _ <;> simp_all [evCertificate2, Fut.answer]
  · intro α f r h
    rcases f with _ | _ | (a | _ | _ | _) | _ | _ <;> simp_all [sendCallback, Fut.answer]

/-- **C208, functions without a time limit.** What `send_callback` makes waits exactly as long as the future is not settled, and
it returns normally exactly if the CSMS gave a readable answer: otherwise the caller gets an exception, no made-up answer. -/
theorem C208_unlimited (α : Type) (f : Fut α) :
    (sendCallback f = none ↔ f = .pending) ∧
    (∀ o, sendCallback f = some o → ((∃ r, o.res = .ok r) ↔ ∃ r, f.answer = some r)) := by
  rcases f with _ | _ | (a | _ | _ | _) | _ | _ <;> simp [sendCallback, Fut.answer]

example : sendCallback (.callError : Fut Nat) ≠ none ∧ (sendCallback (.result (.ok 3))).map (·.res) = some (.ok 3) :=
  ⟨by simp [sendCallback], rfl⟩

/-- **C208, ISO 15118 of 1.6.** The EV certificate response is handed to the application exactly if Plug&Charge is enabled, the
CSMS answered 'Accepted', and its data is a readable response; the OCSP result stored for a certificate is the one in a readable
answer with the inner status 'Accepted'. -/
theorem C208_iso15118 :
    (∀ (α : Type) pnc (inner : String → Parse α) f a, (evCertificate16 pnc inner f).res = .ok (some a) ↔
      pnc = true ∧ ∃ r d, f.answer = some r ∧ r.status = .accepted ∧ r.data = some d ∧ inner d = .ok a) ∧
    (∀ (inner : String → Parse CertStatus) f o, (certStatus16 inner f).res = .ok (some o) ↔
      ∃ r d c, f.answer = some r ∧ r.data = some d ∧ inner d = .ok c ∧ c.accepted = true ∧ c.ocsp = some o) := by
  constructor
  · intro α pnc inner f a
    cases pnc
    · simp [evCertificate16]
    · rcases f with _ | _ | (⟨st, _ | d⟩ | _ | _ | _) | _ | _ <;> simp [evCertificate16, Fut.answer]
      · by_cases hs : st = .accepted
        · subst hs
          cases hi : inner d <;> simp
        · simp [hs]
  · intro inner f o
    rcases f with _ | _ | (⟨st, _ | d⟩ | _ | _ | _) | _ | _ <;> simp [certStatus16, Fut.answer]
    cases hi : inner d with
    | ok c => rcases c with ⟨a, o'⟩; cases a <;> simp
    | _ => simp

example : (evCertificate16 true (fun _ => Parse.ok 5) (.result (.ok ⟨.accepted, some "x"⟩))).res = .ok (some 5) ∧
    (certStatus16 (fun _ => .ok ⟨true, some "ocsp"⟩) (.result (.ok ⟨.rejected, some "x"⟩))).res = .ok (some "ocsp") ∧
    (authorize2 true (.result (.ok .accepted))).res = .ok .accepted := ⟨rfl, rfl, rfl⟩

/-- **C208, partial: no exception.** (Missing: destroyed promises and payloads whose conversion throws, see `C208_violated`.) If
the promise is not destroyed and the payload of an answer can be read, no function throws, none sends a CALLERROR, every
returned object is initialised, and those with a limit on the waiting time return. -/
theorem C208_total_partial :
    (∀ (f : Fut DTResp), f ≠ .broken → (∀ p, f = .result p → ∃ a, p = .ok a) →
      (∃ r, (dataTransfer2 f).res = .ok r) ∧ (dataTransfer2 f).callError = false ∧
      ∀ c, ∃ r, (dataTransfer16 c f).res = .ok r) ∧
    (∀ c (f : Fut AuthStatus), f ≠ .broken → (∀ p, f = .result p → ∃ a, p = .ok a) →
      (∃ r, (authorize2 c f).res = .ok r) ∧ (authorize2 c f).callError = false) ∧
    (∀ e (f : Fut EvStatus), f ≠ .broken → (∀ p, f = .result p → ∃ a, p = .ok a) →
      (∃ r, (evCertificate2 e f).res = .ok (some r)) ∧ (evCertificate2 e f).callError = false) ∧
    (∀ (α : Type) pnc (inner : String → Parse α) f, f ≠ .broken → ∃ r, (evCertificate16 pnc inner f).res = .ok r) ∧
    (∀ inner f, f ≠ .broken → ∃ r, (certStatus16 inner f).res = .ok r) := by
  refine ⟨?_, ?_, ?_, ?_, ?_⟩
  · intro f h1 h2
    rcases f with _ | _ | (a | _ | _ | _) | _ | _ <;> simp_all [dataTransfer2, dataTransfer16]
    all_goals (intro c; cases c <;> simp)
  · intro c f h1 h2
    cases c <;> rcases f with _ | _ | (a | _ | _ | _) | _ | _ <;> simp_all [authorize2]
  · intro e f h1 h2
    cases e <;> rcases f with _ | _ | (a | _ | _ | _) | _ | _ <;> simp_all [evCertificate2]
  · intro α pnc inner f h1
    cases pnc
    · simp [evCertificate16]
    · rcases f with _ | _ | (⟨st, _ | d⟩ | _ | _ | _) | _ | _ <;> simp_all [evCertificate16]
      split
      · cases inner d <;> simp
      · simp
  · intro inner f h1
    rcases f with _ | _ | (⟨st, _ | d⟩ | _ | _ | _) | _ | _ <;> simp_all [certStatus16]
    cases inner d <;> simp

open Verif.MQ in
/-- **C208 is violated** in several ways: (1) a request that overflows the queue makes the waiting caller of an older one fail
with an exception, for every function; (2) an answer with an unknown status makes DataTransfer of 1.6 throw, (3) one with a
missing field makes Authorize of 2.x throw; (4) an answer that cannot be read is itself answered with a CALLERROR, and
(5) the status of the EV certificate response is then not initialised; (6) functions of the OCSP updater wait without
limit: here the message stays queued while the station is offline. -/
theorem C208_violated :
    (∃ ops i k, .push i k ∈ (run (init { threshold := 1 } 0) ops).trace ∧
      ∀ p, (dataTransfer2 (futureOf (run (init { threshold := 1 } 0) ops).trace i p)).res = .error .future) ∧
    (dataTransfer16 true (.result .enumErr)).res = .error .enum ∧
    (authorize2 true (.result .jsonErr)).res = .error .json ∧
    (dataTransfer2 (.result .jsonErr)).callError = true ∧
    (evCertificate2 true (.result .enumErr)).res = .ok none ∧
    (∃ ops, ∀ n : Nat, ∀ p : Parse Nat,
      (run (init { queueAll := true } 0) (ops ++ List.replicate n (.run (.tick 60)))).nq.length = 1 ∧
      (sendCallback (futureOf (run (init { queueAll := true } 0) (ops ++ List.replicate n (.run (.tick 60)))).trace 1 p)).isNone) := by
  refine ⟨⟨overflow, 1, .normal 1, by decide +kernel, ?_⟩, rfl, rfl, rfl, rfl, ?_⟩
  · have h : ∀ p : Parse DTResp, futureOf (run (init { threshold := 1 } 0) overflow).trace 1 p = .broken := by
      intro p
      unfold futureOf
      rw [if_neg (by decide +kernel), if_neg (by decide +kernel), if_neg (by decide +kernel), if_pos (by decide +kernel)]
    intro p; rw [h p]; rfl
  · refine ⟨bringUp ++ [.run .pause, .run (.pushAsync (.normal 1))], ?_⟩
    have hs : ∀ (n : Nat) (s : St), s.fault = none →
        (run s (List.replicate n (.run (.tick 60)))).trace = s.trace ∧ (run s (List.replicate n (.run (.tick 60)))).nq = s.nq := by
      intro n
      induction n with
      | zero => intro s _; exact ⟨rfl, rfl⟩
      | succ n ih =>
        intro s hf
        rw [List.replicate_succ]
        have h1 : step s (.run (.tick 60)) = { s with writes := [], now := s.now + 60 } := by
          simp [step, hf, baseStep]
        have := ih (step s (.run (.tick 60))) (by rw [h1]; exact hf)
        rw [h1] at this
        have hr : ∀ op l, run s (op :: l) = run (step s op) l := fun _ _ => rfl
        rw [hr, h1]
        exact this
    intro n p
    have e : ∀ (s : St) a b, run s (a ++ b) = run (run s a) b := by intro s a b; simp [run]
    rw [e]
    obtain ⟨h1, h2⟩ := hs n (run (init { queueAll := true } 0) (bringUp ++ [.run .pause, .run (.pushAsync (.normal 1))]))
      (by decide +kernel)
    rw [h1, h2]
    refine ⟨by decide +kernel, ?_⟩
    have h : futureOf (run (init { queueAll := true } 0) (bringUp ++ [.run .pause, .run (.pushAsync (.normal 1))])).trace 1 p = .pending := by
      unfold futureOf
      rw [if_neg (by decide +kernel), if_neg (by decide +kernel), if_neg (by decide +kernel), if_neg (by decide +kernel)]
    rw [h]; rfl

end Verif.Await
