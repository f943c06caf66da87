import Verif.Trig16.Spec

/-!
# Theorems about triggered messages
-/

namespace Verif.Trig16

open Conn16 (Status)

theorem last_snoc {α : Type} (f : Ev → Option α) (h : List Ev) (e : Ev) :
    last f (h ++ [e]) = (f e).or (last f h) := by
  unfold last
  rw [List.filterMap_append]
  cases he : f e with
  | none => simp [he]
  | some x => simp [he]

theorem snocInd {α : Type} {P : List α → Prop} (nil : P []) (snoc : ∀ l a, P l → P (l ++ [a])) : ∀ l, P l := by
  intro l
  have : ∀ m : List α, P m.reverse := by
    intro m
    induction m with
    | nil => exact nil
    | cons a m ih => rw [List.reverse_cons]; exact snoc _ _ ih
  simpa using this l.reverse

theorem after_snoc (n : Nat) (h : List Ev) (e : Ev) : after n (h ++ [e]) = (step (after n h) e).1 := by
  simp [after]

theorem lookup_eq (s : Fw) : lookup s = toFw16 s := by cases s <;> rfl

theorem lookupDiag_eq (s : Log) : lookupDiag s = toDiag s := by cases s <;> rfl

/-- The state of the charge point is a function of the history. -/
structure Knows (n : Nat) (h : List Ev) (s : State) : Prop where
  n : s.n = n
  diag : s.diag = diagNow h
  fw : s.fw = fwNow h
  logId : s.logId = (last logReport h).map Prod.snd
  log : s.log = ((last logReport h).map (fun p => logNow p.1)).getD .idle
  signed : s.signed = (last signedReport h).map (fun p => signedNow p.1)
  signedId : s.signedId = (last signedReport h).map Prod.snd
  meter : ∀ c, s.meter c = last (samples c) h
  situation : ∀ c, (s.status c, s.error c) = situationNow c h
  ability : (s.cpo, s.csr) = abilityNow h

/-- What a step does not touch. -/
structure Same (s t : State) : Prop where
  n : t.n = s.n
  diag : t.diag = s.diag
  fw : t.fw = s.fw
  logId : t.logId = s.logId
  log : t.log = s.log
  signed : t.signed = s.signed
  signedId : t.signedId = s.signedId
  meter : t.meter = s.meter
  status : t.status = s.status
  error : t.error = s.error
  cpo : t.cpo = s.cpo
  csr : t.csr = s.csr

theorem Knows.same {n : Nat} {h : List Ev} {s t : State} (k : Knows n h s) (m : Same s t) (e : Ev)
    (h1 : diagReport e = none) (h2 : fwReport e = none) (h3 : logReport e = none) (h4 : signedReport e = none)
    (h5 : ∀ c, samples c e = none) (h6 : ∀ c, Trig16.situation c e = none) (h7 : Trig16.ability e = none) :
    Knows n (h ++ [e]) t where
  n := by rw [m.n, k.n]
  diag := by rw [m.diag, k.diag]; simp only [diagNow, last_snoc, h1, Option.none_or]
  fw := by rw [m.fw, k.fw]; simp only [fwNow, last_snoc, h2, Option.none_or]
  logId := by rw [m.logId, k.logId]; simp only [last_snoc, h3, Option.none_or]
  log := by rw [m.log, k.log]; simp only [last_snoc, h3, Option.none_or]
  signed := by rw [m.signed, k.signed]; simp only [last_snoc, h4, Option.none_or]
  signedId := by rw [m.signedId, k.signedId]; simp only [last_snoc, h4, Option.none_or]
  meter c := by rw [m.meter, k.meter]; simp only [last_snoc, h5, Option.none_or]
  situation c := by rw [m.status, m.error, k.situation]; simp only [situationNow, last_snoc, h6, Option.none_or]
  ability := by rw [m.cpo, m.csr, k.ability]; simp only [abilityNow, last_snoc, h7, Option.none_or]

theorem Same.refl (s : State) : Same s s := ⟨rfl, rfl, rfl, rfl, rfl, rfl, rfl, rfl, rfl, rfl, rfl, rfl⟩

theorem sendDiag_same {n : Nat} {h : List Ev} {s : State} (k : Knows n h s) : Same s (sendDiag s s.diag).1 := by
  refine ⟨rfl, ?_, rfl, rfl, rfl, rfl, rfl, rfl, rfl, rfl, rfl, rfl⟩
  show (if s.diag ≠ .uploading then Diag.idle else s.diag) = s.diag
  rw [k.diag]
  unfold diagNow
  split <;> rfl

theorem sendFw_same (s : State) : Same s (sendFw s s.fw).1 :=
  ⟨rfl, rfl, rfl, rfl, rfl, rfl, rfl, rfl, rfl, rfl, rfl, rfl⟩

theorem perform_same {n : Nat} {h : List Ev} {s : State} (k : Knows n h s) (m : Msg) (c : Option Int) :
    Same s (perform s m c).1 := by
  cases m
  · exact Same.refl s
  · exact sendDiag_same k
  · exact sendFw_same s
  · exact Same.refl s
  · exact Same.refl s
  · exact Same.refl s

theorem performExt_same {n : Nat} {h : List Ev} {s : State} (k : Knows n h s) (m : Ext) (c : Option Int) :
    Same s (performExt s m c).1 := by
  cases m
  · exact Same.refl s
  · cases h1 : s.signed with
    | none => simp only [performExt, h1]; exact Same.refl s
    | some st =>
      cases h2 : s.signedId with
      | none => simp only [performExt, h1, h2]; exact Same.refl s
      | some id =>
        simp only [performExt, h1, h2]
        exact ⟨rfl, rfl, rfl, rfl, rfl, h1.symm, h2.symm, rfl, rfl, rfl, rfl, rfl⟩
  · exact Same.refl s
  · cases h1 : s.logId with
    | none => simp only [performExt, h1]; exact Same.refl s
    | some id =>
      simp only [performExt, h1]
      refine ⟨rfl, rfl, rfl, h1.symm, ?_, rfl, rfl, rfl, rfl, rfl, rfl, rfl⟩
      show (if s.log ≠ .uploading then Log.idle else s.log) = s.log
      rw [k.log]
      cases last logReport h with
      | none => rfl
      | some p =>
        show (if logNow p.1 ≠ .uploading then Log.idle else logNow p.1) = logNow p.1
        unfold logNow
        by_cases hp : p.1 = .uploading
        · rw [if_pos hp]; rfl
        · rw [if_neg hp]; rfl
  · exact Same.refl s
  · exact Same.refl s
  · exact Same.refl s

theorem knows_log {n : Nat} {h : List Ev} {s : State} (k : Knows n h s) (id : Int) (st : Log) :
    Knows n (h ++ [.logStatus id st]) (onLog s id st).1 := by
  by_cases hid : id = -1
  · subst hid
    have e1 : logReport (.logStatus (-1) st) = none := rfl
    have key : ∀ d, toDiag st = d → Knows n (h ++ [.logStatus (-1) st]) (onLog s (-1) st).1 := by
      intro d hd
      have e2 : diagReport (.logStatus (-1) st) = d := by
        show (if (-1 : Int) = -1 then lookupDiag st else none) = d
        rw [if_pos rfl, lookupDiag_eq, hd]
      have e3 : onLog s (-1) st = match toDiag st with
        | some x => sendDiag s x
        | none => (s, [.exception]) := rfl
      rw [e3]
      clear e3
      cases d with
      | none => rw [hd]; exact k.same (Same.refl s) _ e2 rfl e1 rfl (fun _ => rfl) (fun _ => rfl) rfl
      | some x =>
        rw [hd]
        refine ⟨k.n, ?_, ?_, ?_, ?_, ?_, ?_, ?_, ?_, ?_⟩
        · show (if x ≠ .uploading then Diag.idle else x) = diagNow (h ++ [.logStatus (-1) st])
          simp only [diagNow, last_snoc, e2]
          cases x <;> rfl
        · show s.fw = _
          rw [k.fw]; simp only [fwNow, last_snoc]; rfl
        · show s.logId = _
          rw [k.logId]; simp only [last_snoc, e1, Option.none_or]
        · show s.log = _
          rw [k.log]; simp only [last_snoc, e1, Option.none_or]
        · show s.signed = _
          rw [k.signed]; simp only [last_snoc]; rfl
        · show s.signedId = _
          rw [k.signedId]; simp only [last_snoc]; rfl
        · intro c; show s.meter c = _
          rw [k.meter]; simp only [last_snoc]; rfl
        · intro c; show (s.status c, s.error c) = _
          rw [k.situation]; simp only [situationNow, last_snoc]; rfl
        · show (s.cpo, s.csr) = _
          rw [k.ability]; simp only [abilityNow, last_snoc]; rfl
    exact key _ rfl
  · have e1 : logReport (.logStatus id st) = some (st, id) := if_neg hid
    have e2 : diagReport (.logStatus id st) = none := if_neg hid
    have e3 : onLog s id st = sendLog s st id := by unfold onLog; rw [if_pos hid]
    rw [e3]
    refine ⟨k.n, ?_, ?_, ?_, ?_, ?_, ?_, ?_, ?_, ?_⟩
    · show s.diag = _
      rw [k.diag]; simp only [diagNow, last_snoc, e2, Option.none_or]
    · show s.fw = _
      rw [k.fw]; simp only [fwNow, last_snoc]; rfl
    · show some id = _
      simp only [last_snoc, e1]; rfl
    · show (if st ≠ .uploading then Log.idle else st) = _
      simp only [last_snoc, e1]
      cases st <;> rfl
    · show s.signed = _
      rw [k.signed]; simp only [last_snoc]; rfl
    · show s.signedId = _
      rw [k.signedId]; simp only [last_snoc]; rfl
    · intro c; show s.meter c = _
      rw [k.meter]; simp only [last_snoc]; rfl
    · intro c; show (s.status c, s.error c) = _
      rw [k.situation]; simp only [situationNow, last_snoc]; rfl
    · show (s.cpo, s.csr) = _
      rw [k.ability]; simp only [abilityNow, last_snoc]; rfl

theorem onFirmware_signed (s : State) (id : Int) (st : Fw) (hid : id ≠ -1) :
    (onFirmware s id st).1 =
      { (sendSigned s st id).1 with signed := some (if ends st then .idle else st) } := by
  simp only [onFirmware, endFirmware, reportFirmware]
  rw [if_pos hid, if_pos hid]
  cases h : ends st <;> rfl

theorem onFirmware_plain (s : State) (st : Fw) :
    (onFirmware s (-1) st).1 =
      { s with
        pending := (onFirmware s (-1) st).1.pending
        fw := if ends st then .idle else (toFw16 st).getD s.fw } := by
  cases st <;> rfl

theorem over_signed (st : Fw) : (if ends st then Fw.idle else st) = signedNow st := by cases st <;> rfl

theorem over_plain (st : Fw) (old : Fw16) : (if ends st then Fw16.idle else (toFw16 st).getD old) =
    if lookup st ≠ none ∨ over st then (if over st then .idle else (lookup st).getD .idle) else old := by
  cases st <;> rfl

theorem knows_firmware {n : Nat} {h : List Ev} {s : State} (k : Knows n h s) (id : Int) (st : Fw) :
    Knows n (h ++ [.firmware id st]) (onFirmware s id st).1 := by
  by_cases hid : id = -1
  · subst hid
    rw [onFirmware_plain]
    refine ⟨k.n, ?_, ?_, ?_, ?_, ?_, ?_, ?_, ?_, ?_⟩
    · show s.diag = _
      rw [k.diag]; simp only [diagNow, last_snoc]; rfl
    · show (if ends st then Fw16.idle else (toFw16 st).getD s.fw) = _
      rw [over_plain, k.fw]
      unfold fwNow
      rw [last_snoc]
      by_cases hc : lookup st ≠ none ∨ over st
      · have : fwReport (.firmware (-1) st) = some st := if_pos ⟨rfl, hc⟩
        rw [if_pos hc, this]; rfl
      · have : fwReport (.firmware (-1) st) = none := if_neg (fun g => hc g.2)
        rw [if_neg hc, this]; rfl
    · show s.logId = _
      rw [k.logId]; simp only [last_snoc]; rfl
    · show s.log = _
      rw [k.log]; simp only [last_snoc]; rfl
    · show s.signed = _
      rw [k.signed]; simp only [last_snoc]; rfl
    · show s.signedId = _
      rw [k.signedId]; simp only [last_snoc]; rfl
    · intro c; show s.meter c = _
      rw [k.meter]; simp only [last_snoc]; rfl
    · intro c; show (s.status c, s.error c) = _
      rw [k.situation]; simp only [situationNow, last_snoc]; rfl
    · show (s.cpo, s.csr) = _
      rw [k.ability]; simp only [abilityNow, last_snoc]; rfl
  · have e1 : signedReport (.firmware id st) = some (st, id) := if_neg hid
    have e2 : fwReport (.firmware id st) = none := if_neg (fun g => hid g.1)
    rw [onFirmware_signed s id st hid]
    refine ⟨k.n, ?_, ?_, ?_, ?_, ?_, ?_, ?_, ?_, ?_⟩
    · show s.diag = _
      rw [k.diag]; simp only [diagNow, last_snoc]; rfl
    · show s.fw = _
      rw [k.fw]; simp only [fwNow, last_snoc, e2, Option.none_or]
    · show s.logId = _
      rw [k.logId]; simp only [last_snoc]; rfl
    · show s.log = _
      rw [k.log]; simp only [last_snoc]; rfl
    · show some (if ends st then Fw.idle else st) = _
      simp only [last_snoc, e1, over_signed]; rfl
    · show some id = _
      simp only [last_snoc, e1]; rfl
    · intro c; show s.meter c = _
      rw [k.meter]; simp only [last_snoc]; rfl
    · intro c; show (s.status c, s.error c) = _
      rw [k.situation]; simp only [situationNow, last_snoc]; rfl
    · show (s.cpo, s.csr) = _
      rw [k.ability]; simp only [abilityNow, last_snoc]; rfl

theorem knows_step {n : Nat} {h : List Ev} {s : State} (k : Knows n h s) (e : Ev) :
    Knows n (h ++ [e]) (step s e).1 := by
  cases e with
  | logStatus id st => exact knows_log k id st
  | firmware id st => exact knows_firmware k id st
  | measured c x =>
    refine ⟨k.n, ?_, ?_, ?_, ?_, ?_, ?_, ?_, ?_, ?_⟩
    · show s.diag = _
      rw [k.diag]; simp only [diagNow, last_snoc]; rfl
    · show s.fw = _
      rw [k.fw]; simp only [fwNow, last_snoc]; rfl
    · show s.logId = _
      rw [k.logId]; simp only [last_snoc]; rfl
    · show s.log = _
      rw [k.log]; simp only [last_snoc]; rfl
    · show s.signed = _
      rw [k.signed]; simp only [last_snoc]; rfl
    · show s.signedId = _
      rw [k.signedId]; simp only [last_snoc]; rfl
    · intro d; show (if d = c then some x else s.meter d) = _
      rw [last_snoc]
      show _ = (if c = d then some x else none).or _
      by_cases hd : d = c
      · rw [if_pos hd, if_pos hd.symm]; rfl
      · rw [if_neg hd, if_neg (Ne.symm hd), k.meter]; rfl
    · intro c; show (s.status c, s.error c) = _
      rw [k.situation]; simp only [situationNow, last_snoc]; rfl
    · show (s.cpo, s.csr) = _
      rw [k.ability]; simp only [abilityNow, last_snoc]; rfl
  | connector c st x =>
    refine ⟨k.n, ?_, ?_, ?_, ?_, ?_, ?_, ?_, ?_, ?_⟩
    · show s.diag = _
      rw [k.diag]; simp only [diagNow, last_snoc]; rfl
    · show s.fw = _
      rw [k.fw]; simp only [fwNow, last_snoc]; rfl
    · show s.logId = _
      rw [k.logId]; simp only [last_snoc]; rfl
    · show s.log = _
      rw [k.log]; simp only [last_snoc]; rfl
    · show s.signed = _
      rw [k.signed]; simp only [last_snoc]; rfl
    · show s.signedId = _
      rw [k.signedId]; simp only [last_snoc]; rfl
    · intro c; show s.meter c = _
      rw [k.meter]; simp only [last_snoc]; rfl
    · intro d; show (if d = c then st else s.status d, if d = c then x else s.error d) = _
      unfold situationNow
      rw [last_snoc]
      show _ = ((if c = d then some (st, x) else none).or _).getD _
      by_cases hd : d = c
      · rw [if_pos hd, if_pos hd, if_pos hd.symm]; rfl
      · rw [if_neg hd, if_neg hd, if_neg (Ne.symm hd), k.situation]; rfl
    · show (s.cpo, s.csr) = _
      rw [k.ability]; simp only [abilityNow, last_snoc]; rfl
  | security a b =>
    refine ⟨k.n, ?_, ?_, ?_, ?_, ?_, ?_, ?_, ?_, ?_⟩
    · show s.diag = _
      rw [k.diag]; simp only [diagNow, last_snoc]; rfl
    · show s.fw = _
      rw [k.fw]; simp only [fwNow, last_snoc]; rfl
    · show s.logId = _
      rw [k.logId]; simp only [last_snoc]; rfl
    · show s.log = _
      rw [k.log]; simp only [last_snoc]; rfl
    · show s.signed = _
      rw [k.signed]; simp only [last_snoc]; rfl
    · show s.signedId = _
      rw [k.signedId]; simp only [last_snoc]; rfl
    · intro c; show s.meter c = _
      rw [k.meter]; simp only [last_snoc]; rfl
    · intro c; show (s.status c, s.error c) = _
      rw [k.situation]; simp only [situationNow, last_snoc]; rfl
    · show (a, b) = _
      unfold abilityNow
      rw [last_snoc]; rfl
  | trigger m c =>
    refine k.same ?_ _ rfl rfl rfl rfl (fun _ => rfl) (fun _ => rfl) rfl
    simp only [step, onTrigger]
    split
    · exact perform_same k m c
    · exact Same.refl s
  | extTrigger m c =>
    refine k.same ?_ _ rfl rfl rfl rfl (fun _ => rfl) (fun _ => rfl) rfl
    simp only [step, onExtTrigger]
    split
    · exact performExt_same k m c
    · exact Same.refl s

theorem knows (n : Nat) (h : List Ev) : Knows n h (after n h) := by
  induction h using snocInd with
  | nil => exact ⟨rfl, rfl, rfl, rfl, rfl, rfl, rfl, fun _ => rfl, fun _ => rfl, rfl⟩
  | snoc h e ih => rw [after_snoc]; exact knows_step ih e

theorem inRange_iff (s : State) (c : Option Int) : inRange s c = true ↔ Exists s.n c := by
  cases c with
  | none =>
    constructor
    · intro _ x hx; cases hx
    · intro _; simp [inRange]
  | some x =>
    constructor
    · intro h y hy
      cases hy
      simp [inRange] at h
      omega
    · intro h
      have := h x rfl
      simp [inRange]
      omega

theorem sendStatuses_eq {n : Nat} {h : List Ev} {s : State} (k : Knows n h s) (c : Option Int) :
    sendStatuses s c = (addressed n c).map (statusOf h) := by
  have e : sendStatus s = statusOf h := by
    funext x
    have := k.situation x
    simp only [sendStatus, statusOf, ← this]
  cases c with
  | none => simp only [sendStatuses, addressed, e, k.n]
  | some x => simp only [sendStatuses, addressed, e, List.map_cons, List.map_nil]

theorem sendMeter_eq {n : Nat} {h : List Ev} {s : State} (k : Knows n h s) (c : Nat) :
    sendMeter s c = ([c].filter (hasSamples h)).map .meterValues := by
  unfold sendMeter hasSamples
  rw [k.meter]
  rcases hm : last (samples c) h with _ | _ | x <;> simp [hm]

theorem meters_eq {n : Nat} {h : List Ev} {s : State} (k : Knows n h s) (l : List Nat) :
    l.flatMap (sendMeter s) = (l.filter (hasSamples h)).map .meterValues := by
  induction l with
  | nil => rfl
  | cons c l ih =>
    rw [List.flatMap_cons, ih, sendMeter_eq k, List.filter_cons, List.filter_cons]
    cases hasSamples h c <;> rfl

theorem sent_fw (s : State) (x : Fw16) : sent (sendFw s x).2 = [.fw x] := by
  unfold sendFw
  simp only
  generalize (if x = .downloaded then true
    else if x = .downloadFailed ∨ x = .installationFailed then false else s.pending) = p
  cases p <;> rfl

theorem perform_sent {n : Nat} {h : List Ev} {s : State} (k : Knows n h s) (m : Msg) (c : Option Int) :
    sent (perform s m c).2 = due n h c m := by
  have hs : ∀ l : List Out, (∀ o ∈ l, o ≠ .prepare ∧ o ≠ .restore) → sent l = l := by
    intro l hl
    unfold sent
    rw [List.filter_eq_self]
    intro o ho
    exact decide_eq_true (hl o ho)
  cases m with
  | boot => rfl
  | diagnostics => simp only [perform, sendDiag, due, ← k.diag]; rfl
  | firmware => simp only [perform, due, ← k.fw]; exact sent_fw s s.fw
  | heartbeat => rfl
  | meterValues =>
    have e : (perform s .meterValues c).2 = metersOf n h c := by
      cases c with
      | none => simp only [perform, metersOf, addressed, k.n]; exact meters_eq k _
      | some x => simp only [perform, metersOf, addressed]; exact sendMeter_eq k _
    rw [e]
    apply hs
    intro o ho
    simp only [metersOf, List.mem_map] at ho
    obtain ⟨x, _, rfl⟩ := ho
    simp
  | status =>
    simp only [perform, due, sendStatuses_eq k]
    apply hs
    intro o ho
    simp only [List.mem_map] at ho
    obtain ⟨x, _, rfl⟩ := ho
    simp [statusOf]

/-! ## C171 -/

/-- **C171**: whenever the CSMS asks for it, DiagnosticsStatusNotification tells what the application reported last:
Uploading while an upload goes on, else Idle. -/
theorem C171_diagnostics (n : Nat) (h : List Ev) (c : Option Int) (hc : Exists n c) :
    (step (after n h) (.trigger .diagnostics c)).2 = [.answer true, .diag (diagNow h)] := by
  have k := knows n h
  have hr : inRange (after n h) c = true := by rw [inRange_iff, k.n]; exact hc
  have : (onTrigger (after n h) .diagnostics c).2 = .answer true :: (perform (after n h) .diagnostics c).2 := by
    unfold onTrigger
    rw [if_pos (by rw [hr]; rfl)]
  show (onTrigger (after n h) .diagnostics c).2 = _
  rw [this, ← k.diag]
  rfl

/-- **C171**: whenever the CSMS asks for it, FirmwareStatusNotification tells the last status reported by the application,
or Idle if the update is over or there was none. -/
theorem C171_firmware (n : Nat) (h : List Ev) (c : Option Int) (hc : Exists n c) :
    sent (step (after n h) (.trigger .firmware c)).2 = [.answer true, .fw (fwNow h)] := by
  have k := knows n h
  have hr : inRange (after n h) c = true := by rw [inRange_iff, k.n]; exact hc
  have : (onTrigger (after n h) .firmware c).2 = .answer true :: (perform (after n h) .firmware c).2 := by
    unfold onTrigger
    rw [if_pos (by rw [hr]; rfl)]
  show sent (onTrigger (after n h) .firmware c).2 = _
  rw [this]
  show .answer true :: sent (perform (after n h) .firmware c).2 = _
  rw [perform_sent k]
  rfl

theorem sent_signed (s : State) (x : Fw) (id : Int) :
    sent (sendSigned s x id).2 = .signed x id :: if x = .invalidSignature then [.invalidSignature] else [] := by
  simp only [sendSigned]
  generalize (if x = .signatureVerified then true
    else if x = .installationFailed ∨ x = .downloadFailed ∨ x = .installVerificationFailed ∨ x = .invalidSignature
      then false
    else s.pending) = p
  by_cases hx : x = .invalidSignature
  · subst hx; cases p <;> rfl
  · rw [if_neg hx]; cases p <;> rfl

theorem signedNow_ne (x : Fw) : signedNow x ≠ .invalidSignature := by cases x <;> simp [signedNow, over]

theorem ext_answer (s : State) (m : Ext) (c : Option Int) (hm : m ≠ .sign) (hc : Exists s.n c) :
    (step s (.extTrigger m c)).2 = .answer true :: (performExt s m c).2 := by
  have hr := (inRange_iff s c).2 hc
  show (onExtTrigger s m c).2 = _
  unfold onExtTrigger
  rw [if_pos]
  rw [hr]
  cases m <;> first | rfl | exact absurd rfl hm

/-- **C171**: the same for SignedFirmwareStatusNotification, with the id of the request the status belongs to, once a
status was reported. -/
theorem C171_signed_partial (n : Nat) (h : List Ev) (c : Option Int) (hc : Exists n c) (s : Fw) (id : Int)
    (hs : last signedReport h = some (s, id)) :
    sent (step (after n h) (.extTrigger .firmware c)).2 = [.answer true, .signed (signedNow s) id] := by
  have k := knows n h
  rw [ext_answer _ _ _ (by simp) (by rw [k.n]; exact hc)]
  have e1 : (after n h).signed = some (signedNow s) := by rw [k.signed, hs]; rfl
  have e2 : (after n h).signedId = some id := by rw [k.signedId, hs]; rfl
  show .answer true :: sent (performExt (after n h) .firmware c).2 = _
  simp only [performExt, e1, e2]
  rw [sent_signed, if_neg (signedNow_ne s)]

/-- **C171**: the same for LogStatusNotification, once a status was reported. -/
theorem C171_log_partial (n : Nat) (h : List Ev) (c : Option Int) (hc : Exists n c) (s : Log) (id : Int)
    (hs : last logReport h = some (s, id)) :
    (step (after n h) (.extTrigger .log c)).2 = [.answer true, .log (logNow s) id] := by
  have k := knows n h
  rw [ext_answer _ _ _ (by simp) (by rw [k.n]; exact hc)]
  have e1 : (after n h).log = logNow s := by rw [k.log, hs]; rfl
  have e2 : (after n h).logId = some id := by rw [k.logId, hs]; rfl
  simp only [performExt, e2, sendLog, e1]

/-- Histories for the examples: an upload of diagnostics that goes on, one of a log that failed, an unsigned update being
installed, a signed one that is over. -/
def example1 : List Ev :=
  [.logStatus (-1) .uploading, .logStatus 7 .uploading, .firmware (-1) .downloaded, .firmware 4 .downloading,
    .logStatus 7 .uploadFailure, .firmware (-1) .installing, .firmware 4 .invalidSignature, .measured 1 3,
    .connector 2 .charging 5]

example : diagNow example1 = .uploading ∧ fwNow example1 = .installing ∧
    last signedReport example1 = some (.invalidSignature, 4) ∧ last logReport example1 = some (.uploadFailure, 7) ∧
    Exists 2 (some 1) ∧ signedNow .invalidSignature = .idle := by decide

/-- **C171**: each report of the application is told to the CSMS at once, as it is. -/
theorem C171_told (n : Nat) (h : List Ev) (id : Int) :
    (∀ s, id ≠ -1 → (step (after n h) (.logStatus id s)).2 = [.log s id]) ∧
    (∀ s d, id = -1 → lookupDiag s = some d → (step (after n h) (.logStatus id s)).2 = [.diag d]) ∧
    (∀ s, id ≠ -1 → (sent (step (after n h) (.firmware id s)).2).head? = some (.signed s id)) ∧
    (∀ s f, id = -1 → lookup s = some f → sent (step (after n h) (.firmware id s)).2 = [.fw f]) := by
  refine ⟨?_, ?_, ?_, ?_⟩
  · intro s hid
    show (onLog (after n h) id s).2 = _
    unfold onLog
    rw [if_pos hid]; rfl
  · intro s d hid hd
    show (onLog (after n h) id s).2 = _
    rw [lookupDiag_eq] at hd
    unfold onLog
    rw [if_neg (by simp [hid])]
    simp only [hd]; rfl
  · intro s hid
    have : (step (after n h) (.firmware id s)).2 = (sendSigned (after n h) s id).2 ++ if restores s then [.restore] else [] := by
      show (onFirmware (after n h) id s).2 = _
      simp only [onFirmware, reportFirmware]
      rw [if_pos hid]
    rw [this]
    unfold sent
    rw [List.filter_append]
    show (sent (sendSigned (after n h) s id).2 ++ _).head? = _
    rw [sent_signed]; rfl
  · intro s f hid hf
    rw [lookup_eq] at hf
    have : (step (after n h) (.firmware id s)).2 = (sendFw (after n h) f).2 ++ if restores s then [.restore] else [] := by
      show (onFirmware (after n h) id s).2 = _
      simp only [onFirmware, reportFirmware]
      rw [if_neg (by simp [hid])]
      simp only [hf]
    rw [this]
    unfold sent
    rw [List.filter_append]
    show sent (sendFw (after n h) f).2 ++ _ = _
    rw [sent_fw]
    cases restores s <;> rfl

/-- **C171**: the connectors that were made unavailable for an update are made available again exactly when the application reports that the
installation is over: installed, failed or not verified. -/
theorem C171_restore (n : Nat) (h : List Ev) (id : Int) (s : Fw) :
    .restore ∈ (step (after n h) (.firmware id s)).2 ↔ s = .installed ∨ s = .installationFailed ∨ s = .installVerificationFailed := by
  show .restore ∈ (onFirmware (after n h) id s).2 ↔ _
  have h1 : ∀ st, .restore ∉ (sendSigned (after n h) st id).2 := by
    intro st
    simp only [sendSigned]
    repeat' split
    all_goals simp
  have h2 : ∀ f, .restore ∉ (sendFw (after n h) f).2 := by
    intro f
    simp only [sendFw]
    repeat' split
    all_goals simp
  have h3 : .restore ∉ (reportFirmware (after n h) id s).2 := by
    unfold reportFirmware
    split
    · exact h1 s
    · split
      · exact h2 _
      · simp
  simp only [onFirmware, List.mem_append, h3, false_or]
  cases s <;> simp [restores]

/-- **C171 (violated)**: before the first report of a signed update, or of the upload of a log, the status that is sent on
request is made of values that were never set. -/
theorem C171_unset_violated :
    (step (after 2 []) (.extTrigger .firmware none)).2 = [.answer true, .undefined] ∧
    (step (after 2 []) (.extTrigger .log none)).2 = [.answer true, .undefined] := by decide

/-- **C171 (violated)**: asking for the status of an update that is over (installed) makes the connectors unavailable
again. -/
theorem C171_harmless_violated :
    (step (after 2 [.firmware (-1) .downloaded, .firmware (-1) .installed]) (.trigger .firmware none)).2 =
      [.answer true, .fw .idle, .prepare] := by decide

/-! ## C172 -/

/-- **C172**: a request that names a connector that does not exist is rejected, and nothing is sent or changed. -/
theorem C172_rejected (n : Nat) (h : List Ev) (c : Option Int) (hc : ¬ Exists n c) :
    (∀ m, step (after n h) (.trigger m c) = (after n h, [.answer false])) ∧
    (∀ m, step (after n h) (.extTrigger m c) = (after n h, [.answer false])) := by
  have k := knows n h
  have hr : inRange (after n h) c = false := by
    rw [← Bool.not_eq_true, inRange_iff, k.n]; exact hc
  constructor
  · intro m
    show onTrigger (after n h) m c = _
    unfold onTrigger
    rw [if_neg (by simp [hr])]
  · intro m
    show onExtTrigger (after n h) m c = _
    unfold onExtTrigger
    rw [if_neg (by simp [hr])]

theorem due_ne (n : Nat) (h : List Ev) (c : Option Int) (m : Msg) (hm : m ≠ .meterValues) :
    (due n h c m).isEmpty = false := by
  cases m with
  | boot => rfl
  | diagnostics => rfl
  | firmware => rfl
  | heartbeat => rfl
  | meterValues => exact absurd rfl hm
  | status => cases c <;> simp [due, addressed]

/-- **C172**: otherwise TriggerMessage is answered Accepted exactly if there is something to send, and then the messages
asked for are sent at once: those of the named connector or else of all connectors, with the true statuses. Assumed: every
measurement contains a value the key MeterValuesSampledData asks for. -/
theorem C172_trigger_partial (n : Nat) (h : List Ev) (m : Msg) (c : Option Int) (hc : Exists n c)
    (hv : ∀ d, last (samples d) h ≠ some 0) :
    sent (step (after n h) (.trigger m c)).2 = served (due n h c m) := by
  have k := knows n h
  have hr : inRange (after n h) c = true := by rw [inRange_iff, k.n]; exact hc
  have hsome : ∀ d, ((after n h).meter d).isSome = hasSamples h d := by
    intro d
    have := hv d
    unfold hasSamples
    rw [k.meter]
    rcases hd : last (samples d) h with _ | _ | x
    · rfl
    · exact absurd hd this
    · simp
  by_cases hm : m = .meterValues
  · subst hm
    have hmeas : measured (after n h) c = !(due n h c .meterValues).isEmpty := by
      cases c with
      | none =>
        simp only [measured, hsome, due, metersOf, addressed, k.n]
        generalize List.range (n + 1) = l
        induction l with
        | nil => rfl
        | cons a l ih =>
          rw [List.any_cons, List.filter_cons, ih]
          cases hasSamples h a <;> simp
      | some x =>
        simp only [measured, hsome, due, metersOf, addressed]
        cases hx : hasSamples h x.toNat <;> simp [hx]
    show sent (onTrigger (after n h) .meterValues c).2 = _
    unfold onTrigger
    cases hd : (due n h c .meterValues).isEmpty with
    | false =>
      rw [if_pos (by rw [hr, hmeas, hd]; rfl)]
      show .answer true :: sent (perform (after n h) .meterValues c).2 = _
      rw [perform_sent k, served, hd]; rfl
    | true =>
      rw [if_neg (by rw [hr, hmeas, hd]; simp)]
      rw [served, hd]
      rw [List.isEmpty_iff] at hd
      rw [hd]; rfl
  · show sent (onTrigger (after n h) m c).2 = _
    unfold onTrigger
    have hne : (m != .meterValues) = true := by simpa using hm
    rw [if_pos (by rw [hr, hne]; rfl)]
    show .answer true :: sent (perform (after n h) m c).2 = _
    rw [perform_sent k, served, due_ne n h c m hm]; rfl

/-- **C172**: the same for ExtendedTriggerMessage. Assumed: for a status of a log or of an update, that there was one; for
meter values, that the request names a connector that was measured; for a certificate, that a signing request can be made
if the name of the operator is known. -/
theorem C172_extended_partial (n : Nat) (h : List Ev) (m : Ext) (c : Option Int) (anyId : Int) (hc : Exists n c)
    (h1 : m = .firmware → last signedReport h ≠ none) (h2 : m = .log → last logReport h ≠ none)
    (h3 : m = .meterValues → ∃ x, c = some x ∧ hasSamples h x.toNat = true)
    (h4 : m = .sign → (abilityNow h).1 = true → (abilityNow h).2 = true) :
    sent (step (after n h) (.extTrigger m c)).2 = served (dueExt n h c anyId m) := by
  have k := knows n h
  have hc' : Exists (after n h).n c := by rw [k.n]; exact hc
  cases m with
  | boot => rw [ext_answer _ _ _ (by simp) hc']; rfl
  | heartbeat => rw [ext_answer _ _ _ (by simp) hc']; rfl
  | firmware =>
    cases hl : last signedReport h with
    | none => exact absurd hl (h1 rfl)
    | some p =>
      obtain ⟨s, id⟩ := p
      rw [C171_signed_partial n h c hc s id hl]
      simp only [dueExt, hl]; rfl
  | log =>
    cases hl : last logReport h with
    | none => exact absurd hl (h2 rfl)
    | some p =>
      obtain ⟨s, id⟩ := p
      rw [C171_log_partial n h c hc s id hl]
      simp only [dueExt, hl]; rfl
  | meterValues =>
    obtain ⟨x, rfl, hx⟩ := h3 rfl
    rw [ext_answer _ _ _ (by simp) hc']
    show .answer true :: sent (sendMeter (after n h) x.toNat) = _
    rw [sendMeter_eq k]
    simp only [dueExt, metersOf, addressed, List.filter_cons, hx]
    rfl
  | status =>
    rw [ext_answer _ _ _ (by simp) hc']
    have := perform_sent k .status c
    show .answer true :: sent (sendStatuses (after n h) c) = _
    have e : sent (sendStatuses (after n h) c) = due n h c .status := this
    rw [e, served, show dueExt n h c anyId .status = due n h c .status from rfl, due_ne n h c .status (by simp)]
    rfl
  | sign =>
    have hr := (inRange_iff _ c).2 hc'
    have ha := k.ability
    have ha1 : (after n h).cpo = (abilityNow h).1 := by rw [← ha]
    have ha2 : (after n h).csr = (abilityNow h).2 := by rw [← ha]
    show sent (onExtTrigger (after n h) .sign c).2 = _
    unfold onExtTrigger
    cases hcpo : (abilityNow h).1 with
    | false =>
      rw [if_neg (by rw [ha1, hcpo]; simp)]
      have : abilityNow h ≠ (true, true) := by intro g; rw [g] at hcpo; cases hcpo
      simp only [dueExt, if_neg this]; rfl
    | true =>
      have hcsr := h4 rfl hcpo
      rw [if_pos (by rw [ha1, hcpo, hr]; rfl)]
      have : abilityNow h = (true, true) := Prod.ext hcpo hcsr
      simp only [dueExt, if_pos this, performExt, sign, ha1, ha2, hcpo, hcsr]; rfl

example : Exists 2 (some 1) ∧ hasSamples example1 1 = true ∧ ¬ Exists 2 (some 3) ∧
    due 2 example1 none .meterValues = [.meterValues 1] ∧
    due 2 example1 none .status = [.status 0 .available 0, .status 1 .available 0, .status 2 .charging 5] ∧
    due 2 example1 (some 2) .meterValues = [] := by decide

example : ∀ d, last (samples d) example1 ≠ some 0 := by
  intro d
  by_cases h : 1 = d
  · subst h; decide
  · have : example1.filterMap (samples d) = [] := by
      simp only [example1, List.filterMap_cons, List.filterMap_nil, samples, if_neg h]
    unfold last
    rw [this]
    simp

/-- **C172 (violated)**: a request for meter values is accepted although nothing is sent, if the key
MeterValuesSampledData asks for nothing that was measured. -/
theorem C172_empty_violated :
    (step (after 2 [.measured 1 0]) (.trigger .meterValues (some 1))).2 = [.answer true] := by decide

/-- **C172 (violated)**: an extended request for meter values is accepted although nothing was measured. -/
theorem C172_unmeasured_violated :
    (step (after 2 []) (.extTrigger .meterValues (some 1))).2 = [.answer true] := by decide

/-- **C172 (violated)**: an extended request for the meter values of all connectors is accepted, but only those of
connector 0 are sent. -/
theorem C172_zero_violated :
    (step (after 2 [.measured 1 3, .measured 2 3]) (.extTrigger .meterValues none)).2 = [.answer true] ∧
    (step (after 2 [.measured 0 3, .measured 1 3]) (.extTrigger .meterValues none)).2 =
      [.answer true, .meterValues 0] := by decide

/-- **C172 (violated)**: an extended request for a new certificate is accepted although no signing request can be made. -/
theorem C172_sign_violated :
    (step (after 2 [.security true false]) (.extTrigger .sign none)).2 = [.answer true, .csrFailed] := by decide

end Verif.Trig16
