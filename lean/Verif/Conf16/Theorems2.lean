import Verif.Conf16.Lemmas3
/-! C131 (restart), C134, C137: histories. -/
set_option linter.unusedSimpArgs false

namespace Verif.Conf16

/-! ## C131: the changes survive a restart -/

/-- C131, partial: however the configuration was changed since the first start, by requests, by the application and by switches of the security profile, with restarts in
between: when the process ends and can start again, each key is reported as before.  Hypotheses: each write of the file succeeds. -/
theorem C131_restart_partial {env : Env} {base user : Maps} {s0 s s' : St} {ops : List Op} (hb : boot env base user = some s0) (hf : Fresh s0.cfg)
    (hw : ∀ op ∈ ops, op.written) (hr : run env s0 ops = some s) (hs : restart env s = some s') :
    (∀ k, get env s' k = get env s k) ∧ s'.cfg = s.cfg := by
  obtain ⟨⟨u, hu, hc⟩, _⟩ := run_stored (boot_stored hb).1 hf hw hr
  have hcfg : s'.cfg = s.cfg := by
    simp only [restart, hu] at hs
    split at hs
    · injection hs with hs
      rw [← hs, hc]
    · cases hs
  refine ⟨fun k => ?_, hcfg⟩
  unfold get report multiLang reportPrice reportCustom
  rw [hcfg]

/-- The change of HeartbeatInterval in the example station. -/
theorem demo_heartbeat (w : Write) : change demoEnv demo 0 "HeartbeatInterval".toList "300".toList w = storeKey demo "HeartbeatInterval".toList (.int 300) w .accepted :=
  change_val (e := heartbeatRow) (v := .int 60) (demo_known heartbeatRow_mem) (by decide) (by decide) (by decide) rfl (by decide) (by decide) rfl (by decide)

example : ∃ s, run demoEnv demo [.change 0 "HeartbeatInterval".toList "300".toList .ok, .information "ChargePointVendor".toList "W".toList false] = some s ∧
    s.cfg.keys "HeartbeatInterval".toList = some (.int 300) ∧ s.cfg.keys "ChargePointVendor".toList = some (.text "W".toList) := by
  refine ⟨information (storeKey demo "HeartbeatInterval".toList (.int 300) .ok .accepted).1 "ChargePointVendor".toList "W".toList false, ?_, by decide, by decide⟩
  simp only [run, step, demo_heartbeat]

/-- C131 is violated: if the file cannot be written (a read only file system), the change is accepted all the same, and it is lost at the next start. -/
theorem C131_write_violated : ∃ env base user s0 s1 s2, boot env base user = some s0 ∧
    (change env s0 0 "HeartbeatInterval".toList "300".toList .fsError).2 = .accepted ∧
    run env s0 [.change 0 "HeartbeatInterval".toList "300".toList .fsError] = some s1 ∧
    get env s1 "HeartbeatInterval".toList = .kv "HeartbeatInterval".toList false (some "300".toList) ∧
    restart env s1 = some s2 ∧
    get env s2 "HeartbeatInterval".toList = .kv "HeartbeatInterval".toList false (some "60".toList) := by
  refine ⟨demoEnv, demoBase, noChanges, demo, (storeKey demo "HeartbeatInterval".toList (.int 300) .fsError .accepted).1, demo, demo_boot, ?_, ?_, ?_, ?_, ?_⟩
  · rw [demo_heartbeat]; decide
  · simp only [run, step, demo_heartbeat]
  · rw [get_known (demo_known heartbeatRow_mem) (by decide)]; decide
  · unfold restart
    show (if startOk demoEnv demoBase then some demo else none) = some demo
    rw [demo_startOk]
    rfl
  · rw [get_known (demo_known heartbeatRow_mem) (by decide)]; decide

/-- C131 is violated: if there is no space left, the change is accepted, the file with all earlier changes is replaced by an incomplete one, and the station cannot
start any more. -/
theorem C131_full_violated : ∃ env base user s0 s1, boot env base user = some s0 ∧
    (change env s0 0 "HeartbeatInterval".toList "300".toList .full).2 = .accepted ∧
    run env s0 [.change 0 "HeartbeatInterval".toList "300".toList .full] = some s1 ∧ restart env s1 = none := by
  refine ⟨demoEnv, demoBase, noChanges, demo, (storeKey demo "HeartbeatInterval".toList (.int 300) .full .accepted).1, demo_boot, ?_, ?_, rfl⟩
  · rw [demo_heartbeat]; decide
  · simp only [run, step, demo_heartbeat]

/-- C131 is violated: when the application sets its vendor, model or serial numbers, the file is emptied and written in place.  If the process ends in between, all
changes are lost and the station cannot start any more. -/
theorem C131_crash_violated : ∃ env base user s0 s1, boot env base user = some s0 ∧
    run env s0 [.change 0 "HeartbeatInterval".toList "300".toList .ok, .information "ChargePointVendor".toList "V".toList true] = some s1 ∧ restart env s1 = none := by
  refine ⟨demoEnv, demoBase, noChanges, demo,
    information (storeKey demo "HeartbeatInterval".toList (.int 300) .ok .accepted).1 "ChargePointVendor".toList "V".toList true, demo_boot, ?_, ?_⟩
  · simp only [run, step, demo_heartbeat]
  · have : (information (storeKey demo "HeartbeatInterval".toList (.int 300) .ok .accepted).1 "ChargePointVendor".toList "V".toList true).user = none := by
      unfold information
      rw [show (storeKey demo "HeartbeatInterval".toList (.int 300) .ok .accepted).1.user = some (putKey "HeartbeatInterval".toList (.int 300) noChanges) from rfl]
      dsimp only
      rw [if_neg (by decide)]
      rfl
    unfold restart
    rw [this]

/-! ## C134 -/

/-- C134, partial: however the configuration was changed since the first start, the station can be started again at every point.  Hypotheses: each write of the file
succeeds; texts are within the limits of their key in the schema, the authorization key has 8 characters after decoding and JSON values are those of the schema
(`Op.safe`).  Numbers, booleans, measurands, custom keys and the security profile need no hypothesis. -/
theorem C134_partial {env : Env} {base user : Maps} {s0 : St} {ops : List Op} (hb : boot env base user = some s0) (hf : Fresh s0.cfg)
    (hw : ∀ op ∈ ops, op.written) (hs : ∀ op ∈ ops, op.safe env) : ∃ s s', run env s0 ops = some s ∧ restart env s = some s' := by
  obtain ⟨s, h1, h2⟩ := run_good (boot_good hb hf) hw hs
  obtain ⟨s', h3, _⟩ := step_good (op := .restart) h2 trivial trivial
  exact ⟨s, s', h1, h3⟩

example : (Op.change 0 "HeartbeatInterval".toList "300".toList .ok).safe demoEnv ∧ (Op.change 0 authKey "0123456789abcdef0".toList .ok).safe demoEnv := by
  constructor
  · refine ⟨fun e he hn lo hi ht => ?_, fun h => ?_, fun j hj => ?_⟩
    · have : e = heartbeatRow := key_unique he heartbeatRow_mem (by
        have := hn
        unfold SameName at this
        exact this.symm)
      subst this
      cases ht
    · exact absurd h (by unfold SameName; decide)
    · cases hj
  · refine ⟨fun e he hn lo hi ht => ?_, fun h => by decide +kernel, fun j hj => ?_⟩
    · have := not_auth he (sameName_iff.mp hn)
      rw [ciEq_refl] at this
      cases this
    · cases hj

/-- C134 is violated: ChangeConfiguration(AuthorizationKey, "41424344") is accepted, as the text has 8 characters; it is read as hexadecimal and "ABCD" is stored, which the
schema does not admit: the station cannot start any more. -/
theorem C134_auth_violated : ∃ env base user s0 s1, boot env base user = some s0 ∧ (change env s0 0 "AuthorizationKey".toList "41424344".toList .ok).2 = .accepted ∧
    run env s0 [.change 0 "AuthorizationKey".toList "41424344".toList .ok] = some s1 ∧ restart env s1 = none := by
  have h : change demoEnv demo 0 "AuthorizationKey".toList "41424344".toList .ok = storeKey demo "AuthorizationKey".toList (.text "ABCD".toList) .ok .accepted := by
    have := change_auth (env := demoEnv) (now := 0) (t := "41424344".toList) (w := .ok) demo_fresh
    unfold setAuthKey at this
    rw [if_pos (by decide), show decode "41424344".toList = "ABCD".toList from by decide +kernel] at this
    exact this
  refine ⟨demoEnv, demoBase, noChanges, demo, (storeKey demo "AuthorizationKey".toList (.text "ABCD".toList) .ok .accepted).1, demo_boot, ?_, ?_, ?_⟩
  · rw [h]; decide
  · simp only [run, step, h]
  · have hbad : startOk demoEnv (merged demoBase (putKey "AuthorizationKey".toList (.text "ABCD".toList) noChanges)) = false :=
      startOk_bad_auth (v := .text "ABCD".toList) (by decide) (by decide)
    unfold restart
    show (if startOk demoEnv (merged demoBase (putKey "AuthorizationKey".toList (.text "ABCD".toList) noChanges)) then _ else none) = none
    rw [hbad]
    rfl

/-- A change of a standard key whose value the schema does not admit. -/
theorem demo_stuck {e : Key} {v x : Val} {t : Text} (he : e ∈ table) (hv : demo.cfg.keys e.name = some v) (hb : bytes v.show ≤ 500) (hro : roOf demoEnv e.ro = false)
    (h1 : e.rule ≠ .none) (h2 : e.rule ≠ .profile) (hbl : blocked demoEnv demo e = false) (hc : check demoEnv demo 0 e.rule t = .val x)
    (hbad : e.ty.ok x = false) : ¬ Refused (change demoEnv demo 0 e.name t .ok).2 ∧ ∃ s1, run demoEnv demo [.change 0 e.name t .ok] = some s1 ∧ restart demoEnv s1 = none := by
  have h := change_val (w := .ok) (demo_known he) (ciEq_refl e.name) hv hb hro h1 h2 hbl hc
  constructor
  · rw [h]
    refine storeKey_refused (u := noChanges) rfl ?_
    split <;> simp [Refused]
  · refine ⟨_, rfl, ?_⟩
    rw [h]
    have hbad : startOk demoEnv (merged demoBase (putKey e.name x noChanges)) = false :=
      startOk_bad (e := e) (v := x) he (by rw [merged_putKey]; simp [putKey, upd]) hbad
    unfold restart
    show (if startOk demoEnv (merged demoBase (putKey e.name x noChanges)) then _ else none) = none
    rw [hbad]
    rfl

/-- C134 is violated: each of these changes is accepted, and the station cannot start any more: an empty ConnectorEvseIds, an empty CentralSystemURI, a TimeOffset with
leading zeros, a country of one letter outside ASCII, and a default price with an object that the schema does not admit. -/
theorem C134_values_violated : ∃ env base user s0, boot env base user = some s0 ∧
    ∀ kt ∈ [("ConnectorEvseIds".toList, []), ("CentralSystemURI".toList, []), ("TimeOffset".toList, "0000000001:00".toList),
      ("SeccLeafSubjectCountry".toList, "Ä".toList), ("DefaultPrice".toList, "{}".toList)],
      ¬ Refused (change env s0 0 kt.1 kt.2 .ok).2 ∧ ∃ s1, run env s0 [.change 0 kt.1 kt.2 .ok] = some s1 ∧ restart env s1 = none := by
  refine ⟨demoEnv, demoBase, noChanges, demo, demo_boot, ?_⟩
  intro kt hkt
  simp only [List.mem_cons, List.not_mem_nil, or_false] at hkt
  rcases hkt with rfl | rfl | rfl | rfl | rfl
  · exact demo_stuck (e := evseIdsRow) (v := .text "DE*ABC*E1".toList) (x := .text []) evseIdsRow_mem (by decide) (by decide) rfl (by decide) (by decide) (by decide)
      (by decide) (by decide)
  · exact demo_stuck (e := uriRow) (v := .text "wss://c.example".toList) (x := .text []) uriRow_mem (by decide) (by decide) rfl (by decide) (by decide) (by decide)
      (by decide) (by decide)
  · exact demo_stuck (e := offsetRow) (v := .text "01:00".toList) (x := .text "0000000001:00".toList) offsetRow_mem (by decide) (by decide) rfl (by decide) (by decide)
      (by decide) (by decide +kernel) (by decide)
  · exact demo_stuck (e := countryRow) (v := .text "DE".toList) (x := .text "Ä".toList) countryRow_mem (by decide) (by decide) rfl (by decide) (by decide) (by decide)
      (by decide +kernel) (by decide)
  · exact demo_stuck (e := priceRow) (v := .json ⟨"{}".toList, true⟩) (x := .json ⟨"{}".toList, false⟩) priceRow_mem (by decide) (by decide) rfl (by decide) (by decide)
      (by decide) (by decide) (by decide)

/-! ## C137 -/

/-- What the station needs for a security profile: an authorization key for 1 and 2, a root certificate of the CSMS for 2 and 3, a client certificate for 3. -/
def Prepared (env : Env) (s : St) (p : Int) : Prop :=
  ((p = 1 ∨ p = 2) → s.cfg.keys authKey ≠ none) ∧ ((p = 2 ∨ p = 3) → env.csmsRoot = true) ∧ (p = 3 → env.clientCert = true)

theorem stoi_range {t : Text} {p : Int} (h : DM.IsIntegerText t p) (h1 : -2147483648 ≤ p) (h2 : p ≤ 2147483647) : stoi t = .val p := by
  obtain ⟨ds, hne, hd, hc⟩ := h
  have ha := (DM.all_digits ds).mpr hd
  rcases hc with ⟨rfl, rfl⟩ | ⟨rfl, rfl⟩ | ⟨rfl, rfl⟩
  · rw [stoi_digits hne ha, DM.natOf_eq, if_neg (by omega)]
  · rw [stoi_signed (.inr rfl) hne ha, DM.natOf_eq]
    simp only [show ('+' : Char) ≠ '-' from by decide, if_false]
    rw [if_neg (by omega)]
  · rw [stoi_signed (.inl rfl) hne ha, DM.natOf_eq]
    simp only [if_true]
    rw [if_neg (by omega)]

/-- C137, partial: when the security extension is supported, a request to change SecurityProfile to an integer is accepted exactly if the number is greater than the
current profile and at most 3, and the station has what this profile needs.  Nothing is changed by the request itself: the configuration and the file remain, and a
switch is pending in the accepted case. -/
theorem C137_partial {env : Env} {s : St} {now : Int} {t : Text} {p : Int} {w : Write} (hsup : env.sup .security = true) (hok : startOk env s.cfg = true)
    (hv : s.cfg.keys profileKey ≠ none) (hf : Fresh s.cfg) (ht : DM.IsIntegerText t p) (h1 : -2147483648 ≤ p) (h2 : p ≤ 2147483647) :
    ((change env s now profileKey t w).2 = .accepted ↔ profileOf s < p ∧ p ≤ 3 ∧ Prepared env s p)
    ∧ ((change env s now profileKey t w).2 ≠ .accepted → (change env s now profileKey t w) = (s, .rejected))
    ∧ (change env s now profileKey t w).1.cfg = s.cfg ∧ (change env s now profileKey t w).1.user = s.user
    ∧ ((change env s now profileKey t w).2 = .accepted → (change env s now profileKey t w).1.cb = some (.new p)) := by
  have hkn : Known env profileRow := ⟨profileRow_mem, fun _ => hsup⟩
  have hrep : ∃ v, report env s profileRow = .kv profileKey false v := by
    cases hk : s.cfg.keys profileKey with
    | none => exact absurd hk hv
    | some v =>
      have hty : profileRow.ty.ok v = true := (((startOk_iff env s.cfg).mp hok).1 profileRow profileRow_mem v hk).1
      have hr : ∃ n, v = .int n ∧ 0 ≤ n ∧ n ≤ 3 := by
        rw [show profileRow.ty = .int (some 0) (some 3) from rfl] at hty
        cases v <;> simp only [Ty.ok, Bool.false_eq_true, Bool.and_eq_true, decide_eq_true_eq] at hty
        exact ⟨_, rfl, hty⟩
      obtain ⟨n, rfl, hn⟩ := hr
      have hk' : s.cfg.keys profileRow.name = some (.int n) := hk
      exact ⟨some (Val.int n).show, report_some hk' (show_int_bytes hn.1 (by omega))⟩
  obtain ⟨v, hrep⟩ := hrep
  have hch : change env s now profileKey t w = askProfile env s t := by
    have hci : ciEq profileKey profileRow.name = true := ciEq_refl _
    rw [change_known hkn hci, hrep]
    simp only [Bool.false_eq_true, if_false]
    exact doSet_profile profileRow_mem hci rfl (fresh_none hf profileRow_mem hci)
  rw [hch]
  unfold askProfile
  rw [stoi_range ht h1 h2]
  dsimp only
  unfold Prepared
  cases ha : s.cfg.keys authKey <;> cases hc : env.csmsRoot <;> cases hd : env.clientCert <;> simp only [Option.isNone, and_true, and_false, if_false,
    reduceCtorEq, Bool.true_eq_false] <;> (repeat' split) <;> simp_all <;> omega

example : demoEnv.sup .security = true ∧ startOk demoEnv demo.cfg = true ∧ demo.cfg.keys profileKey ≠ none ∧ DM.IsIntegerText "3".toList 3 ∧ profileOf demo = 1 ∧
    Prepared demoEnv demo 3 := by
  refine ⟨rfl, demo_startOk, by decide, ⟨"3".toList, by decide, by unfold DM.Digits; decide, .inl ⟨rfl, by decide⟩⟩, by decide, ?_⟩
  exact ⟨fun _ => by decide, fun _ => rfl, fun _ => rfl⟩

/-- The invariant behind C137. -/
def Above (s : St) (c : Int) : Prop := c ≤ profileOf s ∧ ∀ p, s.cb = some (.new p) ∨ s.cb = some (.back p) → c ≤ p

theorem profileOf_keys {s s' : St} (h : s'.cfg.keys profileKey = s.cfg.keys profileKey) : profileOf s' = profileOf s := by
  unfold profileOf
  rw [h]

theorem switch_above {s : St} {p c : Int} {w : Write} (h : c ≤ profileOf s) (hp : c ≤ p) : Above (switchTo s p w) c := by
  constructor
  · have : profileOf (switchTo s p w) = p := by
      unfold profileOf
      simp [switchTo, store_cfg, upd]
    omega
  · intro q hq
    simp only [switchTo, Option.some.injEq, reduceCtorEq, Cb.back.injEq, false_or] at hq
    omega

theorem step_above {env : Env} {s s' : St} {op : Op} {c : Int} (h : Stored s) (hf : Fresh s.cfg) (hw : op.written) (ha : Above s c) (hs : step env s op = some s') :
    Above s' (op.profile s c) := by
  cases op with
  | change now k t w =>
    simp only [step, Option.some.injEq] at hs
    subst hs
    show Above _ c
    generalize hr : (change env s now k t w).1 = r
    have hsh := hr ▸ change_shape (env := env) (now := now) (k := k) (t := t) (w := w) hf
    have hcb : ∀ f, (store s f w).1.cfg.keys profileKey = s.cfg.keys profileKey → Above (store s f w).1 c := by
      intro f hk
      refine ⟨?_, fun p hp => ?_⟩
      · rw [profileOf_keys hk]; exact ha.1
      · rw [store_cb] at hp; exact ha.2 p hp
    cases hsh with
    | same => exact ha
    | ask p h0 h3 =>
      refine ⟨ha.1, fun q hq => ?_⟩
      have := ha.1
      rcases hq with hq | hq
      · injection hq with hq
        injection hq with hq
        omega
      · injection hq with hq
        cases hq
    | key e x he hk hp hc =>
      refine hcb _ ?_
      have hne : profileKey ≠ e.name := fun h => hp ((profile_iff he).mpr h.symm)
      rw [store_cfg]
      simp [putKey, upd, hne]
    | auth hk ht =>
      refine hcb _ ?_
      rw [store_cfg]
      simp [putKey, upd, show profileKey ≠ authKey from by decide]
    | price l hl =>
      refine hcb _ ?_
      rw [store_cfg]
      rfl
    | cust x hne hc =>
      refine hcb _ ?_
      rw [store_cfg]
      rfl
  | stopped w =>
    simp only [step, Option.some.injEq] at hs
    subst hs
    show Above _ c
    unfold stoppedConnecting
    cases hc : s.cb with
    | none => exact ha
    | some cb =>
      cases cb with
      | new p => exact switch_above ha.1 (ha.2 p (.inl hc))
      | back p => exact switch_above ha.1 (ha.2 p (.inr hc))
  | connected =>
    simp only [step, Option.some.injEq] at hs
    subst hs
    refine ⟨Int.le_refl _, fun p hp => ?_⟩
    simp [connected] at hp
  | information n v cr =>
    simp only [step, Option.some.injEq] at hs
    subst hs
    show Above _ c
    rcases info_cases s n v cr with hi | ⟨_, hi⟩ | ⟨_, hm, u, hu, hi⟩
    · rw [hi]; exact ha
    · rw [hi]; exact ha
    · rw [hi]
      refine ⟨?_, ha.2⟩
      have hne : profileKey ≠ n := by
        intro h
        rw [← h] at hm
        exact absurd hm (by decide)
      rw [profileOf_keys (s := s) (by simp [putKey, upd, hne])]
      exact ha.1
  | restart =>
    obtain ⟨u, hu, hc⟩ := h
    simp only [step, restart, hu] at hs
    split at hs
    · injection hs with hs
      subst hs
      show Above _ c
      refine ⟨?_, fun p hp => by simp at hp⟩
      rw [profileOf_keys (s := s) (by rw [hc])]
      exact ha.1
    · cases hs

theorem run_above {env : Env} : ∀ {ops : List Op} {s s' : St} {c c' : Int}, Stored s → Fresh s.cfg → (∀ op ∈ ops, op.written) → Above s c →
    runC env s c ops = some (s', c') → Above s' c' := by
  intro ops
  induction ops with
  | nil =>
    intro s s' c c' _ _ _ ha hr
    simp only [runC, Option.some.injEq, Prod.mk.injEq] at hr
    obtain ⟨rfl, rfl⟩ := hr
    exact ha
  | cons op r ih =>
    intro s s' c c' h hf hw ha hr
    simp only [runC] at hr
    cases hs : step env s op with
    | none => rw [hs] at hr; cases hr
    | some s1 =>
      rw [hs] at hr
      have h1 := step_stored h hf (hw op (by simp)) hs
      have h2 := step_above h hf (hw op (by simp)) ha hs
      exact ih h1.1 h1.2.1 (fun o ho => hw o (by simp [ho])) h2 hr

/-- C137, partial: whatever happens, with requests, failed switches and restarts, the security profile is never lower than that of the last connection that was
established.  Hypothesis: each write of the file succeeds. -/
theorem C137_monotone_partial {env : Env} {base user : Maps} {s0 s : St} {ops : List Op} {c : Int} (hb : boot env base user = some s0) (hf : Fresh s0.cfg)
    (hw : ∀ op ∈ ops, op.written) (hr : runC env s0 0 ops = some (s, c)) : c ≤ profileOf s := by
  have h := boot_stored hb
  refine (run_above h.1 hf hw ⟨(profile_range h.2.1).1, fun p hp => ?_⟩ hr).1
  rw [h.2.2] at hp
  simp at hp

theorem demo_ask : change demoEnv demo 0 "SecurityProfile".toList "3".toList .ok = ({ demo with cb := some (.new 3) }, .accepted) := by
  have h : change demoEnv demo 0 "SecurityProfile".toList "3".toList .ok = askProfile demoEnv demo "3".toList := by
    rw [change_known (demo_known profileRow_mem) (by decide), report_some (v := .int 1) (by decide) (by decide)]
    simp only [show roOf demoEnv profileRow.ro = false from rfl, Bool.false_eq_true, if_false]
    exact doSet_profile profileRow_mem (by decide) rfl (fresh_none demo_fresh profileRow_mem (by decide))
  rw [h]
  rfl

example : ∃ s, runC demoEnv demo 0 [.connected, .change 0 "SecurityProfile".toList "3".toList .ok, .stopped .ok, .connected] = some (s, 3) ∧ profileOf s = 3 := by
  refine ⟨connected (stoppedConnecting { demo with cb := some (.new 3) } .ok), ?_, by decide⟩
  simp only [runC, step]
  rw [show connected demo = demo from rfl, demo_ask]
  rfl

/-- C137 is violated: "3abc" is accepted as 3. -/
theorem C137_text_violated : (change demoEnv demo 0 "SecurityProfile".toList "3abc".toList .ok).2 = .accepted ∧ ¬ ∃ n, DM.IsIntegerText "3abc".toList n := by
  constructor
  · have h : change demoEnv demo 0 "SecurityProfile".toList "3abc".toList .ok = askProfile demoEnv demo "3abc".toList := by
      rw [change_known (demo_known profileRow_mem) (by decide), report_some (v := .int 1) (by decide) (by decide)]
      simp only [show roOf demoEnv profileRow.ro = false from rfl, Bool.false_eq_true, if_false]
      exact doSet_profile profileRow_mem (by decide) rfl (fresh_none demo_fresh profileRow_mem (by decide))
    rw [h]
    decide
  · rintro ⟨n, ds, hne, hd, hc⟩
    rcases hc with ⟨hc, _⟩ | ⟨hc, _⟩ | ⟨hc, _⟩
    · have := hd 'a' (by rw [← hc]; decide)
      revert this
      decide
    · cases hc
    · cases hc

/-- C137 is violated: a switch that was never confirmed by a connection is kept when the process ends before the station gives up: after the restart the profile is 3,
no connection was ever established with it, and no way back is pending. -/
theorem C137_restart_violated : ∃ env base user s0 s, boot env base user = some s0 ∧
    runC env s0 0 [.connected, .change 0 "SecurityProfile".toList "3".toList .ok, .stopped .ok, .restart] = some (s, 1) ∧ profileOf s = 3 ∧ s.cb = none := by
  have hok : startOk demoEnv (merged demoBase (putKey profileKey (.int 3) noChanges)) = true := by
    rw [merged_putKey, demo_cfg]
    exact put_profile_ok demo_startOk (by decide) (by decide)
  refine ⟨demoEnv, demoBase, noChanges, demo, { demo with
    cfg := merged demoBase (putKey profileKey (.int 3) noChanges)
    user := some (putKey profileKey (.int 3) noChanges)
    cb := none }, demo_boot, ?_, by decide, rfl⟩
  simp only [runC, step]
  rw [show connected demo = demo from rfl, demo_ask]
  dsimp only
  have : restart demoEnv (stoppedConnecting { demo with cb := some (.new 3) } .ok) = some { demo with
    cfg := merged demoBase (putKey profileKey (.int 3) noChanges)
    user := some (putKey profileKey (.int 3) noChanges)
    cb := none } := by
    unfold restart
    show (if startOk demoEnv (merged demoBase (putKey profileKey (.int 3) noChanges)) then _ else none) = _
    rw [hok]
    rfl
  rw [this]
  rfl

/-- C137 is violated: after a failed switch the station is back at profile 1.  If it is stopped before it is connected again, the profile that failed is stored once more. -/
theorem C137_back_violated : ∃ env base user s0 s1 s2, boot env base user = some s0 ∧
    runC env s0 0 [.connected, .change 0 "SecurityProfile".toList "3".toList .ok, .stopped .ok, .stopped .ok] = some (s1, 1) ∧ profileOf s1 = 1 ∧
    runC env s1 1 [.stopped .ok] = some (s2, 1) ∧ profileOf s2 = 3 := by
  refine ⟨demoEnv, demoBase, noChanges, demo, stoppedConnecting (stoppedConnecting { demo with cb := some (.new 3) } .ok) .ok,
    stoppedConnecting (stoppedConnecting (stoppedConnecting { demo with cb := some (.new 3) } .ok) .ok) .ok, demo_boot, ?_, by decide, rfl, by decide⟩
  simp only [runC, step]
  rw [show connected demo = demo from rfl, demo_ask]
  rfl

/-- C137 is violated: if the file cannot be written when the profile is switched, the profile after a restart is lower than that of the last connection. -/
theorem C137_write_violated : ∃ env base user s0 s, boot env base user = some s0 ∧
    runC env s0 0 [.change 0 "SecurityProfile".toList "3".toList .ok, .stopped .fsError, .connected, .restart] = some (s, 3) ∧ profileOf s = 1 := by
  refine ⟨demoEnv, demoBase, noChanges, demo, demo, demo_boot, ?_, by decide⟩
  simp only [runC, step]
  rw [demo_ask]
  dsimp only
  have : restart demoEnv (connected (stoppedConnecting { demo with cb := some (.new 3) } .fsError)) = some demo := by
    unfold restart
    show (if startOk demoEnv demoBase then some demo else none) = some demo
    rw [demo_startOk]
    rfl
  rw [this]
  rfl

end Verif.Conf16
