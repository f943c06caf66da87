import Verif.Effects16.Lemmas2
/-! A station for the examples and counterexamples about the effects of the configuration. -/
set_option linter.unusedSimpArgs false

namespace Verif.Conf16

/-- A value that the schema admits is put into the configuration. -/
theorem startOk_row {env : Env} {m : Maps} {e : Key} {x : Val} (h : startOk env m = true) (he : e ∈ table) (hx : e.ty.ok x = true) (hm : e.rule ≠ .measurands) :
    startOk env (putKey e.name x m) = true := by
  refine startOk_putKey h (fun e' he' hn => ?_) (fun ha => absurd ha (auth_row he))
  have : e' = e := key_unique he' he (by rw [hn])
  subst this
  exact ⟨hx, fun hr => absurd hr hm⟩

def sampleRow : Key := ⟨"MeterValueSampleInterval".toList, .core, false, (.int (some 0) none), .no, (.nat 0 none), .none, false⟩
def alignedRow : Key := ⟨"ClockAlignedDataInterval".toList, .core, false, (.int (some 0) none), .no, (.nat 0 none), .none, false⟩
def attemptsRow : Key := ⟨"TransactionMessageAttempts".toList, .core, false, (.int (some 0) none), .no, (.nat 0 none), .none, false⟩
def pingRow : Key := ⟨"WebSocketPingInterval".toList, .core, false, (.int (some 0) none), .no, (.nat 0 none), .absent, false⟩
def nextRow : Key := ⟨"TimeOffsetNextTransition".toList, .price, true, (.str 1 (some 40)), .no, .offset, .none, false⟩

theorem sampleRow_mem : sampleRow ∈ table := List.mem_of_getElem? (i := 64) rfl
theorem alignedRow_mem : alignedRow ∈ table := List.mem_of_getElem? (i := 50) rfl
theorem attemptsRow_mem : attemptsRow ∈ table := List.mem_of_getElem? (i := 77) rfl
theorem pingRow_mem : pingRow ∈ table := List.mem_of_getElem? (i := 80) rfl
theorem nextRow_mem : nextRow ∈ table := List.mem_of_getElem? (i := 107) rfl

end Verif.Conf16

namespace Verif.Eff16
open Conf16 (Text Val Maps Env Write ciEq putKey)

/-- The configuration of the examples. -/
def someBase (display : Bool) : Maps :=
  putKey Conf16.sampleRow.name (.int 60) (putKey Conf16.alignedRow.name (.int 900) (putKey Conf16.attemptsRow.name (.int 3)
    (putKey Conf16.pingRow.name (.int 30) (putKey Conf16.dateRow.name (.text "D".toList) (putKey Conf16.nextRow.name (.text "02:00".toList)
      (putKey Conf16.displayRow.name (.bool display) Conf16.demoBase))))))

theorem some_ok (display : Bool) : Conf16.startOk Conf16.demoEnv (someBase display) = true := by
  unfold someBase
  refine Conf16.startOk_row ?_ Conf16.sampleRow_mem (by decide) (by decide)
  refine Conf16.startOk_row ?_ Conf16.alignedRow_mem (by decide) (by decide)
  refine Conf16.startOk_row ?_ Conf16.attemptsRow_mem (by decide) (by decide)
  refine Conf16.startOk_row ?_ Conf16.pingRow_mem (by decide) (by decide)
  refine Conf16.startOk_row ?_ Conf16.dateRow_mem (by decide) (by decide)
  refine Conf16.startOk_row ?_ Conf16.nextRow_mem (by decide) (by decide)
  exact Conf16.startOk_row Conf16.demo_startOk Conf16.displayRow_mem (by cases display <;> decide) (by decide)

def someConf (display : Bool) : Conf16.St := { base := someBase display, cfg := someBase display, user := some Conf16.noChanges, cb := none }

/-- The station after its start at the time 0. The date of the configuration is the time 100. -/
def someSt (display : Bool) : St := { started (someConf display) 0 [] with alarm := if display then some 100 else none }

theorem merged_none (m : Maps) : Conf16.merged m Conf16.noChanges = m := rfl

theorem some_boot (display : Bool) : Conf16.boot Conf16.demoEnv (someBase display) Conf16.noChanges = some (someConf display) := by
  unfold Conf16.boot Conf16.restart
  dsimp only
  rw [merged_none, some_ok]
  rfl

theorem display_key (display : Bool) : (someBase display).keys displayKey = some (.bool display) := by cases display <;> decide
theorem date_key (display : Bool) : textOf (someBase display) dateKey = some "D".toList := by cases display <;> decide

theorem start_true (c : Conf16.St) (now : Int) (l : List Nat) (t : Text) (h1 : c.cfg.keys displayKey = some (.bool true)) (h2 : textOf c.cfg dateKey = some t) :
    start Conf16.demoEnv c now l = some { started c now l with alarm := if 100 < now then none else some 100 } := by
  unfold start
  rw [if_pos h1]
  unfold armAlarm
  rw [show textOf (started c now l).conf.cfg dateKey = some t from h2]
  rfl

theorem start_false (c : Conf16.St) (now : Int) (l : List Nat) (h1 : c.cfg.keys displayKey = some (.bool false)) :
    start Conf16.demoEnv c now l = some (started c now l) := by
  unfold start
  rw [if_neg (by rw [h1]; decide)]

theorem some_begin (display : Bool) : Begin Conf16.demoEnv (someBase display) Conf16.noChanges 0 (someSt display) := by
  refine ⟨someConf display, some_boot display, Conf16.demo_fresh, ?_⟩
  cases display
  · exact start_false _ _ _ (display_key false)
  · exact start_true _ _ _ _ (display_key true) (date_key true)

/-- The configuration with a changed key. -/
def put (c : Conf16.St) (n : Text) (x : Val) : Conf16.St := { c with cfg := putKey n x c.cfg, user := c.user.map (putKey n x) }

/-- A change that is accepted. -/
theorem do_change {s : St} {e : Conf16.Key} {k t : Text} {v x : Val} (hu : s.conf.user ≠ none) (he : e ∈ Conf16.table) (hk : ciEq k e.name = true)
    (hv : s.conf.cfg.keys e.name = some v) (hb : Conf16.bytes v.show ≤ 500) (hr : e.ro = .no ∧ e.rule ≠ .none ∧ e.rule ≠ .profile ∧ e.rule ≠ .uri ∧ e.guard ≠ .profile)
    (hc : Conf16.check Conf16.demoEnv s.conf s.now e.rule t = .val x) :
    Conf16.change Conf16.demoEnv s.conf s.now k t .ok = (put s.conf e.name x, .accepted) ∧
    step Conf16.demoEnv s (.change k t .ok) = follow Conf16.demoEnv k { s with conf := put s.conf e.name x } := by
  obtain ⟨h1, h2, h3, h4, h5⟩ := hr
  have hbl : Conf16.blocked Conf16.demoEnv s.conf e = false := by
    unfold Conf16.blocked
    cases hg : e.guard with
    | none => rfl
    | absent => simp [hv]
    | profile => exact absurd hg h5
  have hch := Conf16.change_val (w := .ok) (Conf16.demo_known he) hk hv hb (by rw [h1]; rfl) h2 h3 hbl hc
  rw [if_neg h4] at hch
  have hs : Conf16.storeKey s.conf e.name x .ok .accepted = (put s.conf e.name x, .accepted) := by
    cases hu' : s.conf.user with
    | none => exact absurd hu' hu
    | some u =>
      unfold Conf16.storeKey put
      simp only [Conf16.store_ok _ hu', hu', Option.map_some, Bool.false_eq_true, if_false]
      rfl
  refine ⟨hch.trans hs, ?_⟩
  show change Conf16.demoEnv s k t .ok = _
  unfold change
  dsimp only
  rw [hch, hs]
  rfl

/-- A restart. -/
theorem do_restart {s : St} {t : Int} {l : List Nat} {u : Maps} (hu : s.conf.user = some u) (hm : s.conf.cfg = Conf16.merged s.conf.base u)
    (hc : s.conf.cb = none) (hok : Conf16.startOk Conf16.demoEnv s.conf.cfg = true) :
    step Conf16.demoEnv s (.restart t l) = start Conf16.demoEnv s.conf (max s.now t) l := by
  show restart Conf16.demoEnv s t l = _
  have : Conf16.restart Conf16.demoEnv s.conf = some s.conf := by
    obtain ⟨⟨b, cf, us, cb⟩, _⟩ := s
    dsimp only at hu hm hc hok
    subst hu hc
    unfold Conf16.restart
    dsimp only
    rw [← hm, hok]
    rfl
  unfold restart
  rw [this]
  rfl

end Verif.Eff16
