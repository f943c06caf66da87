import Verif.Effects.Model
import Verif.DeviceModel.Theorems

/-! # C219, C220: variables take effect when they are set -/
set_option linter.constructorNameAsVariable false

namespace Verif.Effects

open Verif.DM

/-! ## Specification -/

/-- The variables that are read as numbers. -/
def numbers : List Cv := [alignedInterval, heartbeatInterval, messageTimeout, messageAttemptInterval, messageAttempts, securityProfile] ++ options

/-- The variables are in the device model, as integers, with values. -/
def Healthy (dm : DM) : Prop :=
  ∀ x ∈ numbers, ∃ e n, find dm x.1 x.2 = some e ∧ e.chars.dataType = .integer ∧ getInt dm x = some n

/-- What the station uses is what is set: the queue, the heartbeats and the clock-aligned meter values of a registered station, and the
options of the connection have the values of the device model. -/
structure InEffect (s : St) : Prop where
  attempts : getInt s.dm messageAttempts = some s.attempts
  interval : getInt s.dm messageAttemptInterval = some s.interval
  timeout : getInt s.dm messageTimeout = some s.timeout
  heartbeat : s.registered = true → s.heartbeat = getInt s.dm heartbeatInterval
  aligned : s.registered = true → ∃ n, getInt s.dm alignedInterval = some n ∧ (0 < n → s.aligned = some n) ∧ (n ≤ 0 → s.aligned = none)
  options : ∀ w, s.ws = some w → [randomRange, repeatTimes, waitMinimum, connectionAttempts, pingInterval].map (getInt s.dm) = w.nums.map some
  password : ∀ w p, s.ws = some w → getInt s.dm securityProfile = some p → p < 3 → w.key = getStr s.dm basicAuthPassword

/-- What the theorem asks of the events: no variable twice in a request; the profile of the active slot can be used; the application does
not set the security profile; the interval in the answer to a BootNotification is positive and one that HeartbeatInterval admits. -/
def GoodEv (s : St) : Ev → Prop
  | .set _ slot ds => ds.Pairwise (fun x y => ¬ (x.comp = y.comp ∧ x.var = y.var)) ∧ slot = .usable ∧
      ∀ d ∈ ds, ¬ (d.comp = securityProfile.1 ∧ d.var = securityProfile.2)
  | .boot a n => a = true → 0 < n ∧ n ≤ 2147483647 ∧
      (setValue s.dm heartbeatInterval.1 heartbeatInterval.2 .actual (digits n.toNat) false).1 = .accepted
  | .connect _ => True

/-- All events of a history are like this. -/
def Good (guard : DM → SetData → Bool) : St → List Ev → Prop
  | _, [] => True
  | s, e :: l => GoodEv s e ∧ ∀ s', step guard s e = some s' → Good guard s' l

/-! ## Reading after writing -/

theorem getStr_eq (dm : DM) (x : Cv) : getStr dm x = (find dm x.1 x.2).bind fun e => (attrOf e .actual).bind (·.value) := by
  unfold getStr requestValue
  cases hf : find dm x.1 x.2 with
  | none =>
    by_cases hc : hasComp dm x.1 = true <;> simp [hc]
  | some e =>
    obtain ⟨h1, h2, _⟩ := find_some hf
    have hc : hasComp dm x.1 = true := (hasComp_iff dm x.1).mpr ⟨e, h1, h2⟩
    simp only [hc, Bool.not_true, Bool.false_eq_true, if_false, Option.bind_some]
    cases ha : attrOf e .actual with
    | none => rfl
    | some a =>
      simp only [Option.bind_some]
      cases hv : a.value <;> simp

theorem find_store (dm : DM) (c : Comp) (v : Vbl) (a : AttrType) (val : Str) (c' : Comp) (v' : Vbl) :
    find (store dm c v a val) c' v' = (find dm c' v').map (storeEntry c v a val) := by
  unfold find
  rw [store_eq, List.find?_map]
  congr 1
  congr 1
  funext e
  obtain ⟨h1, h2, _⟩ := storeEntry_comp c v a val e
  simp only [Function.comp, h1, h2]

theorem attrOf_store (e : Entry) (c : Comp) (v : Vbl) (a : AttrType) (val : Str) (a' : AttrType) :
    attrOf (storeEntry c v a val e) a' =
      if e.comp = c ∧ e.var = v ∧ a' = a then (attrOf e a').map fun x => { x with value := some val } else attrOf e a' := by
  unfold storeEntry attrOf
  by_cases h : e.comp = c ∧ e.var = v
  · have hb : (e.comp == c && e.var == v) = true := by simp [h]
    rw [if_pos hb]
    simp only [h, true_and]
    generalize e.attrs = l
    induction l with
    | nil => simp
    | cons y l ih =>
      simp only [List.map_cons, List.find?_cons]
      by_cases hy : y.type = a
      · by_cases hy' : y.type = a'
        · have : a' = a := by rw [← hy', hy]
          simp [setAttr, hy, this]
        · have : ¬ a' = a := by intro e; rw [e] at hy'; exact hy' hy
          simp only [setAttr, hy, beq_self_eq_true, if_true]
          have h1 : (a == a') = false := by simp; exact fun e => this e.symm
          simp only [h1]
          rw [ih]
      · have hset : setAttr a val y = y := by simp [setAttr, hy]
        rw [hset]
        by_cases hy' : y.type = a'
        · have : ¬ a' = a := by intro e; rw [e] at hy'; exact hy hy'
          simp [hy', this]
        · have h1 : (y.type == a') = false := by simpa using hy'
          simp only [h1]
          rw [ih]
  · have hb : (e.comp == c && e.var == v) = false := by
      cases hh : (e.comp == c && e.var == v) with
      | false => rfl
      | true => simp at hh; exact absurd hh h
    rw [hb]
    have : ¬ (e.comp = c ∧ e.var = v ∧ a' = a) := fun k => h ⟨k.1, k.2.1⟩
    simp [this]

/-- Reading a variable after any write. -/
theorem getStr_set (dm : DM) (c : Comp) (v : Vbl) (a : AttrType) (val : Str) (ro : Bool) (x : Cv) :
    getStr (setValue dm c v a val ro).2 x =
      if (setValue dm c v a val ro).1 = .accepted ∧ x = (c, v) ∧ a = .actual then some val else getStr dm x := by
  rw [setValue_state]
  by_cases hacc : (setValue dm c v a val ro).1 = .accepted
  · rw [if_pos hacc]
    obtain ⟨e, y, m, h1, h2, h3, h4, h5⟩ := (setValue_accepted _ _ _ _ _ _).mp hacc
    simp only [hacc, true_and]
    rw [getStr_eq, getStr_eq, find_store]
    by_cases hx : x = (c, v)
    · subst hx
      obtain ⟨_, k1, k2⟩ := find_some h1
      simp only [h1, Option.map_some, Option.bind_some, attrOf_store, k1, k2, true_and]
      by_cases ha : a = .actual
      · subst ha
        simp [h3]
      · have : ¬ AttrType.actual = a := fun e => ha e.symm
        simp [ha, this]
    · simp only [hx, false_and, if_false]
      cases hf : find dm x.1 x.2 with
      | none => rfl
      | some f =>
        obtain ⟨_, k1, k2⟩ := find_some hf
        have : ¬ (f.comp = c ∧ f.var = v ∧ AttrType.actual = a) := by
          rintro ⟨e1, e2, _⟩
          exact hx (by rw [← e1, ← e2, k1, k2])
        simp only [Option.map_some, Option.bind_some, attrOf_store, this, if_false]
  · rw [if_neg hacc]
    simp [hacc]

theorem validate_stoi {ch : Chars} {v : Str} {z : Bool} (hd : ch.dataType = .integer) (h : validateValue ch v z = some true) :
    ∃ n, stoi v = some n := by
  unfold validateValue at h
  rw [hd] at h
  dsimp only at h
  split at h
  · cases h
  · split at h
    · cases h
    · rename_i n hn; exact ⟨n, hn⟩

theorem healthy_set {dm : DM} (h : Healthy dm) (c : Comp) (v : Vbl) (a : AttrType) (val : Str) (ro : Bool) :
    Healthy (setValue dm c v a val ro).2 := by
  intro x hx
  obtain ⟨e, n, h1, h2, h3⟩ := h x hx
  have hfind : ∃ e', find (setValue dm c v a val ro).2 x.1 x.2 = some e' ∧ e'.chars.dataType = .integer := by
    rw [setValue_state]
    split
    · rw [find_store, h1]
      exact ⟨_, rfl, by rw [(storeEntry_comp c v a val e).2.2]; exact h2⟩
    · exact ⟨e, h1, h2⟩
  obtain ⟨e', k1, k2⟩ := hfind
  refine ⟨e', ?_⟩
  unfold getInt
  rw [getStr_set]
  split
  · rename_i hc
    obtain ⟨hc1, rfl, rfl⟩ := hc
    obtain ⟨f, _, _, f1, f2, _⟩ := (setValue_accepted _ _ _ _ _ _).mp hc1
    rw [h1] at f1
    injection f1 with f1
    subst f1
    obtain ⟨n', hn⟩ := validate_stoi h2 f2
    exact ⟨n', k1, k2, by simp [hn]⟩
  · exact ⟨n, k1, k2, h3⟩

/-! ## The items of a request -/

/-- The item sets the value of this variable. -/
def sets (d : SetData) (x : Cv) : Prop := (d.comp, d.var) = x ∧ typeOr d.type = .actual

instance (d : SetData) (x : Cv) : Decidable (sets d x) := inferInstanceAs (Decidable (_ ∧ _))

/-- The items that are accepted. -/
def told (guard : DM → SetData → Bool) (ro : Bool) : DM → List SetData → List SetData
  | _, [] => []
  | dm, d :: r => if (setOne guard ro dm d).1 = .accepted then d :: told guard ro (setOne guard ro dm d).2 r
                  else told guard ro (setOne guard ro dm d).2 r

/-- The device model afterwards. -/
def after (guard : DM → SetData → Bool) (ro : Bool) (dm : DM) (ds : List SetData) : DM := ds.foldl (fun s d => (setOne guard ro s d).2) dm

theorem told_sub (guard : DM → SetData → Bool) (ro : Bool) : ∀ (ds : List SetData) (dm : DM), ∀ d ∈ told guard ro dm ds, d ∈ ds
  | [], _, d, h => by cases h
  | x :: r, dm, d, h => by
    unfold told at h
    split at h
    · rcases List.mem_cons.mp h with h | h
      · rw [h]; exact List.mem_cons_self
      · exact List.mem_cons_of_mem _ (told_sub guard ro r _ d h)
    · exact List.mem_cons_of_mem _ (told_sub guard ro r _ d h)

theorem told_eq (guard : DM → SetData → Bool) (ro : Bool) : ∀ (ds : List SetData) (dm : DM) (m : List (SetData × SetResult)),
    ds.Pairwise (fun x y => ¬ (x.comp = y.comp ∧ x.var = y.var)) →
    (∀ p ∈ m, ∀ d ∈ ds, ¬ (p.1.comp = d.comp ∧ p.1.var = d.var)) →
    ((setVariables guard ro dm m ds).2.filter (fun p => p.2.status == .accepted)).map (·.1) =
      (m.filter (fun p => p.2.status == .accepted)).map (·.1) ++ told guard ro dm ds
  | [], dm, m, _, _ => by simp [setVariables, told]
  | d :: r, dm, m, hp, hm => by
    rw [List.pairwise_cons] at hp
    have hany : (m.any fun x => x.1.comp == d.comp && x.1.var == d.var) = false := by
      rw [List.any_eq_false]
      intro p hpm hh
      simp only [Bool.and_eq_true, beq_iff_eq] at hh
      exact hm p hpm d (by simp) hh
    simp only [setVariables]
    rw [told_eq guard ro r _ _ hp.2 (by
        intro p hpm x hx
        simp only [upsert, hany, Bool.false_eq_true, if_false, List.mem_append, List.mem_singleton] at hpm
        rcases hpm with hpm | rfl
        · exact hm p hpm x (by simp [hx])
        · exact hp.1 x hx)]
    simp only [upsert, hany, Bool.false_eq_true, if_false, List.filter_append, List.map_append, List.append_assoc]
    congr 1
    rw [show told guard ro dm (d :: r) = if (setOne guard ro dm d).1 = .accepted then d :: told guard ro (setOne guard ro dm d).2 r
      else told guard ro (setOne guard ro dm d).2 r from rfl]
    by_cases h : (setOne guard ro dm d).1 = .accepted
    · rw [if_pos h]
      simp [h]
    · rw [if_neg h]
      simp [h]

theorem setOne_getStr (guard : DM → SetData → Bool) (ro : Bool) (dm : DM) (d : SetData) (x : Cv) :
    getStr (setOne guard ro dm d).2 x =
      if (setOne guard ro dm d).1 = .accepted ∧ sets d x then some d.value else getStr dm x := by
  unfold setOne sets
  split
  · rw [getStr_set]
    simp only [eq_comm (a := x)]
  · simp

theorem setOne_healthy (guard : DM → SetData → Bool) (ro : Bool) {dm : DM} (h : Healthy dm) (d : SetData) :
    Healthy (setOne guard ro dm d).2 := by
  unfold setOne
  split
  · exact healthy_set h _ _ _ _ _
  · exact h

theorem after_healthy (guard : DM → SetData → Bool) (ro : Bool) : ∀ (ds : List SetData) (dm : DM), Healthy dm →
    Healthy (after guard ro dm ds)
  | [], _, h => h
  | d :: r, _, h => after_healthy guard ro r _ (setOne_healthy guard ro h d)

theorem after_quiet (guard : DM → SetData → Bool) (ro : Bool) (x : Cv) : ∀ (ds : List SetData) (dm : DM),
    (∀ d ∈ told guard ro dm ds, ¬ sets d x) → getStr (after guard ro dm ds) x = getStr dm x
  | [], _, _ => rfl
  | d :: r, dm, h => by
    show getStr (after guard ro (setOne guard ro dm d).2 r) x = _
    rw [after_quiet guard ro x r _ (by
      intro y hy
      apply h
      unfold told
      split
      · exact List.mem_cons_of_mem _ hy
      · exact hy), setOne_getStr, if_neg]
    rintro ⟨h1, h2⟩
    refine h d ?_ h2
    unfold told
    rw [if_pos h1]
    exact List.mem_cons_self

/-- An accepted item that sets a variable sets it: no other item of the request names it. -/
theorem after_set (guard : DM → SetData → Bool) (ro : Bool) (x : Cv) : ∀ (ds : List SetData) (dm : DM),
    ds.Pairwise (fun x y => ¬ (x.comp = y.comp ∧ x.var = y.var)) → ∀ d ∈ told guard ro dm ds, sets d x →
    getStr (after guard ro dm ds) x = some d.value
  | [], _, _, d, h, _ => by cases h
  | y :: r, dm, hp, d, h, hs => by
    rw [List.pairwise_cons] at hp
    show getStr (after guard ro (setOne guard ro dm y).2 r) x = _
    unfold told at h
    by_cases hy : (setOne guard ro dm y).1 = .accepted
    · rw [if_pos hy] at h
      rcases List.mem_cons.mp h with h | h
      · subst h
        rw [after_quiet guard ro x r _ (by
          intro z hz hz2
          apply hp.1 z (told_sub guard ro r _ z hz)
          have := hs.1.trans hz2.1.symm
          injection this with e1 e2
          exact ⟨e1, e2⟩), setOne_getStr, if_pos ⟨hy, hs⟩]
      · exact after_set guard ro x r _ hp.2 d h hs
    · rw [if_neg hy] at h
      exact after_set guard ro x r _ hp.2 d h hs

/-! ## The effects of one item -/

theorem is_of_sets {d : SetData} {x : Cv} (h : sets d x) : is d x = true := by
  obtain ⟨h, _⟩ := h
  subst h
  have : ∀ o, ciEq o o = true := by intro o; cases o <;> simp [ciEq]
  simp [is, this]

/-- For variables without instance. -/
theorem sets_of_is {d : SetData} {x : Cv} (hx : x.1.inst = none) (hv : x.2.inst = none) (ht : typeOr d.type = .actual)
    (h : is d x = true) : sets d x := by
  obtain ⟨⟨a, b, c⟩, ⟨e, f⟩⟩ := x
  simp only at hx hv
  subst hx hv
  obtain ⟨⟨a', b', c'⟩, ⟨e', f'⟩, t, val⟩ := d
  simp only [is, Bool.and_eq_true, beq_iff_eq] at h
  obtain ⟨⟨⟨⟨rfl, h1⟩, rfl⟩, rfl⟩, h2⟩ := h
  have k1 : b' = none := by cases b' <;> simp_all [ciEq]
  have k2 : f' = none := by cases f' <;> simp_all [ciEq]
  subst k1 k2
  exact ⟨rfl, ht⟩

/-- What holds of the state after an item, relative to the one before. -/
structure Step (s s' : St) (d : SetData) : Prop where
  dm : s'.dm = s.dm
  registered : s'.registered = s.registered
  attempts : s'.attempts = s.attempts ∨ getInt s.dm messageAttempts = some s'.attempts
  attempts' : is d messageAttempts = true → typeOr d.type = .actual → getInt s.dm messageAttempts = some s'.attempts
  interval : s'.interval = s.interval ∨ getInt s.dm messageAttemptInterval = some s'.interval
  interval' : is d messageAttemptInterval = true → typeOr d.type = .actual → getInt s.dm messageAttemptInterval = some s'.interval
  timeout : s'.timeout = s.timeout ∨ getInt s.dm messageTimeout = some s'.timeout
  timeout' : is d messageTimeout = true → typeOr d.type = .actual → getInt s.dm messageTimeout = some s'.timeout
  aligned : s'.aligned = s.aligned ∨ ∃ n, getInt s.dm alignedInterval = some n ∧ s'.aligned = period n
  aligned' : is d alignedInterval = true → typeOr d.type = .actual → ∃ n, getInt s.dm alignedInterval = some n ∧ s'.aligned = period n
  heartbeat : s'.heartbeat = if is d heartbeatInterval = true ∧ s.registered = true ∧ typeOr d.type = .actual ∧ (stoi d.value).isSome
    then stoi d.value else s.heartbeat
  ws : s.ws = none → s'.ws = none
  nums : ∀ w, s.ws = some w → ∃ w', s'.ws = some w' ∧ (w'.nums = w.nums ∨ options.mapM (getInt s.dm) = some w'.nums) ∧
    (typeOr d.type = .actual → options.any (is d) = true → options.mapM (getInt s.dm) = some w'.nums) ∧
    (w'.key = w.key ∨ w'.key = getStr s.dm basicAuthPassword ∨ (sets d basicAuthPassword ∧ w'.key = some d.value)) ∧
    (∀ p, getInt s.dm securityProfile = some p → p < 3 → sets d basicAuthPassword →
      w'.key = some d.value ∨ w'.key = getStr s.dm basicAuthPassword)

theorem options_some {dm : DM} (h : Healthy dm) : ∃ n, options.mapM (getInt dm) = some n := by
  have : ∀ l : List Cv, (∀ x ∈ l, ∃ n, getInt dm x = some n) → ∃ n, l.mapM (getInt dm) = some n := by
    intro l
    induction l with
    | nil => intro _; exact ⟨[], rfl⟩
    | cons x l ih =>
      intro hl
      obtain ⟨n, hn⟩ := hl x List.mem_cons_self
      obtain ⟨ns, hns⟩ := ih (fun y hy => hl y (List.mem_cons_of_mem _ hy))
      exact ⟨n :: ns, by simp [List.mapM_cons, hn, hns]⟩
  refine this options fun x hx => ?_
  obtain ⟨_, n, _, _, hn⟩ := h x (List.mem_append_right _ hx)
  exact ⟨n, hn⟩

theorem num {dm : DM} (h : Healthy dm) (x : Cv) (hx : x ∈ numbers) : ∃ n, getInt dm x = some n := by
  obtain ⟨_, n, _, _, hn⟩ := h x hx
  exact ⟨n, hn⟩

/-- The heartbeats after an item. -/
def heartbeatOf (d : SetData) (s : St) : Option Int :=
  if is d heartbeatInterval = true ∧ s.registered = true ∧ (stoi d.value).isSome then stoi d.value else s.heartbeat

theorem onHeartbeat_eq (d : SetData) (s : St) : onHeartbeat d s = some { s with heartbeat := heartbeatOf d s } := by
  obtain ⟨a, b, c, e, f, g, i, j, k⟩ := s
  unfold onHeartbeat heartbeatOf
  cases hi : is d heartbeatInterval <;> cases b <;> cases hv : stoi d.value <;> simp

/-- The options after an item. -/
def wsOf (d : SetData) (dm : DM) (n : List Int) (ws : Option Opts) : Option Opts :=
  if options.any (is d) = true then ws.map (fun _ => ⟨getStr dm basicAuthPassword, n, getStr dm interface⟩) else ws

theorem changed_step {s : St} (h : Healthy s.dm) (d : SetData) : ∃ s', changed .usable s d = some s' ∧ Step s s' d := by
  obtain ⟨nA, hA⟩ := num h messageAttempts (by decide)
  obtain ⟨nI, hI⟩ := num h messageAttemptInterval (by decide)
  obtain ⟨nT, hT⟩ := num h messageTimeout (by decide)
  obtain ⟨nL, hL⟩ := num h alignedInterval (by decide)
  obtain ⟨nP, hP⟩ := num h securityProfile (by decide)
  obtain ⟨nO, hO⟩ := options_some h
  by_cases ht : typeOr d.type = .actual
  · -- the password
    obtain ⟨s1, e1, w1⟩ : ∃ s1 : St, onPassword d s = some s1 ∧ s1 = { s with ws := s1.ws, restarts := s1.restarts } ∧
        (s.ws = none → s1.ws = none) ∧ ∀ w, s.ws = some w → ∃ w', s1.ws = some w' ∧ w'.nums = w.nums ∧
          (w'.key = w.key ∨ (sets d basicAuthPassword ∧ w'.key = some d.value)) ∧
          (nP < 3 → sets d basicAuthPassword → w'.key = some d.value) := by
      unfold onPassword
      by_cases hp : is d basicAuthPassword = true
      · have hset : sets d basicAuthPassword := sets_of_is rfl rfl ht hp
        rw [if_pos hp, hP]
        refine ⟨_, rfl, ?_⟩
        by_cases h3 : nP < 3
        · simp only [h3, if_true]
          unfold setKey
          cases hw : s.ws with
          | none => exact ⟨by first | rfl | trivial, fun _ => hw, fun w hw' => by cases hw'⟩
          | some w =>
            refine ⟨by first | rfl | trivial, fun hh => (by cases hh), fun w' hw' => ?_⟩
            injection hw' with hw'
            subst hw'
            exact ⟨_, rfl, rfl, Or.inr ⟨hset, rfl⟩, fun _ _ => rfl⟩
        · simp only [h3, if_false]
          exact ⟨by first | rfl | trivial, id, fun w hw => ⟨w, hw, rfl, Or.inl rfl, fun hh => hh.elim⟩⟩
      · rw [if_neg hp]
        refine ⟨s, rfl, rfl, id, fun w hw => ⟨w, hw, rfl, Or.inl rfl, ?_⟩⟩
        intro _ hs
        exact absurd (is_of_sets hs) hp
    obtain ⟨w1a, w1b, w1c⟩ := w1
    -- the heartbeats
    have e2 : onHeartbeat d s1 = some { s1 with heartbeat := heartbeatOf d s } := by
      rw [onHeartbeat_eq]
      have hr : s1.registered = s.registered := by rw [w1a]
      have hh : s1.heartbeat = s.heartbeat := by rw [w1a]
      unfold heartbeatOf
      rw [hr, hh]
    generalize hs2 : ({ s1 with heartbeat := heartbeatOf d s } : St) = s2 at e2
    have d2 : s2.dm = s.dm := by rw [← hs2]; show s1.dm = _; rw [w1a]
    -- clock-aligned values
    have e3 : onAligned d s2 = some { s2 with aligned := if is d alignedInterval = true then period nL else s2.aligned } := by
      unfold onAligned updateAligned
      rw [show getInt s2.dm alignedInterval = _ from d2 ▸ hL]
      cases is d alignedInterval <;> rfl
    generalize hs3 : ({ s2 with aligned := if is d alignedInterval = true then period nL else s2.aligned } : St) = s3 at e3
    have d3 : s3.dm = s.dm := by rw [← hs3]; exact d2
    -- options
    have e4 : onOptions .usable d s3 = some { s3 with ws := wsOf d s3.dm nO s3.ws } := by
      unfold onOptions setOptions readOpts wsOf
      rw [show options.mapM (getInt s3.dm) = _ from d3 ▸ hO]
      cases options.any (is d) <;> rfl
    generalize hs4 : ({ s3 with ws := wsOf d s3.dm nO s3.ws } : St) = s4 at e4
    have d4 : s4.dm = s.dm := by rw [← hs4]; exact d3
    -- the queue
    have e5 : onInterval d s4 = some { s4 with interval := if is d messageAttemptInterval = true then nI else s4.interval } := by
      unfold onInterval
      rw [show getInt s4.dm messageAttemptInterval = _ from d4 ▸ hI]
      cases is d messageAttemptInterval <;> rfl
    generalize hs5 : ({ s4 with interval := if is d messageAttemptInterval = true then nI else s4.interval } : St) = s5 at e5
    have d5 : s5.dm = s.dm := by rw [← hs5]; exact d4
    have e6 : onAttempts d s5 = some { s5 with attempts := if is d messageAttempts = true then nA else s5.attempts } := by
      unfold onAttempts
      rw [show getInt s5.dm messageAttempts = _ from d5 ▸ hA]
      cases is d messageAttempts <;> rfl
    generalize hs6 : ({ s5 with attempts := if is d messageAttempts = true then nA else s5.attempts } : St) = s6 at e6
    have d6 : s6.dm = s.dm := by rw [← hs6]; exact d5
    have e7 : onTimeout d s6 = some { s6 with timeout := if is d messageTimeout = true then nT else s6.timeout } := by
      unfold onTimeout
      rw [show getInt s6.dm messageTimeout = _ from d6 ▸ hT]
      cases is d messageTimeout <;> rfl
    refine ⟨{ s6 with timeout := if is d messageTimeout = true then nT else s6.timeout }, ?_, ?_⟩
    · simp only [changed, ht, ne_eq, not_true_eq_false, if_false, e1, e2, e3, e4, e5, e6, bind, Option.bind, e7]
    · -- the fields
      have f1 : s1.registered = s.registered ∧ s1.attempts = s.attempts ∧ s1.interval = s.interval ∧ s1.timeout = s.timeout ∧
          s1.aligned = s.aligned := by rw [w1a]; exact ⟨rfl, rfl, rfl, rfl, rfl⟩
      obtain ⟨g1, g2, g3, g4, g5⟩ := f1
      subst hs2
      subst hs3
      subst hs4
      subst hs5
      subst hs6
      refine ⟨d6, g1, ?_, ?_, ?_, ?_, ?_, ?_, ?_, ?_, ?_, ?_, ?_⟩
      · dsimp only; rw [g2]; split
        · exact Or.inr hA
        · exact Or.inl rfl
      · intro hi _; dsimp only; rw [if_pos hi]; exact hA
      · dsimp only; rw [g3]; split
        · exact Or.inr hI
        · exact Or.inl rfl
      · intro hi _; dsimp only; rw [if_pos hi]; exact hI
      · dsimp only; rw [g4]; split
        · exact Or.inr hT
        · exact Or.inl rfl
      · intro hi _; dsimp only; rw [if_pos hi]; exact hT
      · dsimp only; rw [g5]; split
        · exact Or.inr ⟨nL, hL, rfl⟩
        · exact Or.inl rfl
      · intro hi _; dsimp only; rw [if_pos hi]; exact ⟨nL, hL, rfl⟩
      · dsimp only; simp only [ht, true_and, heartbeatOf]
      · intro hw
        dsimp only [wsOf]
        rw [w1b hw]
        split <;> rfl
      · intro w hw
        obtain ⟨w', k1, k2, k3, k4⟩ := w1c w hw
        dsimp only [wsOf]
        rw [k1]
        by_cases ho : options.any (is d) = true
        · rw [if_pos ho]
          exact ⟨_, rfl, Or.inr hO, fun _ _ => hO, Or.inr (Or.inl (congrArg (fun x => getStr x basicAuthPassword) d2)),
            fun p _ _ _ => Or.inr (congrArg (fun x => getStr x basicAuthPassword) d2)⟩
        · rw [if_neg ho]
          refine ⟨w', rfl, Or.inl k2, fun _ hh => absurd hh ho, ?_, ?_⟩
          · rcases k3 with k3 | k3
            · exact Or.inl k3
            · exact Or.inr (Or.inr k3)
          · intro p hp h3 hs
            rw [hP] at hp
            injection hp with hp
            exact Or.inl (k4 (by rw [hp]; exact h3) hs)
  · refine ⟨s, by simp [changed, ht], ?_⟩
    refine ⟨rfl, rfl, Or.inl rfl, fun _ h => absurd h ht, Or.inl rfl, fun _ h => absurd h ht, Or.inl rfl, fun _ h => absurd h ht, Or.inl rfl,
      fun _ h => absurd h ht, ?_, id, ?_⟩
    · rw [if_neg]; rintro ⟨_, _, h, _⟩; exact ht h
    · intro w hw
      exact ⟨w, hw, Or.inl rfl, fun h => absurd h ht, Or.inl rfl, fun _ _ _ hs => absurd hs.2 ht⟩

/-! ## Requests -/

/-- The items of a request, one after the other: what every item keeps is kept, what an item brings about holds in the end. -/
theorem handleAll_gen (dm : DM) (h : Healthy dm) : ∀ (l : List SetData) (s : St), s.dm = dm →
    ∃ s', handleAll .usable s l = some s' ∧ s'.dm = dm ∧ s'.registered = s.registered ∧
      ∀ (P : St → Prop) (hit : SetData → Prop),
        (∀ a b d, d ∈ l → a.dm = dm → a.registered = s.registered → Step a b d → P a ∨ hit d → P b) → (P s ∨ ∃ d ∈ l, hit d) → P s'
  | [], s, hs => ⟨s, rfl, hs, rfl, fun P hit _ hp => hp.elim id (fun ⟨_, hd, _⟩ => by cases hd)⟩
  | d :: l, s, hs => by
    obtain ⟨s1, e1, st⟩ := changed_step (s := s) (by rw [hs]; exact h) d
    obtain ⟨s2, e2, k1, k2, k3⟩ := handleAll_gen dm h l s1 (by rw [st.dm, hs])
    refine ⟨s2, ?_, k1, k2.trans st.registered, ?_⟩
    · simp only [handleAll, e1, Option.bind_some, e2]
    · intro P hit hstep hp
      refine k3 P hit (fun a b x hx ha hr => hstep a b x (List.mem_cons_of_mem _ hx) ha (hr.trans st.registered)) ?_
      rcases hp with hp | ⟨x, hx, hh⟩
      · exact Or.inl (hstep s s1 d List.mem_cons_self hs rfl st (Or.inl hp))
      · rcases List.mem_cons.mp hx with rfl | hx
        · exact Or.inl (hstep s s1 x List.mem_cons_self hs rfl st (Or.inr hh))
        · exact Or.inr ⟨x, hx, hh⟩

theorem mapM_some {α β : Type} (f : α → Option β) : ∀ (l : List α) (r : List β), l.mapM f = some r ↔ l.map f = r.map some
  | [], r => by cases r <;> simp [pure]
  | a :: l, r => by
    have ih := mapM_some f l
    rw [List.mapM_cons]
    cases ha : f a with
    | none => cases r <;> simp [ha]
    | some b =>
      cases hl : l.mapM f with
      | none =>
        cases r with
        | nil => simp [ha]
        | cons c r =>
          have : ¬ l.map f = r.map some := fun h => by rw [(ih r).mpr h] at hl; cases hl
          simp [ha, this]
      | some q =>
        cases r with
        | nil => simp [ha]
        | cons c r =>
          have hq := (ih q).mp hl
          simp only [bind, Option.bind, pure, List.map_cons, ha, List.cons.injEq, Option.some.injEq, hq]
          constructor
          · rintro ⟨rfl, rfl⟩; exact ⟨rfl, rfl⟩
          · rintro ⟨rfl, h⟩
            exact ⟨rfl, List.map_injective_iff.mpr (fun x y hxy => by injection hxy) h⟩

theorem request_inEffect (guard : DM → SetData → Bool) (ro : Bool) (s : St) (ds : List SetData) (hh : Healthy s.dm) (he : InEffect s)
    (hd : ds.Pairwise (fun x y => ¬ (x.comp = y.comp ∧ x.var = y.var)))
    (hp : ∀ d ∈ ds, ¬ (d.comp = securityProfile.1 ∧ d.var = securityProfile.2)) :
    ∃ s', request guard ro .usable s ds = some s' ∧ Healthy s'.dm ∧ InEffect s' ∧ s'.registered = s.registered ∧
      s'.dm = after guard ro s.dm ds := by
  have hst : (setVariables guard ro s.dm [] ds).1 = after guard ro s.dm ds := setVariables_state guard ro ds s.dm []
  have htold := told_eq guard ro ds s.dm [] hd (by simp)
  simp only [List.filter_nil, List.map_nil, List.nil_append] at htold
  generalize hdm : after guard ro s.dm ds = dm at hst
  have hh' : Healthy dm := by rw [← hdm]; exact after_healthy guard ro ds s.dm hh
  obtain ⟨s', e, k1, k2, k3⟩ := handleAll_gen dm hh' (told guard ro s.dm ds) { s with dm := dm } rfl
  have quiet : ∀ x, (∀ d ∈ told guard ro s.dm ds, ¬ sets d x) → getStr dm x = getStr s.dm x := by
    intro x hx; rw [← hdm]; exact after_quiet guard ro x ds s.dm hx
  have wrote : ∀ x, ∀ d ∈ told guard ro s.dm ds, sets d x → getStr dm x = some d.value := by
    intro x d hx hs; rw [← hdm]; exact after_set guard ro x ds s.dm hd d hx hs
  have quietI : ∀ x, (∀ d ∈ told guard ro s.dm ds, ¬ sets d x) → getInt dm x = getInt s.dm x := by
    intro x hx; unfold getInt; rw [quiet x hx]
  -- either an item sets the variable or it is as before
  have either : ∀ x, getInt dm x = getInt s.dm x ∨ ∃ d ∈ told guard ro s.dm ds, sets d x := by
    intro x
    by_cases hx : ∃ d ∈ told guard ro s.dm ds, sets d x
    · exact Or.inr hx
    · exact Or.inl (quietI x fun d hd hs => hx ⟨d, hd, hs⟩)
  refine ⟨s', ?_, by rw [k1]; exact hh', ?_, k2, by rw [k1]⟩
  · unfold request
    dsimp only
    rw [hst, htold]
    exact e
  refine ⟨?_, ?_, ?_, ?_, ?_, ?_, ?_⟩
  · refine k3 (fun t => getInt t.dm messageAttempts = some t.attempts) (fun d => sets d messageAttempts) ?_ ?_
    · intro a b d _ _ _ st hor
      rw [st.dm]
      rcases hor with hor | hor
      · rcases st.attempts with h | h
        · rw [h]; exact hor
        · exact h
      · exact st.attempts' (is_of_sets hor) hor.2
    · rcases either messageAttempts with h | h
      · left; show getInt dm _ = some s.attempts; rw [h]; exact he.attempts
      · exact Or.inr h
  · refine k3 (fun t => getInt t.dm messageAttemptInterval = some t.interval) (fun d => sets d messageAttemptInterval) ?_ ?_
    · intro a b d _ _ _ st hor
      rw [st.dm]
      rcases hor with hor | hor
      · rcases st.interval with h | h
        · rw [h]; exact hor
        · exact h
      · exact st.interval' (is_of_sets hor) hor.2
    · rcases either messageAttemptInterval with h | h
      · left; show getInt dm _ = some s.interval; rw [h]; exact he.interval
      · exact Or.inr h
  · refine k3 (fun t => getInt t.dm messageTimeout = some t.timeout) (fun d => sets d messageTimeout) ?_ ?_
    · intro a b d _ _ _ st hor
      rw [st.dm]
      rcases hor with hor | hor
      · rcases st.timeout with h | h
        · rw [h]; exact hor
        · exact h
      · exact st.timeout' (is_of_sets hor) hor.2
    · rcases either messageTimeout with h | h
      · left; show getInt dm _ = some s.timeout; rw [h]; exact he.timeout
      · exact Or.inr h
  · refine k3 (fun t => t.registered = true → t.heartbeat = getInt t.dm heartbeatInterval) (fun d => sets d heartbeatInterval) ?_ ?_
    · intro a b d hmem ha hra st hor hr
      rw [st.dm, st.heartbeat]
      rw [st.registered] at hr
      by_cases hs : sets d heartbeatInterval
      · have hv := wrote _ d hmem hs
        obtain ⟨n, hn⟩ := num hh' heartbeatInterval (by decide)
        have hn' : stoi d.value = some n := by
          unfold getInt at hn; rw [hv] at hn; exact hn
        rw [if_pos ⟨is_of_sets hs, hr, hs.2, by rw [hn']; rfl⟩, ha, hn, hn']
      · rw [if_neg (fun hc => hs (sets_of_is rfl rfl hc.2.2.1 hc.1))]
        rcases hor with hor | hor
        · exact hor hr
        · exact absurd hor hs
    · rcases either heartbeatInterval with h | h
      · left; intro hr; show s.heartbeat = getInt dm _; rw [h]; exact he.heartbeat hr
      · exact Or.inr h
  · have key := k3 (fun t => t.registered = true → ∃ n, getInt t.dm alignedInterval = some n ∧ t.aligned = period n)
      (fun d => sets d alignedInterval) ?_ ?_
    · intro hr
      obtain ⟨n, h1, h2⟩ := key hr
      exact ⟨n, h1, fun hn => by rw [h2, period, if_neg (by omega)], fun hn => by rw [h2, period, if_pos hn]⟩
    · intro a b d _ _ _ st hor hr
      rw [st.dm]
      rcases hor with hor | hor
      · rcases st.aligned with h | h
        · rw [h]; exact hor (by rw [← st.registered]; exact hr)
        · exact h
      · exact st.aligned' (is_of_sets hor) hor.2
    · rcases either alignedInterval with h | h
      · left; intro hr
        obtain ⟨n, h1, h2, h3⟩ := he.aligned hr
        refine ⟨n, by show getInt dm _ = _; rw [h]; exact h1, ?_⟩
        show s.aligned = period n
        unfold period
        split
        · rename_i hn; exact h3 hn
        · rename_i hn; exact h2 (by omega)
      · exact Or.inr h
  · have key := k3 (fun t => ∀ w, t.ws = some w → options.mapM (getInt t.dm) = some w.nums) (fun d => ∃ x ∈ options, sets d x) ?_ ?_
    · intro w hw
      exact (mapM_some _ _ _).mp (key w hw)
    · intro a b d _ _ _ st hor w hw
      rw [st.dm]
      cases haw : a.ws with
      | none => rw [st.ws haw] at hw; cases hw
      | some wa =>
        obtain ⟨w', h1, h2, h3, _⟩ := st.nums wa haw
        rw [h1] at hw
        injection hw with hw
        subst hw
        rcases hor with hor | ⟨x, hx, hs⟩
        · rcases h2 with h2 | h2
          · rw [h2]; exact hor wa haw
          · exact h2
        · exact h3 hs.2 (List.any_eq_true.mpr ⟨x, hx, is_of_sets hs⟩)
    · by_cases hx : ∃ d ∈ told guard ro s.dm ds, ∃ x ∈ options, sets d x
      · exact Or.inr hx
      · left
        intro w hw
        rw [mapM_some]
        have h0 := he.options w hw
        rw [← h0]
        refine List.map_congr_left fun x hxo => ?_
        exact quietI x fun d hd hs => hx ⟨d, hd, x, hxo, hs⟩
  · have hprof : getInt dm securityProfile = getInt s.dm securityProfile := by
      refine quietI _ fun d hd hs => hp d (told_sub guard ro ds s.dm d hd) ?_
      have := hs.1
      exact ⟨congrArg Prod.fst this, congrArg Prod.snd this⟩
    refine k3 (fun t => ∀ w p, t.ws = some w → getInt t.dm securityProfile = some p → p < 3 → w.key = getStr t.dm basicAuthPassword)
      (fun d => sets d basicAuthPassword) ?_ ?_
    · intro a b d hmem ha _ st hor w p hw hpr h3
      rw [st.dm] at hpr ⊢
      cases haw : a.ws with
      | none => rw [st.ws haw] at hw; cases hw
      | some wa =>
        obtain ⟨w', h1, _, _, h4, h5⟩ := st.nums wa haw
        rw [h1] at hw
        injection hw with hw
        subst hw
        by_cases hs : sets d basicAuthPassword
        · have hv := wrote _ d hmem hs
          rw [ha]
          rcases h5 p hpr h3 hs with h | h
          · rw [h, hv]
          · rw [h, ha]
        · rcases hor with hor | hor
          · rcases h4 with h | h | h
            · rw [h]; exact hor wa p haw hpr h3
            · exact h
            · exact absurd h.1 hs
          · exact absurd hor hs
    · by_cases hx : ∃ d ∈ told guard ro s.dm ds, sets d basicAuthPassword
      · exact Or.inr hx
      · left
        intro w p hw hpr h3
        show w.key = getStr dm basicAuthPassword
        rw [quiet _ fun d hd hs => hx ⟨d, hd, hs⟩]
        exact he.password w p hw (hprof ▸ hpr) h3

/-! ## Numbers as texts -/

theorem digit_toNat (n : Nat) (h : n < 10) : (Char.ofNat (48 + n)).toNat = 48 + n := by
  have : ∀ m : Fin 10, (Char.ofNat (48 + m.val)).toNat = 48 + m.val := by decide
  exact this ⟨n, h⟩

theorem natOf_snoc (ds : Str) (c : Char) : natOf (ds ++ [c]) = 10 * natOf ds + (c.toNat - '0'.toNat) := by
  simp [natOf]

theorem natOf_digits (n : Nat) : natOf (digits n) = n := by
  induction n using Nat.strongRecOn with
  | _ n ih =>
    unfold digits
    split
    · rename_i h
      have := digit_toNat n h
      simp only [natOf, List.foldl_cons, List.foldl_nil, this]
      show 10 * 0 + (48 + n - 48) = n
      omega
    · rename_i h
      rw [natOf_snoc, ih (n / 10) (by omega), digit_toNat _ (by omega)]
      show 10 * (n / 10) + (48 + n % 10 - 48) = n
      omega

theorem digits_cons (n : Nat) : ∃ c r, digits n = c :: r ∧ c ≠ '+' ∧ c ≠ '-' := by
  induction n using Nat.strongRecOn with
  | _ n ih =>
    unfold digits
    split
    · rename_i h
      refine ⟨_, [], rfl, ?_, ?_⟩ <;> intro e <;> have := congrArg Char.toNat e <;> rw [digit_toNat n h] at this
      · have h2 : '+'.toNat = 43 := by decide
        omega
      · have h2 : '-'.toNat = 45 := by decide
        omega
    · rename_i h
      obtain ⟨c, r, h1, h2⟩ := ih (n / 10) (by omega)
      exact ⟨c, r ++ [Char.ofNat (48 + n % 10)], by rw [h1]; rfl, h2⟩

theorem stoi_digits (n : Int) (h0 : 0 < n) (h1 : n ≤ 2147483647) : stoi (digits n.toNat) = some n := by
  obtain ⟨c, r, hd, hc1, hc2⟩ := digits_cons n.toNat
  have hn := natOf_digits n.toNat
  rw [hd] at hn ⊢
  have hi : ((n.toNat : Nat) : Int) = n := by omega
  simp only [stoi, hc1, hc2, or_self, if_false, hn, hi]
  rw [if_neg (by simp), if_neg (by omega)]

/-! ## Registration and connection -/

theorem boot_inEffect (s : St) (a : Bool) (n : Int) (hh : Healthy s.dm) (he : InEffect s) (hg : GoodEv s (.boot a n)) :
    ∃ s', boot a n s = some s' ∧ Healthy s'.dm ∧ InEffect s' := by
  cases a with
  | false =>
    refine ⟨{ s with registered := false }, rfl, hh, ?_⟩
    exact ⟨he.attempts, he.interval, he.timeout, (fun h => by cases h), (fun h => by cases h), he.options, he.password⟩
  | true =>
    obtain ⟨g1, g2, g3⟩ := hg rfl
    have hh' := healthy_set hh heartbeatInterval.1 heartbeatInterval.2 .actual (digits n.toNat) false
    have hget : ∀ x, getStr (setValue s.dm heartbeatInterval.1 heartbeatInterval.2 .actual (digits n.toNat) false).2 x =
        if x = heartbeatInterval then some (digits n.toNat) else getStr s.dm x := by
      intro x
      rw [getStr_set, g3]
      simp
    have other : ∀ x, x ≠ heartbeatInterval →
        getInt (setValue s.dm heartbeatInterval.1 heartbeatInterval.2 .actual (digits n.toNat) false).2 x = getInt s.dm x := by
      intro x hx; unfold getInt; rw [hget, if_neg hx]
    have hhb : getInt (setValue s.dm heartbeatInterval.1 heartbeatInterval.2 .actual (digits n.toNat) false).2 heartbeatInterval = some n := by
      unfold getInt; rw [hget, if_pos rfl]; exact stoi_digits n g1 g2
    unfold boot updateAligned
    simp only [if_true, if_pos (show n > 0 from g1)]
    generalize (setValue s.dm heartbeatInterval.1 heartbeatInterval.2 .actual (digits n.toNat) false).2 = dm at *
    obtain ⟨k, hk⟩ := num hh' alignedInterval (by decide)
    rw [hk]
    refine ⟨_, rfl, hh', ?_, ?_, ?_, ?_, ?_, ?_, ?_⟩
    · exact (other _ (by decide)).trans he.attempts
    · exact (other _ (by decide)).trans he.interval
    · exact (other _ (by decide)).trans he.timeout
    · intro _; exact hhb.symm
    · intro _
      refine ⟨k, hk, fun h => ?_, fun h => ?_⟩
      · show period k = _; unfold period; rw [if_neg (by omega)]
      · show period k = _; unfold period; rw [if_pos h]
    · intro w hw
      rw [← he.options w hw]
      refine List.map_congr_left fun x hx => other x ?_
      intro e; subst e; revert hx; decide
    · intro w p hw hp h3
      show w.key = getStr dm _
      rw [hget, if_neg (by decide)]
      exact he.password w p hw ((other _ (by decide)).symm.trans hp) h3

theorem connect_inEffect (s : St) (c : Option (Option Str)) (hh : Healthy s.dm) (he : InEffect s) :
    ∃ s', connect c s = some s' ∧ Healthy s'.dm ∧ InEffect s' := by
  obtain ⟨n, hn⟩ := options_some hh
  unfold connect readOpts
  rw [hn]
  refine ⟨_, rfl, hh, he.attempts, he.interval, he.timeout, he.heartbeat, he.aligned, ?_, ?_⟩
  · intro w hw
    have : w.nums = n := by
      cases c <;> (simp at hw; subst hw; rfl)
    rw [this]
    exact (mapM_some _ _ _).mp hn
  · intro w p hw _ _
    cases c <;> (simp at hw; subst hw; rfl)

/-! ## C219 -/

theorem run_inEffect (guard : DM → SetData → Bool) : ∀ (evs : List Ev) (s : St), Healthy s.dm → InEffect s → Good guard s evs →
    ∃ s', run guard s evs = some s' ∧ InEffect s'
  | [], s, _, he, _ => ⟨s, rfl, he⟩
  | e :: evs, s, hh, he, hg => by
    have : ∃ s', step guard s e = some s' ∧ Healthy s'.dm ∧ InEffect s' := by
      cases e with
      | set csms slot ds =>
        obtain ⟨h1, h2, h3⟩ := hg.1
        subst h2
        obtain ⟨s', k1, k2, k3, _⟩ := request_inEffect guard (!csms) s ds hh he h1 h3
        exact ⟨s', k1, k2, k3⟩
      | boot a n => exact boot_inEffect s a n hh he hg.1
      | connect c => exact connect_inEffect s c hh he
    obtain ⟨s', k1, k2, k3⟩ := this
    obtain ⟨s2, l1, l2⟩ := run_inEffect guard evs s' k2 k3 (hg.2 s' k1)
    exact ⟨s2, by simp only [run, k1, Option.bind_some, l1], l2⟩

/-- **C219 (partial: no variable twice in a request, see `GoodEv`).** After every history of SetVariables requests, settings by the
application, registrations and connections, what the station uses is what the device model says: the queue repeats messages as MessageAttempts,
MessageAttemptInterval and MessageTimeout say; a registered station sends heartbeats and clock-aligned meter values in the intervals set; and
the connection has the options and, below security profile 3, the password set. No request fails with an exception. -/
theorem C219_partial (guard : DM → SetData → Bool) (dm : DM) (hh : Healthy dm) (evs : List Ev) :
    ∃ s0, start dm = some s0 ∧ (Good guard s0 evs → ∃ s, run guard s0 evs = some s ∧ InEffect s) := by
  obtain ⟨nA, hA⟩ := num hh messageAttempts (by decide)
  obtain ⟨nI, hI⟩ := num hh messageAttemptInterval (by decide)
  obtain ⟨nT, hT⟩ := num hh messageTimeout (by decide)
  refine ⟨{ dm := dm, attempts := nA, interval := nI, timeout := nT }, ?_, ?_⟩
  · unfold start; rw [hA, hI, hT]; rfl
  · intro hg
    refine run_inEffect guard evs _ hh ?_ hg
    exact ⟨hA, hI, hT, (fun h => by cases h), (fun h => by cases h), (fun w h => by cases h), (fun w p h => by cases h)⟩

/-- A device model with these variables. -/
def sample : DM :=
  (numbers.map fun x => ⟨x.1, x.2, ⟨.integer, none, none, none, false⟩, [⟨.actual, some ['2'], some .readWrite⟩]⟩) ++
  [⟨basicAuthPassword.1, basicAuthPassword.2, ⟨.string, none, none, none, false⟩, [⟨.actual, some ['p'], some .writeOnly⟩]⟩]

theorem sample_healthy : Healthy sample := by
  intro x hx
  have : ∀ x ∈ numbers, (find sample x.1 x.2).isSome = true ∧ ((find sample x.1 x.2).all fun e => e.chars.dataType == .integer) = true ∧
      getInt sample x = some 2 := by decide +kernel
  obtain ⟨h1, h2, h3⟩ := this x hx
  cases hf : find sample x.1 x.2 with
  | none => rw [hf] at h1; cases h1
  | some e => rw [hf] at h2; exact ⟨e, 2, rfl, by simpa using h2, h3⟩

/-- The start with this device model. -/
def sampleStart : St := { dm := sample, attempts := 2, interval := 2, timeout := 2 }

/-- A registration, a connection and a request that sets the heartbeats, the password and the pings: what is observed. -/
example : start sample = some sampleStart ∧
    (run (fun _ _ => true) sampleStart [.boot true 30, .connect none, .set true .usable
      [⟨heartbeatInterval.1, heartbeatInterval.2, none, ['4', '0']⟩, ⟨basicAuthPassword.1, basicAuthPassword.2, none, ['q']⟩,
       ⟨pingInterval.1, pingInterval.2, some .actual, ['9']⟩, ⟨messageTimeout.1, messageTimeout.2, none, ['7']⟩]]).map
      (fun s => (s.heartbeat, s.timeout, s.ws, s.restarts)) =
    some (some 40, 7, some ⟨some ['q'], [2, 2, 2, 2, 9], none⟩, 1) := by
  refine ⟨?_, by decide +kernel⟩
  have h : getInt sample messageAttempts = some 2 ∧ getInt sample messageAttemptInterval = some 2 ∧ getInt sample messageTimeout = some 2 := by
    decide +kernel
  unfold start
  rw [h.1, h.2.1, h.2.2]
  rfl

/-- The conditions hold of this history. -/
example : GoodEv sampleStart (.boot true 30) ∧ GoodEv sampleStart (.set true .usable
      [⟨heartbeatInterval.1, heartbeatInterval.2, none, ['4', '0']⟩, ⟨basicAuthPassword.1, basicAuthPassword.2, none, ['q']⟩]) := by
  refine ⟨fun _ => ⟨by decide, by decide, by decide +kernel⟩, by decide +kernel, rfl, by decide +kernel⟩

/-- **C219 violated.** If a request names HeartbeatInterval twice, both values are accepted and the last one is in the device model, but
the heartbeats have the first one. If it sets the Target of the password and then the password, the connection keeps the old password. -/
theorem C219_violated :
    ∃ (s : St) (a b c d : SetData), InEffect s ∧
      ((request (fun _ _ => true) false .usable s [a, b]).map fun t => (t.heartbeat, getInt t.dm heartbeatInterval)) =
        some (some 4, some 5) ∧
      ((request (fun _ _ => true) false .usable s [c, d]).map fun t => (t.ws.map Opts.key, getStr t.dm basicAuthPassword)) =
        some (some (some ['p']), some ['q']) := by
  let dm : DM := (numbers.map fun x => ⟨x.1, x.2, ⟨.integer, none, none, none, false⟩, [⟨.actual, some ['2'], some .readWrite⟩]⟩) ++
    [⟨basicAuthPassword.1, basicAuthPassword.2, ⟨.string, none, none, none, false⟩,
      [⟨.actual, some ['p'], some .writeOnly⟩, ⟨.target, some ['p'], some .writeOnly⟩]⟩]
  refine ⟨{ dm := dm, attempts := 2, interval := 2, timeout := 2, registered := true, heartbeat := some 2, aligned := some 2,
            ws := some ⟨some ['p'], [2, 2, 2, 2, 2], none⟩ },
    ⟨heartbeatInterval.1, heartbeatInterval.2, none, ['4']⟩, ⟨heartbeatInterval.1, heartbeatInterval.2, none, ['5']⟩,
    ⟨basicAuthPassword.1, basicAuthPassword.2, some .target, ['q']⟩, ⟨basicAuthPassword.1, basicAuthPassword.2, none, ['q']⟩,
    ?_, by decide +kernel, by decide +kernel⟩
  refine ⟨by decide +kernel, by decide +kernel, by decide +kernel, fun _ => by decide +kernel, fun _ => ⟨2, by decide +kernel, by decide, by decide⟩,
    ?_, ?_⟩
  · intro w hw; injection hw with hw; subst hw; decide +kernel
  · intro w p hw _ _; injection hw with hw; subst hw; decide +kernel

/-! ## C220: the interface -/

/-- **C220 (partial: the application leaves the choice of the interface to the device model).** The connection uses the interface it was
opened with, however its options are changed. -/
theorem C220_partial (s s' : St) (slot : Slot) (d : SetData) (w : Opts) (hw : s.ws = some w) (hi : w.iface = getStr s.dm interface)
    (h : changed slot s d = some s') : ∃ w', s'.ws = some w' ∧ w'.iface = w.iface ∧ s'.dm = s.dm := by
  unfold changed at h
  split at h
  · injection h with h; subst h; exact ⟨w, hw, rfl, rfl⟩
  · have hP : ∀ a b, onPassword d a = some b → (∃ x, a.ws = some x ∧ x.iface = w.iface ∧ a.dm = s.dm) →
        ∃ x, b.ws = some x ∧ x.iface = w.iface ∧ b.dm = s.dm := by
      rintro a b hab ⟨x, h1, h2, h3⟩
      unfold onPassword at hab
      split at hab
      · cases hg : getInt a.dm securityProfile with
        | none => rw [hg] at hab; cases hab
        | some p =>
          rw [hg] at hab
          simp only [bind, Option.bind, pure, Option.some.injEq] at hab
          subst hab
          split
          · unfold setKey; rw [h1]; exact ⟨_, rfl, h2, h3⟩
          · exact ⟨x, h1, h2, h3⟩
      · injection hab with hab; subst hab; exact ⟨x, h1, h2, h3⟩
    have hH : ∀ a b, onHeartbeat d a = some b → (∃ x, a.ws = some x ∧ x.iface = w.iface ∧ a.dm = s.dm) →
        ∃ x, b.ws = some x ∧ x.iface = w.iface ∧ b.dm = s.dm := by
      intro a b hab hx
      rw [onHeartbeat_eq] at hab
      injection hab with hab; subst hab; exact hx
    have hA : ∀ a b, onAligned d a = some b → (∃ x, a.ws = some x ∧ x.iface = w.iface ∧ a.dm = s.dm) →
        ∃ x, b.ws = some x ∧ x.iface = w.iface ∧ b.dm = s.dm := by
      intro a b hab hx
      unfold onAligned updateAligned at hab
      split at hab
      · cases hg : getInt a.dm alignedInterval with
        | none => rw [hg] at hab; cases hab
        | some p =>
          rw [hg] at hab
          simp only [bind, Option.bind, pure, Option.some.injEq] at hab
          subst hab; exact hx
      · injection hab with hab; subst hab; exact hx
    have hO : ∀ a b, onOptions slot d a = some b → (∃ x, a.ws = some x ∧ x.iface = w.iface ∧ a.dm = s.dm) →
        ∃ x, b.ws = some x ∧ x.iface = w.iface ∧ b.dm = s.dm := by
      rintro a b hab ⟨x, h1, h2, h3⟩
      unfold onOptions setOptions at hab
      split at hab
      · cases slot with
        | missing => cases hab
        | invalid => injection hab with hab; subst hab; exact ⟨x, h1, h2, h3⟩
        | usable =>
          dsimp only at hab
          unfold readOpts at hab
          cases hg : options.mapM (getInt a.dm) with
          | none => rw [hg] at hab; cases hab
          | some n =>
            rw [hg] at hab
            simp only [bind, Option.bind, pure, Option.map_some, Option.some.injEq] at hab
            subst hab
            refine ⟨_, by rw [h1]; rfl, ?_, h3⟩
            show getStr a.dm interface = _
            rw [h3, hi]
      · injection hab with hab; subst hab; exact ⟨x, h1, h2, h3⟩
    have hQ : ∀ (c : Bool) (y : Cv) (f : Int → St → St) a b, (∀ n t, (f n t).ws = t.ws ∧ (f n t).dm = t.dm) →
        (if c = true then (getInt a.dm y).map (fun n => f n a) else some a) = some b →
        (∃ x, a.ws = some x ∧ x.iface = w.iface ∧ a.dm = s.dm) → ∃ x, b.ws = some x ∧ x.iface = w.iface ∧ b.dm = s.dm := by
      intro c y f a b hf hab hx
      split at hab
      · cases hg : getInt a.dm y with
        | none => rw [hg] at hab; cases hab
        | some n =>
          rw [hg] at hab
          simp only [Option.map_some, Option.some.injEq] at hab
          subst hab
          rw [(hf n a).1, (hf n a).2]; exact hx
      · injection hab with hab; subst hab; exact hx
    simp only [bind, Option.bind_eq_some_iff] at h
    obtain ⟨s1, e1, s2, e2, s3, e3, s4, e4, s5, e5, s6, e6, e7⟩ := h
    have x1 := hP s s1 e1 ⟨w, hw, rfl, rfl⟩
    have x2 := hH s1 s2 e2 x1
    have x3 := hA s2 s3 e3 x2
    have x4 := hO s3 s4 e4 x3
    have x5 := hQ _ messageAttemptInterval (fun n t => { t with interval := n }) s4 s5 (fun _ _ => ⟨rfl, rfl⟩) e5 x4
    have x6 := hQ _ messageAttempts (fun n t => { t with attempts := n }) s5 s6 (fun _ _ => ⟨rfl, rfl⟩) e6 x5
    exact hQ _ messageTimeout (fun n t => { t with timeout := n }) s6 s' (fun _ _ => ⟨rfl, rfl⟩) e7 x6

example : ((changed .usable { sampleStart with ws := some ⟨some ['p'], [2, 2, 2, 2, 2], none⟩ }
      ⟨pingInterval.1, pingInterval.2, none, ['9']⟩).map fun s => s.ws) = some (some ⟨some ['p'], [2, 2, 2, 2, 2], none⟩) := by
  decide +kernel

/-- **C220 violated.** If the application chose an interface when the connection was opened, a change of the interval of the pings (or of
another of these options) makes the station forget it: the next connection is opened on the interface of the device model, or any. -/
theorem C220_violated : ∃ (s s1 s2 : St) (d : SetData), connect (some (some ['w'])) s = some s1 ∧
    request (fun _ _ => true) false .usable s1 [d] = some s2 ∧
    s1.ws.map Opts.iface = some (some ['w']) ∧ s2.ws.map Opts.iface = some none := by
  obtain ⟨s1, h1, hh, he⟩ := connect_inEffect sampleStart (some (some ['w'])) sample_healthy
    ⟨by decide +kernel, by decide +kernel, by decide +kernel, (fun h => by cases h), (fun h => by cases h), (fun w h => by cases h),
      (fun w p h => by cases h)⟩
  obtain ⟨s2, h2, _⟩ := request_inEffect (fun _ _ => true) false s1 [⟨pingInterval.1, pingInterval.2, none, ['9']⟩] hh he
    (by simp) (by decide +kernel)
  refine ⟨sampleStart, s1, s2, _, h1, h2, ?_, ?_⟩
  · have : (connect (some (some ['w'])) sampleStart).map (fun s => s.ws.map Opts.iface) = some (some (some ['w'])) := by decide +kernel
    rw [h1] at this; injection this
  · have : ((connect (some (some ['w'])) sampleStart).bind fun s => (request (fun _ _ => true) false .usable s
        [⟨pingInterval.1, pingInterval.2, none, ['9']⟩]).map (fun s => s.ws.map Opts.iface)) = some (some none) := by decide +kernel
    rw [h1, Option.bind_some, h2] at this; injection this

end Verif.Effects
