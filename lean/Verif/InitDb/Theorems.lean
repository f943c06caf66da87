import Verif.InitDb.Restart
import Mathlib.Tactic.Linarith
/-
Properties C142-C147: the device model database across starts of the charging station.
-/
set_option linter.constructorNameAsVariable false

namespace Verif.InitDb

open Verif.DM (Str DataType AttrType ciEq)

/-! ### A configuration to show that the hypotheses can be met -/

/-- A component. -/
def exKey : Key := ⟨"OCPPCommCtrlr".toList, none, none, none⟩

/-- A second component. -/
def exKey2 : Key := ⟨"Connector".toList, none, some 1, some 1⟩

/-- Characteristics. -/
def exChars : Chars := ⟨.integer, none, some 0, true, some "s".toList, none⟩

/-- A preconfigured monitor. -/
def exMon : Mon := ⟨5, false, .upperThreshold, 100, .preconfigured, none⟩

/-- A variable with a value and a monitor. -/
def exVar : CVar := ⟨"HeartbeatInterval".toList, none, exChars,
  [⟨some .actual, some .readWrite, some "300".toList, none, none⟩], none, [exMon], none⟩

/-- A variable with a default value. -/
def exVar2 : CVar := ⟨"RetryBackOffWaitMinimum".toList, none, exChars,
  [⟨some .actual, some .readWrite, none, none, none⟩, ⟨some .target, some .readWrite, none, none, none⟩],
  some "3".toList, [], none⟩

/-- The names of the variables. -/
def exName : VKey := ⟨"HeartbeatInterval".toList, none⟩
def exName2 : VKey := ⟨"RetryBackOffWaitMinimum".toList, none⟩

/-- The configuration. -/
def exCfg : Config := [(exKey, [exVar, exVar2]), (exKey2, [exVar2])]

/-- The next version: another default, another monitor, a component less. -/
def exCfg' : Config := [(exKey, [
  { exVar with
    attrs := [⟨some .actual, some .readWrite, some "600".toList, none, none⟩]
    mons := [{ exMon with value := 50 }] }, exVar2])]

theorem exVar_tidy : TidyVar exVar := ⟨by decide, by decide, by decide, by decide, by decide⟩
theorem exVar2_tidy : TidyVar exVar2 := ⟨by decide, by decide, by decide, by decide, by decide⟩

theorem exCfg_tidy : Tidy exCfg := by
  refine ⟨by decide, ?_⟩
  intro e he
  simp only [exCfg, List.mem_cons, List.not_mem_nil, or_false] at he
  rcases he with rfl | rfl
  · refine ⟨by decide, by decide, by decide, ?_⟩
    intro v hv
    simp only [List.mem_cons, List.not_mem_nil, or_false] at hv
    rcases hv with rfl | rfl
    · exact exVar_tidy
    · exact exVar2_tidy
  · refine ⟨by decide, by decide, by decide, ?_⟩
    intro v hv
    simp only [List.mem_cons, List.not_mem_nil, or_false] at hv
    subst hv
    exact exVar2_tidy

theorem exCfg'_tidy : Tidy exCfg' := by
  refine ⟨by decide, ?_⟩
  intro e he
  simp only [exCfg', List.mem_cons, List.not_mem_nil, or_false] at he
  subst he
  refine ⟨by decide, by decide, by decide, ?_⟩
  intro v hv
  simp only [List.mem_cons, List.not_mem_nil, or_false] at hv
  rcases hv with rfl | rfl
  · exact ⟨by decide, by decide, by decide, by decide, by decide⟩
  · exact exVar2_tidy

/-! ### C142: what others have set survives -/

/-- C142.  A value that was written by the CSMS or the charging station itself (its source is neither "default"
nor empty) is there with its source after every further history: any number of starts with whatever
configurations that still have the attribute, be they successful, ended by an exception or interrupted, and
whatever is done to other attributes and to monitors.  Partial: configurations in order (`Tidy`); for an
instance that is the empty text see `C142_value_survives_violated`. -/
theorem C142_value_survives_partial (before after : List Op) (k : Key) (n : VKey) (t : AttrType)
    (value src : Str) (hsrc : SetByOthers src) (htidy : ∀ o ∈ before ++ after, o.Tidy)
    (hthere : findAttr (exec before emptyDb) k n t ≠ none) (hkeep : ∀ o ∈ after, o.KeepsAttr k n t) :
    ∃ a, findAttr (exec (before ++ .set k n t value src :: after) emptyDb) k n t = some a ∧
      a.value = some value ∧ a.src = some src := by
  have hb : OkDb (exec before emptyDb) := okDb_execs (fun o h => htidy o (by simp [h])) okDb_empty
  rw [exec_append]
  exact holds_execs (ops := after) (db := setValue k n t value src (exec before emptyDb)) hsrc
    (okDb_set k n t value src hb) (fun o h => htidy o (by simp [h])) hkeep (holds_set value src hthere)

/-- A successful, an interrupted and a failing start are histories of the theorem, with a configuration that has
another value. -/
example : (∀ o ∈ [Op.start exCfg] ++ [Op.interrupted exCfg' (fun _ => true), .start exCfg', .start exCfg], o.Tidy) ∧
    findAttr (exec [Op.start exCfg] emptyDb) exKey exName .actual ≠ none ∧
    (∀ o ∈ [Op.interrupted exCfg' (fun _ => true), .start exCfg', .start exCfg],
      o.KeepsAttr exKey exName .actual) ∧ SetByOthers "csms".toList := by
  have h : HasAttr exCfg exKey exName .actual :=
    ⟨exVar, _, ⟨_, List.mem_cons_self .., List.mem_cons_self ..⟩, rfl, List.mem_cons_self .., rfl⟩
  have h' : HasAttr exCfg' exKey exName .actual :=
    ⟨_, _, ⟨_, List.mem_cons_self .., List.mem_cons_self ..⟩, rfl, List.mem_cons_self .., rfl⟩
  refine ⟨?_, by decide +kernel, ?_, by decide, by decide⟩
  · intro o ho
    simp only [List.cons_append, List.nil_append, List.mem_cons, List.not_mem_nil, or_false] at ho
    rcases ho with rfl | rfl | rfl | rfl
    · exact exCfg_tidy
    · exact exCfg'_tidy
    · exact exCfg'_tidy
    · exact exCfg_tidy
  · intro o ho
    simp only [List.mem_cons, List.not_mem_nil, or_false] at ho
    rcases ho with rfl | rfl | rfl
    · exact h'
    · exact h'
    · exact h

/-- C142.  The same for the monitors the CSMS has set: they are there, unchanged and with their ids, after every
further history with starts whose configurations still have the variable, until they are cleared (or given a
new reference value). -/
theorem C142_monitor_survives_partial (before after : List Op) (k : Key) (n : VKey) (m : Mon)
    (htidy : ∀ o ∈ before ++ after, o.Tidy) (hthere : findVar (exec before emptyDb) k n ≠ none)
    (hkeep : ∀ o ∈ after, o.KeepsMonitor k n (exec before emptyDb).next) :
    (⟨(exec before emptyDb).next, { m with cfg := .custom }⟩ : DMon)
      ∈ monitors (exec (before ++ .addMonitor k n m :: after) emptyDb) k n := by
  have hb : OkDb (exec before emptyDb) := okDb_execs (fun o h => htidy o (by simp [h])) okDb_empty
  rw [exec_append]
  exact mon_execs (ops := after) (db := addMonitor k n m (exec before emptyDb)) rfl (okDb_addMonitor k n m hb)
    (fun o h => htidy o (by simp [h])) hkeep (mon_add m hthere)

/-- A history of the theorem. -/
example : (∀ o ∈ [Op.start exCfg] ++ [Op.start exCfg', .clearMonitor 0 true], o.Tidy) ∧
    findVar (exec [Op.start exCfg] emptyDb) exKey exName ≠ none ∧
    (∀ o ∈ [Op.start exCfg', .clearMonitor 0 true],
      o.KeepsMonitor exKey exName (exec [Op.start exCfg] emptyDb).next) := by
  refine ⟨?_, by decide +kernel, ?_⟩
  · intro o ho
    simp only [List.cons_append, List.nil_append, List.mem_cons, List.not_mem_nil, or_false] at ho
    rcases ho with rfl | rfl | rfl
    · exact exCfg_tidy
    · exact exCfg'_tidy
    · trivial
  · intro o ho
    simp only [List.mem_cons, List.not_mem_nil, or_false] at ho
    rcases ho with rfl | rfl
    · exact ⟨_, ⟨_, List.mem_cons_self .., List.mem_cons_self ..⟩, rfl⟩
    · show 0 ≠ _
      decide +kernel

/-- A component with an empty instance. -/
def emptyInst : Config := [(⟨"TxCtrlr".toList, some [], none, none⟩, [exVar])]

/-- C142, negation in general.  A component whose configuration gives the empty text as its instance is stored
without instance; at the next start it is not recognised, deleted and inserted again, and the value set by the
CSMS is replaced by that of the configuration. -/
theorem C142_value_survives_violated :
    ∃ (cfg : Config) (k : Key) (n : VKey),
      (findAttr (exec [.start cfg, .set k n .actual "60".toList "csms".toList] emptyDb) k n .actual).map Attr.value
        = some (some "60".toList) ∧
      (findAttr (exec [.start cfg, .set k n .actual "60".toList "csms".toList, .start cfg] emptyDb) k n .actual).map
        Attr.value = some (some "300".toList) :=
  ⟨emptyInst, ⟨"TxCtrlr".toList, none, none, none⟩, exName, by decide +kernel, by decide +kernel⟩

/-! ### C143: the device model is that of the configuration -/

theorem listed_iff {db : DB} (h : OkDb db) {k : Key} {n : VKey} {c : Chars} {s : Option Str} :
    (k, n, c, s) ∈ listed db ↔ ∃ w, findVar db k n = some w ∧ w.chars = c ∧ w.source = s := by
  unfold listed
  simp only [List.mem_flatMap, List.mem_map, Prod.mk.injEq]
  constructor
  · rintro ⟨co, hco, w, hw, hk, hn, hc, hs⟩
    exact ⟨w, (findVar_some h).2 ⟨co, hco, hk, hw, hn⟩, hc, hs⟩
  · rintro ⟨w, hw, hc, hs⟩
    obtain ⟨co, hco, hk, hw, hn⟩ := (findVar_some h).1 hw
    exact ⟨co, hco, w, hw, hk, hn, hc, hs⟩

theorem nodup_pairs {A B K N : Type} {key : A → K} {vals : A → List B} {name : B → N} :
    ∀ {l : List A}, (l.map key).Nodup → (∀ a ∈ l, ((vals a).map name).Nodup) →
      (l.flatMap (fun a => (vals a).map (fun b => (key a, name b)))).Nodup
  | [], _, _ => by simp
  | a :: r, h, h' => by
    simp only [List.map_cons, List.nodup_cons] at h
    simp only [List.flatMap_cons]
    rw [List.nodup_append]
    refine ⟨?_, nodup_pairs h.2 (fun a' ha' => h' a' (by simp [ha'])), ?_⟩
    · have : (vals a).map (fun b => (key a, name b)) = ((vals a).map name).map (fun n => (key a, n)) := by
        rw [List.map_map]; rfl
      rw [this]
      exact (h' a (by simp)).map (fun x y e => by injection e)
    · intro x hx y hy e
      subst e
      obtain ⟨b, -, rfl⟩ := List.mem_map.1 hx
      obtain ⟨a', ha', hy⟩ := List.mem_flatMap.1 hy
      obtain ⟨b', -, e⟩ := List.mem_map.1 hy
      injection e with e1 _
      exact h.1 (List.mem_map.2 ⟨a', ha', e1⟩)

theorem sameText_of {a b : Option Str} (h : optCiEq a b = true) : SameText a b := by
  cases a <;> cases b <;> simp_all [optCiEq, SameText, ciEq]

theorem sameChars_of {a b : Chars} (h : charsDiffer a b = false) : SameChars a b := by
  simp only [charsDiffer, Bool.not_eq_false', Bool.and_eq_true, decide_eq_true_eq] at h
  exact ⟨h.1.1.1.1.2, h.1.1.1.2, h.1.1.2, h.1.1.1.1.1, sameText_of h.1.2, sameText_of h.2⟩

theorem sameMon_of {a b : Mon} (h : monDiffers a b = false) : SameMon a b := by
  obtain ⟨h1, h2, h3, h4, h5, h6, h7⟩ := monSame h
  unfold epsilon at h3 h4
  exact ⟨h7, h5, h6, h1, h2, by linarith, by linarith⟩

/-- C143.  After a successful start on whatever database earlier starts and operations have left behind, the
device model is that of the configuration (`Mirrors`): exactly its components and variables, each once, with
their characteristics; for every variable exactly its types of attributes with their mutability; all its
monitors, and no others but those set by the CSMS.  Partial: configurations in order; units, lists of values up
to upper and lower case; limits of monitors up to 2⁻²³; the names of the sources are not claimed. -/
theorem C143_mirrors_partial (cfg : Config) (db db' : DB) (hr : Reachable db) (hc : Tidy cfg)
    (hd : initDb cfg db = .done db') : Mirrors cfg db' := by
  have h := okDb_reachable hr
  have hok : OkDb db' := by
    obtain ⟨-, t, hi⟩ := initDb_done hc h hd
    exact hi.okDb
  have hlist : ∀ {k : Key} {n : VKey} {w : Var}, findVar db' k n = some w → ∃ v, HasVar cfg k v ∧ v.vkey = n := by
    intro k n w hw
    obtain ⟨co, hco, rfl, hw', rfl⟩ := (findVar_some hok).1 hw
    exact var_listed hc h hd hco hw'
  have hinj : ∀ {k : Key} {v v' : CVar}, HasVar cfg k v → HasVar cfg k v' → v.vkey = v'.vkey → v = v' := by
    rintro k v v' ⟨vs, hvs, hv⟩ ⟨vs', hvs', hv'⟩ e
    have e1 := inj_of_nodup hc.keys hvs hvs' rfl
    injection e1 with _ e1
    subst e1
    exact inj_of_nodup (hc.tidy _ hvs).names hv hv' e
  have hrel : ∀ {k : Key} {v : CVar} {w : Var}, HasVar cfg k v → findVar db' k v.vkey = some w →
      ∃ oa om, VarRel v oa om w := by
    intro k v w hv hw
    obtain ⟨w', hf, hcase⟩ := rel_after hc h hd hv
    rw [hf] at hw
    injection hw with hw
    subst hw
    rcases hcase with ⟨-, hr⟩ | ⟨w₀, -, hr⟩
    · exact ⟨_, _, hr⟩
    · exact ⟨_, _, hr⟩
  refine ⟨?_, ?_, ?_, ?_, ?_, ?_, ?_⟩
  · intro k n
    constructor
    · rintro ⟨c, s, hl⟩
      obtain ⟨w, hw, -⟩ := (listed_iff hok).1 hl
      exact hlist hw
    · rintro ⟨v, hv, rfl⟩
      obtain ⟨w', hf, -⟩ := rel_after hc h hd hv
      exact ⟨w'.chars, w'.source, (listed_iff hok).2 ⟨w', hf, rfl, rfl⟩⟩
  · have := nodup_pairs (key := Comp.key) (vals := Comp.vars) (name := Var.vkey) hok.keys
      (fun c hc => (hok.ok c hc).names)
    unfold listed
    rw [List.map_flatMap]
    simp only [List.map_map]
    exact this
  · intro k v c s hv hl
    obtain ⟨w, hw, rfl, -⟩ := (listed_iff hok).1 hl
    obtain ⟨oa, om, hr⟩ := hrel hv hw
    exact sameChars_of (by rw [charsDiffer_symm]; exact hr.chars)
  · intro k n t
    constructor
    · intro hn
      cases hf : findAttr db' k n t with
      | none => exact absurd hf hn
      | some a' =>
        obtain ⟨w, hw, ha', ht⟩ := (findAttr_some hok).1 hf
        obtain ⟨v, hv, rfl⟩ := hlist hw
        obtain ⟨oa, om, hr⟩ := hrel hv hw
        obtain ⟨a, ha, e, -⟩ := hr.attrs.row a' ha'
        exact ⟨v, a, hv, rfl, ha, e.symm.trans ht⟩
    · rintro ⟨v, a, hv, rfl, ha, ht⟩
      obtain ⟨a', hf, -⟩ := attr_after hc h hd hv ha ht
      rw [hf]; simp
  · intro k v a t a' hv ha ht hf
    obtain ⟨a'', hf', hcase⟩ := attr_after hc h hd hv ha ht
    rw [hf] at hf'
    injection hf' with hf'
    subst hf'
    rcases hcase with ⟨-, x, rfl⟩ | ⟨b, hb, rfl⟩
    · simp [insertAttr, applyValue_muta]
    · split
      · simp [updateAttr, applyValue_muta]
      · rename_i hn
        exact (attrSame (a := a) (b := b.read) (by simpa using hn)).2.1.symm
  · intro k v m hv hm
    obtain ⟨w', hf, -⟩ := rel_after hc h hd hv
    obtain ⟨oa, om, hr⟩ := hrel hv hf
    obtain ⟨d, hd', -, -, hmade⟩ := hr.mons.entry m hm
    refine ⟨d, mem_monitors.2 ⟨w', hf, hd'⟩, sameMon_of ?_⟩
    rcases hmade with e | ⟨-, e⟩
    · rw [e]; exact monDiffers_refl m
    · rw [monDiffers_symm]; exact e
  · intro k v d hv hdm hcus
    obtain ⟨w', hf, hd'⟩ := mem_monitors.1 hdm
    obtain ⟨oa, om, hr⟩ := hrel hv hf
    obtain ⟨m, hm, -, hmade⟩ := hr.mons.row d hd' hcus
    refine ⟨m, hm, sameMon_of ?_⟩
    rcases hmade with e | ⟨-, e⟩
    · rw [e]; exact monDiffers_refl m
    · rw [monDiffers_symm]; exact e

/-- A start with another configuration on a database with values and a monitor of the CSMS. -/
example : ∃ db db', Reachable db ∧ Tidy exCfg' ∧ initDb exCfg' db = .done db' ∧ db ≠ db' := by
  refine ⟨exec [.start exCfg, .set exKey exName .actual "60".toList "csms".toList, .addMonitor exKey exName exMon] emptyDb,
    (initDb exCfg' (exec [.start exCfg, .set exKey exName .actual "60".toList "csms".toList,
      .addMonitor exKey exName exMon] emptyDb)).db, ⟨_, ?_, rfl⟩, exCfg'_tidy, by decide +kernel, by decide +kernel⟩
  intro o ho
  simp only [List.mem_cons, List.not_mem_nil, or_false] at ho
  rcases ho with rfl | rfl | rfl
  · exact exCfg_tidy
  · trivial
  · trivial

/-- C143.  Where the directory of custom components and that of the standardized ones describe the same
component, the custom description is used; every component of either directory is used, none twice. -/
theorem C143_custom_wins (standardized custom : List (Key × List CVar)) (k : Key) :
    (allConfigs standardized custom).find? (fun e => decide (e.1 = k))
      = ((custom.find? (fun e => decide (e.1 = k))).or (standardized.find? (fun e => decide (e.1 = k)))) ∧
    ((allConfigs standardized custom).map Prod.fst).Nodup := by
  have hfold : ∀ (fs : List (Key × List CVar)) (m : Config), (fs.foldl addFile m).find? (fun e => decide (e.1 = k))
      = (m.find? (fun e => decide (e.1 = k))).or (fs.find? (fun e => decide (e.1 = k))) := by
    intro fs
    induction fs with
    | nil => intro m; simp
    | cons f r ih =>
      intro m
      rw [List.foldl_cons, ih]
      unfold addFile
      by_cases hf : f.1 = k
      · split
        · rename_i ha
          cases hm : m.find? (fun e => decide (e.1 = k)) with
          | some e => simp
          | none =>
            simp only [List.any_eq_true, decide_eq_true_eq] at ha
            obtain ⟨e, he, hk⟩ := ha
            have := List.find?_eq_none.1 hm e he
            simp [hk, hf] at this
        · rw [List.find?_append]
          simp [hf, Option.or_assoc]
      · split
        · simp [hf]
        · rw [List.find?_append]
          simp [hf]
  have hread : ∀ fs : List (Key × List CVar), (readFiles fs).find? (fun e => decide (e.1 = k))
      = fs.find? (fun e => decide (e.1 = k)) := by
    intro fs
    unfold readFiles
    rw [hfold]
    simp
  have hnd : ∀ (fs : List (Key × List CVar)) (m : Config), (m.map Prod.fst).Nodup →
      ((fs.foldl addFile m).map Prod.fst).Nodup := by
    intro fs
    induction fs with
    | nil => intro m h; exact h
    | cons f r ih =>
      intro m h
      rw [List.foldl_cons]
      apply ih
      unfold addFile
      split
      · exact h
      · rename_i ha
        rw [List.map_append, List.nodup_append]
        refine ⟨h, by simp, ?_⟩
        intro x hx y hy e
        simp only [List.map_cons, List.map_nil, List.mem_singleton] at hy
        obtain ⟨e', he', rfl⟩ := List.mem_map.1 hx
        apply ha
        simp only [List.any_eq_true, decide_eq_true_eq]
        exact ⟨e', he', e.trans hy⟩
  refine ⟨?_, ?_⟩
  · unfold allConfigs
    rw [List.find?_append, hread]
    cases hc : custom.find? (fun e => decide (e.1 = k)) with
    | some e => rfl
    | none =>
      simp only [Option.none_or]
      rw [← hread standardized]
      apply find_filter
      intro e _ hek
      simp only [decide_eq_true_eq] at hek
      simp only [Bool.not_eq_true', List.any_eq_false, decide_eq_true_eq]
      intro f hf
      have := hread custom
      rw [hc] at this
      have := List.find?_eq_none.1 this f hf
      simpa [hek] using this
  · unfold allConfigs
    rw [List.map_append, List.nodup_append]
    refine ⟨hnd custom [] (by simp), (hnd standardized [] (by simp)).sublist (List.filter_sublist.map _), ?_⟩
    intro x hx y hy e
    obtain ⟨f, hf, rfl⟩ := List.mem_map.1 hx
    obtain ⟨g, hg, rfl⟩ := List.mem_map.1 hy
    have := (List.mem_filter.1 hg).2
    simp only [Bool.not_eq_true', List.any_eq_false, decide_eq_true_eq] at this
    exact this f hf e

/-- A custom description and a standardized one of the same component. -/
example : allConfigs [(exKey, [exVar]), (exKey2, [exVar])] [(exKey, [exVar2])]
    = [(exKey, [exVar2]), (exKey2, [exVar])] := by decide +kernel

/-- A variable without attributes. -/
def bareVar : CVar := { exVar with attrs := [] }

/-- C143, negation in general.  (1) A variable without attributes is not seen when the database is read: it
stays when it is no longer in the configuration.  (2) and every further start adds it once more.  (3) A list of
values that differs only in case is not updated.  (4) A new source of a variable is not stored if nothing else
has changed.  (5) A monitor whose limit changes by less than 2⁻²³ is not updated. -/
theorem C143_mirrors_violated :
    ((listed (exec [.start [(exKey, [exVar, bareVar])], .start [(exKey, [exVar2])]] emptyDb)).map (·.2.1)
        = [exName, exName2] ∧
      ((listed (exec [.start [(exKey, [exVar2, bareVar])], .start [(exKey, [exVar2, bareVar])],
          .start [(exKey, [exVar2, bareVar])]] emptyDb)).map (·.2.1) = [exName2, exName, exName, exName])) ∧
    (∃ v v' : CVar, TidyVar v ∧ TidyVar v' ∧ v.chars.valuesList ≠ v'.chars.valuesList ∧
      exec [.start [(exKey, [v])], .start [(exKey, [v'])]] emptyDb = exec [.start [(exKey, [v])]] emptyDb) ∧
    (∃ v v' : CVar, TidyVar v ∧ TidyVar v' ∧ v.source ≠ v'.source ∧
      exec [.start [(exKey, [v])], .start [(exKey, [v'])]] emptyDb = exec [.start [(exKey, [v])]] emptyDb) ∧
    (∃ v v' : CVar, TidyVar v ∧ TidyVar v' ∧ v.mons.map Mon.value ≠ v'.mons.map Mon.value ∧
      exec [.start [(exKey, [v])], .start [(exKey, [v'])]] emptyDb = exec [.start [(exKey, [v])]] emptyDb) := by
  refine ⟨⟨by decide +kernel, by decide +kernel⟩, ?_, ?_, ?_⟩
  · refine ⟨{ exVar with chars := ⟨.optionList, none, none, true, none, some "a,b".toList⟩ },
      { exVar with chars := ⟨.optionList, none, none, true, none, some "A,B".toList⟩ },
      ⟨by decide, by decide, by decide, by decide, by decide⟩,
      ⟨by decide, by decide, by decide, by decide, by decide⟩, by decide, by decide +kernel⟩
  · refine ⟨exVar, { exVar with source := some "OCPP".toList }, exVar_tidy,
      ⟨by decide, by decide, by decide, by decide, by decide⟩, by decide, by decide +kernel⟩
  · refine ⟨exVar, { exVar with mons := [{ exMon with value := 100 + 1 / 10000000 }] }, exVar_tidy,
      ⟨by decide, by decide, by decide, by decide, by decide⟩, by decide +kernel, by decide +kernel⟩

/-! ### C144: values of the configuration -/

theorem applyValue_some (c : Str) (a : Attr) : (applyValue (some c) a).value = some c ∨
    ∃ s, (applyValue (some c) a).src = some s ∧ SetByOthers s := by
  simp only [applyValue, setConfigValue]
  split
  · exact .inl rfl
  · rename_i h
    simp only [not_or] at h
    cases hs : a.src with
    | none => exact absurd hs h.2.2
    | some s => exact .inr ⟨s, rfl, fun e => h.1 (by rw [hs, e]; rfl), fun e => h.2.1 (by rw [hs, e])⟩

/-- C144.  After a start, an attribute for which the configuration gives a value has this value (up to case),
unless somebody else has set it: so a new value of an updated configuration takes effect where nobody has
chosen another one. -/
theorem C144_configured_value_partial (cfg : Config) (db db' : DB) (hr : Reachable db) (hc : Tidy cfg)
    (hd : initDb cfg db = .done db') (k : Key) (v : CVar) (hv : HasVar cfg k v) (a : CAttr) (ha : a ∈ v.attrs)
    (t : AttrType) (ht : a.type = some t) (c : Str) (hval : a.value = some c) :
    ∃ a', findAttr db' k v.vkey t = some a' ∧
      (SameText a'.value (some c) ∨ ∃ s, a'.src = some s ∧ SetByOthers s) := by
  obtain ⟨a', hf, hcase⟩ := attr_after hc (okDb_reachable hr) hd hv ha ht
  refine ⟨a', hf, ?_⟩
  have hcv : configValue a v.dflt = some c := by unfold configValue; rw [hval]
  have hst : ∀ {b : Attr}, (b.value = some c ∨ ∃ s, b.src = some s ∧ SetByOthers s) →
      (SameText b.value (some c) ∨ ∃ s, b.src = some s ∧ SetByOthers s) := by
    rintro b (h | h)
    · left; rw [h]; simp [SameText]
    · exact .inr h
  rcases hcase with ⟨-, x, rfl⟩ | ⟨b, hb, rfl⟩
  · simp only [insertAttr, hcv]
    exact hst (applyValue_some c _)
  · split
    · unfold updateAttr
      rw [hcv]
      exact hst (applyValue_some c _)
    · rename_i hn
      have := (attrSame (a := a) (b := b.read) (by simpa using hn)).2.2
      rw [hval, optCiEq_symm] at this
      exact .inl (sameText_of this)

/-- C144.  The default value of a variable is the actual value after a start, unless somebody else has set it,
provided the attribute is new or had a value before.  Partial: see `C144_default_value_violated`. -/
theorem C144_default_value_partial (cfg : Config) (db db' : DB) (hr : Reachable db) (hc : Tidy cfg)
    (hd : initDb cfg db = .done db') (k : Key) (v : CVar) (hv : HasVar cfg k v) (a : CAttr) (ha : a ∈ v.attrs)
    (ht : a.type = some .actual) (c : Str) (hval : a.value = none) (hdf : v.dflt = some c)
    (hold : ∀ b, findAttr db k v.vkey .actual = some b → b.value ≠ none) :
    ∃ a', findAttr db' k v.vkey .actual = some a' ∧
      (a'.value = some c ∨ ∃ s, a'.src = some s ∧ SetByOthers s) := by
  obtain ⟨a', hf, hcase⟩ := attr_after hc (okDb_reachable hr) hd hv ha ht
  refine ⟨a', hf, ?_⟩
  have hcv : configValue a v.dflt = some c := by unfold configValue; rw [hval]; simp [ht, hdf]
  rcases hcase with ⟨-, x, rfl⟩ | ⟨b, hb, rfl⟩
  · simp only [insertAttr, hcv]
    exact applyValue_some c _
  · split
    · unfold updateAttr
      rw [hcv]
      exact applyValue_some c _
    · rename_i hn
      have := (attrSame (a := a) (b := b.read) (by simpa using hn)).2.2
      rw [hval] at this
      cases hbv : b.value with
      | none => exact absurd hbv (hold b hb)
      | some z => simp [Attr.read, hbv, optCiEq] at this

/-- A start that changes a configured value and one with a default value. -/
example : ∃ db db', Reachable db ∧ initDb exCfg' db = .done db' ∧
    (findAttr db exKey exName .actual).map Attr.value = some (some "300".toList) ∧
    (findAttr db' exKey exName .actual).map Attr.value = some (some "600".toList) ∧
    (findAttr db' exKey exName2 .actual).map Attr.value = some (some "3".toList) := by
  refine ⟨exec [.start exCfg] emptyDb, (initDb exCfg' (exec [.start exCfg] emptyDb)).db, ⟨_, ?_, rfl⟩,
    by decide +kernel, by decide +kernel, by decide +kernel, by decide +kernel⟩
  intro o ho
  simp only [List.mem_cons, List.not_mem_nil, or_false] at ho
  subst ho
  exact exCfg_tidy

/-- C144, negation in general.  (1) A default value that is added to the configuration of a variable without a
value is never applied.  (2) A value that is taken out of the configuration stays, though nobody has chosen
it.  (3) A value of the configuration that changes in case only (here of a case sensitive text) is not
applied. -/
theorem C144_default_value_violated :
    (findAttr (exec [.start [(exKey, [{ exVar2 with dflt := none }])], .start [(exKey, [exVar2])]] emptyDb)
      exKey exName2 .actual).map Attr.value = some none ∧
    (findAttr (exec [.start [(exKey, [exVar2])], .start [(exKey, [{ exVar2 with dflt := none }])]] emptyDb)
      exKey exName2 .actual).map (fun a => (a.value, a.src)) = some (some "3".toList, some "default".toList) ∧
    (findAttr (exec [
        .start [(exKey, [{ exVar with
          chars := ⟨.string, none, none, true, none, none⟩
          attrs := [⟨some .actual, none, some "secret".toList, none, none⟩] }])],
        .start [(exKey, [{ exVar with
          chars := ⟨.string, none, none, true, none, none⟩
          attrs := [⟨some .actual, none, some "Secret".toList, none, none⟩] }])]] emptyDb)
      exKey exName .actual).map Attr.value = some (some "secret".toList) := by
  refine ⟨by decide +kernel, by decide +kernel, by decide +kernel⟩

/-! ### C145: starts that fail -/

theorem ofType_iff (s : Str) (t : DataType) : valueIsOfType s t = true ↔ OfType t s := by
  cases t <;> simp [valueIsOfType, OfType, isBoolean, ciEq, or_assoc, List.isEmpty_iff]

theorem integrity_iff (cfg : Config) : integrity cfg = true ↔
    ∀ k v s, HasVar cfg k v → HasValue v s → OfType v.chars.dataType s := by
  unfold integrity
  simp only [List.all_eq_true]
  constructor
  · rintro h k v s ⟨vs, hvs, hv⟩ hs
    have := h _ hvs v hv
    simp only [integrityVar, Bool.and_eq_true, List.all_eq_true] at this
    rcases hs with hs | ⟨a, ha, hs⟩
    · have h1 := this.1
      rw [hs] at h1
      exact (ofType_iff _ _).1 h1
    · have h1 := this.2 a ha
      rw [hs] at h1
      exact (ofType_iff _ _).1 h1
  · intro h e he v hv
    simp only [integrityVar, Bool.and_eq_true, List.all_eq_true]
    constructor
    · split
      · rfl
      · rename_i d hd
        exact (ofType_iff _ _).2 (h e.1 v d ⟨e.2, he, hv⟩ (.inl hd))
    · intro a ha
      split
      · rfl
      · rename_i d hd
        exact (ofType_iff _ _).2 (h e.1 v d ⟨e.2, he, hv⟩ (.inr ⟨a, ha, hd⟩))

/-- C145.  A configuration with a value that does not have the type of its variable is refused, and the database
is exactly what it was. -/
theorem C145_bad_value_refused (cfg : Config) (db : DB) (k : Key) (v : CVar) (s : Str) (hv : HasVar cfg k v)
    (hs : HasValue v s) (hbad : ¬ OfType v.chars.dataType s) : initDb cfg db = .thrown db := by
  have : integrity cfg = false := by
    cases h : integrity cfg with
    | false => rfl
    | true => exact absurd ((integrity_iff cfg).1 h k v s hv hs) hbad
  unfold initDb
  rw [if_pos this]

/-- Such a configuration. -/
example : HasVar [(exKey, [{ exVar with dflt := some "ten".toList }])] exKey { exVar with dflt := some "ten".toList } ∧
    HasValue { exVar with dflt := some "ten".toList } "ten".toList ∧
    ¬ OfType exVar.chars.dataType "ten".toList :=
  ⟨⟨_, List.mem_cons_self .., List.mem_cons_self ..⟩, .inl rfl, by
    intro h
    exact absurd ((ofType_iff _ _).2 h) (by decide)⟩

/-- C145.  A configuration whose values have their types and whose delta monitors have reference values is
accepted, whatever the database contains. -/
theorem C145_good_configuration_accepted (cfg : Config) (db : DB)
    (hval : ∀ k v s, HasVar cfg k v → HasValue v s → OfType v.chars.dataType s)
    (hdelta : DeltasHaveReference cfg) : ∃ db', initDb cfg db = .done db' := by
  have hi := (integrity_iff cfg).2 hval
  have hq := init_quiet (cfg := cfg)
    (fun e he v hv m hm hty => hdelta e.1 v m ⟨e.2, he, hv⟩ hm hty)
    (readAll db.comps) (removeComps cfg db.comps) db.next
  unfold initDb
  rw [hi, hq]
  exact ⟨_, rfl⟩

/-- C145.  A start that ends with an exception leaves the database as it was, if the configuration has all
components of the database.  Partial: see `C145_failure_violated`. -/
theorem C145_failure_unchanged_partial (cfg : Config) (db db' : DB) (hr : Reachable db)
    (hd : initDb cfg db = .thrown db') (hall : ∀ c ∈ db.comps, ∃ vs, (c.key, vs) ∈ cfg) : db' = db := by
  unfold initDb at hd
  split at hd
  · injection hd with hd; exact hd.symm
  · split at hd
    · injection hd with hd
      rw [← hd]
      unfold DB.removed
      rw [removeComps_eq (okDb_reachable hr), List.filter_eq_self.2]
      intro c hc
      obtain ⟨vs, hvs⟩ := hall c hc
      simp only [List.any_eq_true, decide_eq_true_eq]
      exact ⟨_, hvs, rfl⟩
    · cases hd

/-- A delta monitor without reference value. -/
def deltaVar : CVar := { exVar with mons := [⟨5, false, .delta, 10, .preconfigured, none⟩] }

/-- A start that fails although the values are right. -/
example : ∃ db db', Reachable db ∧ initDb [(exKey, [deltaVar]), (exKey2, [exVar])] db = .thrown db' ∧
    (∀ c ∈ db.comps, ∃ vs, (c.key, vs) ∈ [(exKey, [deltaVar]), (exKey2, [exVar])]) ∧ db.comps ≠ [] := by
  refine ⟨exec [.start exCfg] emptyDb,
    (initDb [(exKey, [deltaVar]), (exKey2, [exVar])] (exec [.start exCfg] emptyDb)).db, ⟨_, ?_, rfl⟩,
    by decide +kernel, ?_, by decide +kernel⟩
  · intro o ho
    simp only [List.mem_cons, List.not_mem_nil, or_false] at ho
    subst ho
    exact exCfg_tidy
  · have : ∀ c ∈ (exec [.start exCfg] emptyDb).comps, c.key = exKey ∨ c.key = exKey2 := by decide +kernel
    intro c hc
    rcases this c hc with e | e
    · exact ⟨[deltaVar], by rw [e]; simp⟩
    · exact ⟨[exVar], by rw [e]; simp⟩

/-- C145, negation in general.  The components that are not in the new configuration are removed before the
transaction begins: when a delta monitor without reference value then raises an exception, the transaction is
undone, but the components, with the values the CSMS has set there, are gone. -/
theorem C145_failure_violated : ∃ (cfg : Config) (db db' : DB), Reachable db ∧ Tidy cfg ∧
    initDb cfg db = .thrown db' ∧
    (findAttr db exKey2 exName2 .actual).map Attr.src = some (some "csms".toList) ∧
    findAttr db' exKey2 exName2 .actual = none := by
  refine ⟨[(exKey, [deltaVar])],
    exec [.start exCfg, .set exKey2 exName2 .actual "60".toList "csms".toList] emptyDb,
    (initDb [(exKey, [deltaVar])]
      (exec [.start exCfg, .set exKey2 exName2 .actual "60".toList "csms".toList] emptyDb)).db,
    ⟨_, ?_, rfl⟩, ?_, by decide +kernel, by decide +kernel, by decide +kernel⟩
  · intro o ho
    simp only [List.mem_cons, List.not_mem_nil, or_false] at ho
    rcases ho with rfl | rfl
    · exact exCfg_tidy
    · trivial
  · refine ⟨by decide, ?_⟩
    intro e he
    simp only [List.mem_cons, List.not_mem_nil, or_false] at he
    subst he
    refine ⟨by decide, by decide, by decide, ?_⟩
    intro v hv
    simp only [List.mem_cons, List.not_mem_nil, or_false] at hv
    subst hv
    exact ⟨by decide, by decide, by decide, by decide, by decide⟩

/-! ### C146: interrupted starts -/

/-- C146.  However often a start is interrupted, and at whatever points, the next start with the same
configuration ends as the first one would have ended, with the same database.  Partial: unless the
interruption has left a file without a schema. -/
theorem C146_interrupted_partial (cfg : Config) (f f' : File) (hf : f = .absent ∨ ∃ db, f = .ready db ∧ Reachable db)
    (hi : Interrupted cfg f f') (hs : f' ≠ .noSchema) : startUp cfg f' = startUp cfg f := by
  have main : ∀ {f'}, Interrupted cfg f f' → f' = .noSchema ∨
      ((f' = .absent ∨ ∃ db, f' = .ready db ∧ OkDb db) ∧ startUp cfg f' = startUp cfg f) := by
    intro f' hi
    induction hi with
    | none =>
      refine .inr ⟨?_, rfl⟩
      rcases hf with h | ⟨db, h, hr⟩
      · exact .inl h
      · exact .inr ⟨db, h, okDb_reachable hr⟩
    | crash gone _ hm ih =>
      rename_i g g'
      rcases ih with rfl | ⟨rfl | ⟨db, rfl, hok⟩, he⟩
      · simp only [crashed, List.mem_singleton] at hm
        exact .inl hm
      · simp only [crashed, List.mem_cons, List.not_mem_nil, or_false] at hm
        rcases hm with rfl | rfl | rfl
        · exact .inr ⟨.inl rfl, he⟩
        · exact .inl rfl
        · exact .inr ⟨.inr ⟨_, rfl, okDb_empty⟩, he⟩
      · simp only [crashed] at hm
        split at hm
        · rename_i hint
          simp only [List.mem_cons, List.not_mem_nil, or_false] at hm
          rcases hm with rfl | rfl
          · exact .inr ⟨.inr ⟨_, rfl, hok⟩, he⟩
          · refine .inr ⟨.inr ⟨_, rfl, hok.filter _⟩, ?_⟩
            rw [← he]
            simp only [startUp]
            rw [init_partly hok gone hint]
        · simp only [List.mem_singleton] at hm
          subst hm
          exact .inr ⟨.inr ⟨_, rfl, hok⟩, he⟩
  rcases main hi with h | h
  · exact absurd h hs
  · exact h.2

/-- A start that is interrupted after a removal. -/
example : ∃ db f', Reachable db ∧ Interrupted exCfg' (.ready db) f' ∧ f' ≠ .noSchema ∧ f' ≠ .ready db ∧
    startUp exCfg' f' ≠ .exception f' := by
  refine ⟨exec [.start exCfg] emptyDb, _, ⟨_, ?_, rfl⟩,
    .crash (fun _ => true) (.none _) (f'' := .ready ((exec [.start exCfg] emptyDb).partlyRemoved exCfg' fun _ => true))
      (by decide +kernel), by decide +kernel, by decide +kernel, by decide +kernel⟩
  intro o ho
  simp only [List.mem_cons, List.not_mem_nil, or_false] at ho
  subst ho
  exact exCfg_tidy

/-- C146, negation in general.  An interruption of the very first start between the creation of the file and
the commit of the schema: every later start, with whatever configuration, ends with an exception. -/
theorem C146_interrupted_violated (cfg : Config) : Interrupted cfg .absent .noSchema ∧
    ∀ cfg' f', Interrupted cfg' .noSchema f' → startUp cfg' f' = .exception .noSchema := by
  refine ⟨.crash (fun _ => true) (.none _) (by simp [crashed]), ?_⟩
  intro cfg' f' hi
  have : f' = .noSchema := by
    induction hi with
    | none => rfl
    | crash gone _ hm ih =>
      rw [ih] at hm
      simpa [crashed] using hm
  rw [this]
  rfl

/-! ### C147: the same configuration again -/

/-- C147.  A start with the configuration of the start before, with nothing done between, changes nothing: no
row, no value, no id.  So does every further one.  Partial: configurations in order that do not ask for
constant or not persistent attributes. -/
theorem C147_idempotent_partial (cfg : Config) (db db' : DB) (hr : Reachable db) (hc : Tidy cfg) (hf : NoFlags cfg)
    (hd : initDb cfg db = .done db') (n : Nat) : exec (List.replicate n (.start cfg)) db' = db' := by
  have h1 := init_fixed hc (okDb_reachable hr)
    (fun e he v hv a ha => hf e.1 v a ⟨e.2, he, hv⟩ ha) hd
  induction n with
  | zero => rfl
  | succ n ih =>
    rw [List.replicate_succ]
    show exec (List.replicate n (.start cfg)) ((initDb cfg db').db) = db'
    rw [h1]
    exact ih

/-- The hypotheses are met by a start on a database in use. -/
example : ∃ db db', Reachable db ∧ NoFlags exCfg' ∧ initDb exCfg' db = .done db' ∧ db'.comps ≠ [] := by
  refine ⟨exec [.start exCfg, .set exKey exName .actual "60".toList "csms".toList] emptyDb,
    (initDb exCfg' (exec [.start exCfg, .set exKey exName .actual "60".toList "csms".toList] emptyDb)).db,
    ⟨_, ?_, rfl⟩, ?_, by decide +kernel, by decide +kernel⟩
  · intro o ho
    simp only [List.mem_cons, List.not_mem_nil, or_false] at ho
    rcases ho with rfl | rfl
    · exact exCfg_tidy
    · trivial
  · have : ∀ e ∈ exCfg', ∀ v ∈ e.2, ∀ a ∈ v.attrs, a.persistent ≠ some false ∧ a.constant ≠ some true := by
      decide +kernel
    rintro k v a ⟨vs, hvs, hv⟩ ha
    exact this _ hvs v hv a ha

/-- A database of which nothing is read grows by one component. -/
theorem unread_grows {l : List Comp} {n : Nat} (h : ∀ c ∈ l, c.visible = false) :
    ∃ c m, c.visible = false ∧ c.vars.length = 1 ∧
      (initDb [(exKey, [bareVar])] ⟨l, n⟩).db = ⟨l ++ [c], m⟩ := by
  have hr : readAll l = [] := by
    unfold readAll
    rw [List.filter_eq_nil_iff.2 (fun c hc => by simp [h c hc])]
    rfl
  have hi : integrity [(exKey, [bareVar])] = true := by decide
  unfold initDb
  simp only [hi, hr, removeComps, Sync.delete, List.foldl_nil, insertComponents, Sync.apply, List.find?_nil]
  exact ⟨_, _, rfl, rfl, rfl⟩

/-- C147, negation in general.  (1) A component without a variable that has attributes is inserted again at every
start: the device model grows without bound.  (2) An attribute that the configuration declares not to be
persistent is stored as persistent at the first start and as not persistent at the second. -/
theorem C147_idempotent_violated :
    (∀ n, (listed (exec (List.replicate n (.start [(exKey, [bareVar])])) emptyDb)).length = n) ∧
    (∃ v : CVar, TidyVar v ∧
      (findAttr (exec [.start [(exKey, [v])]] emptyDb) exKey exName2 .actual).map Attr.persistent
        = some (some true) ∧
      (findAttr (exec [.start [(exKey, [v])], .start [(exKey, [v])]] emptyDb) exKey exName2 .actual).map
        Attr.persistent = some (some false)) := by
  refine ⟨?_, ?_⟩
  · have : ∀ (n : Nat) (l : List Comp) (i : Nat), (∀ c ∈ l, c.visible = false) →
        (listed (exec (List.replicate n (.start [(exKey, [bareVar])])) ⟨l, i⟩)).length
          = (listed ⟨l, i⟩).length + n := by
      intro n
      induction n with
      | zero => intro l i _; rfl
      | succ n ih =>
        intro l i hl
        obtain ⟨c, m, hc, hlen, e⟩ := unread_grows (n := i) hl
        rw [List.replicate_succ]
        show (listed (exec _ (initDb [(exKey, [bareVar])] ⟨l, i⟩).db)).length = _
        rw [e, ih (l ++ [c]) m]
        · simp [listed, hlen]
          omega
        · intro c' hc'
          rcases List.mem_append.1 hc' with h | h
          · exact hl c' h
          · rw [List.mem_singleton.1 h]; exact hc
    intro n
    have := this n [] 0 (by simp)
    simpa [listed, emptyDb] using this
  · exact ⟨{ exVar2 with attrs := [⟨some .actual, none, none, some false, none⟩] },
      ⟨by decide, by decide, by decide, by decide, by decide⟩, by decide +kernel, by decide +kernel⟩

end Verif.InitDb
