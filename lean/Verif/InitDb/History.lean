import Verif.InitDb.Descent
/-
What the operations do to a variable, an attribute and a monitor.
-/
set_option linter.constructorNameAsVariable false

namespace Verif.InitDb

open Verif.DM (Str DataType AttrType ciEq)

theorem exec_append (a b : List Op) (db : DB) : exec (a ++ b) db = exec b (exec a db) := by
  simp [exec, List.foldl_append]

/-! ### Looking up after a change -/

theorem find_modifyFirst {A B : Type} [DecidableEq B] {key : A → B} {f : A → A} (hf : ∀ a, key (f a) = key a)
    (k k' : B) : ∀ l : List A, (modifyFirst (fun a => decide (key a = k)) f l).find? (fun a => decide (key a = k'))
      = if k' = k then (l.find? (fun a => decide (key a = k'))).map f else l.find? (fun a => decide (key a = k'))
  | [] => by simp [modifyFirst]
  | a :: r => by
    have ih := find_modifyFirst hf k k' r
    by_cases hk : k' = k
    · subst hk
      rw [if_pos rfl] at ih ⊢
      by_cases ha : key a = k'
      · simp [modifyFirst, ha, hf]
      · simp [modifyFirst, ha]
        simpa using ih
    · rw [if_neg hk] at ih ⊢
      by_cases ha : key a = k
      · have hne : ¬ key a = k' := fun e => hk (e ▸ ha)
        simp [modifyFirst, ha, hf, hne, Ne.symm hk]
      · simp only [modifyFirst, ha, decide_false, Bool.false_eq_true, if_false, List.find?_cons]
        rw [ih]

theorem findVar_onVar {db : DB} {k : Key} {v : VKey} {f : Var → Var} (hf : ∀ w, (f w).vkey = w.vkey)
    (b : Nat) (k' : Key) (v' : VKey) : findVar ⟨onVar k v f db.comps, b⟩ k' v'
      = if k' = k ∧ v' = v then (findVar db k' v').map f else findVar db k' v' := by
  unfold findVar onVar
  dsimp only
  rw [find_modifyFirst (key := Comp.key)
    (f := fun c => { c with vars := modifyFirst (fun w => decide (w.vkey = v)) f c.vars }) (fun _ => rfl)]
  by_cases hk : k' = k
  · rw [if_pos hk]
    cases db.comps.find? (fun c => decide (c.key = k')) with
    | none => simp
    | some c =>
      dsimp only [Option.map_some]
      rw [find_modifyFirst hf]
      simp [hk]
  · rw [if_neg hk, if_neg (fun h => hk h.1)]

theorem findVar_onMons (g : List DMon → List DMon) (db : DB) (k : Key) (v : VKey) :
    findVar (onMons g db) k v = (findVar db k v).map (fun w => { w with mons := g w.mons }) := by
  unfold findVar onMons
  dsimp only
  rw [List.find?_map]
  have : ((fun c : Comp => decide (c.key = k)) ∘ fun c : Comp =>
      { c with vars := c.vars.map (fun w => { w with mons := g w.mons }) }) = fun c => decide (c.key = k) := rfl
  rw [this]
  cases db.comps.find? (fun c => decide (c.key = k)) with
  | none => rfl
  | some c =>
    dsimp only [Option.map_some]
    rw [List.find?_map]
    rfl

theorem findVar_filter {db : DB} {k : Key} {n : VKey} {p : Comp → Bool} (hp : ∀ c ∈ db.comps, c.key = k → p c = true) :
    findVar { db with comps := db.comps.filter p } k n = findVar db k n := by
  unfold findVar
  dsimp only
  have : ∀ l : List Comp, (∀ c ∈ l, c.key = k → p c = true) →
      (l.filter p).find? (fun c => decide (c.key = k)) = l.find? (fun c => decide (c.key = k)) := by
    intro l
    induction l with
    | nil => intro _; rfl
    | cons c r ih =>
      intro h
      have ih := ih (fun c' h' => h c' (by simp [h']))
      by_cases hc : c.key = k
      · have := h c (by simp) hc
        simp [this, hc]
      · cases hpc : p c with
        | true => simp only [List.filter_cons, hpc, if_true, List.find?_cons, hc, decide_false]; exact ih
        | false => simp only [List.filter_cons, hpc, Bool.false_eq_true, if_false, List.find?_cons, hc, decide_false]
                   exact ih
  rw [this db.comps hp]

/-- A start that ends with an exception does not touch the variables of the components of its
configuration. -/
theorem findVar_thrown {cfg : Config} {db db' : DB} (h : OkDb db) (hd : initDb cfg db = .thrown db') {k : Key}
    {vs : List CVar} (hk : (k, vs) ∈ cfg) (n : VKey) : findVar db' k n = findVar db k n := by
  unfold initDb at hd
  split at hd
  · injection hd with hd; rw [hd]
  · split at hd
    · injection hd with hd
      rw [← hd]
      unfold DB.removed
      rw [removeComps_eq h]
      apply findVar_filter
      intro c _ hc
      simp only [List.any_eq_true, decide_eq_true_eq]
      exact ⟨_, hk, hc.symm⟩
    · cases hd

theorem findVar_partly {cfg : Config} {db : DB} {gone : Comp → Bool} {k : Key} {vs : List CVar}
    (hk : (k, vs) ∈ cfg) (n : VKey) : findVar (db.partlyRemoved cfg gone) k n = findVar db k n := by
  apply findVar_filter
  intro c _ hc
  have : cfg.any (fun e => decide (e.1 = c.key)) = true := by
    simp only [List.any_eq_true, decide_eq_true_eq]
    exact ⟨_, hk, hc.symm⟩
  simp [this]

/-! ### Attributes -/

/-- Nothing but value and source of the attribute. -/
def Holds (db : DB) (k : Key) (n : VKey) (t : AttrType) (value src : Str) : Prop :=
  ∃ a, findAttr db k n t = some a ∧ a.value = some value ∧ a.src = some src

theorem holds_congr {db db' : DB} {k : Key} {n : VKey} {t : AttrType} {value src : Str}
    (h : Holds db k n t value src) (he : findVar db' k n = findVar db k n) : Holds db' k n t value src := by
  unfold Holds findAttr at *
  rw [he]; exact h

theorem holds_mons {db db' : DB} {k : Key} {n : VKey} {t : AttrType} {value src : Str}
    (h : Holds db k n t value src) {g : Var → List DMon}
    (he : findVar db' k n = (findVar db k n).map (fun w => { w with mons := g w })) :
    Holds db' k n t value src := by
  obtain ⟨a, ha, hv, hs⟩ := h
  refine ⟨a, ?_, hv, hs⟩
  unfold findAttr at ha ⊢
  rw [he]
  split at ha
  · cases ha
  · rename_i w hw
    rw [hw]; exact ha

theorem updateAttr_others {dflt : Option Str} {a : CAttr} {b : Attr} {s : Str} (hs : b.src = some s)
    (ho : SetByOthers s) : (updateAttr dflt a b b).value = b.value ∧ (updateAttr dflt a b b).src = b.src := by
  unfold updateAttr applyValue
  split
  · exact ⟨rfl, rfl⟩
  · unfold setConfigValue
    dsimp only
    rw [if_neg]
    · exact ⟨rfl, rfl⟩
    · rw [hs]
      rintro (h | h | h)
      · exact ho.1 (by injection h)
      · exact ho.2 (by injection h)
      · cases h

/-- The row of an attribute of the configuration after a start. -/
theorem attr_after {cfg : Config} {db db' : DB} (hc : Tidy cfg) (h : OkDb db) (hd : initDb cfg db = .done db')
    {k : Key} {v : CVar} (hv : HasVar cfg k v) {a : CAttr} (ha : a ∈ v.attrs) {t : AttrType}
    (ht : a.type = some t) : ∃ a', findAttr db' k v.vkey t = some a' ∧
      ((findAttr db k v.vkey t = none ∧ ∃ x, a' = (insertAttr v.dflt a x).1)
        ∨ ∃ b, findAttr db k v.vkey t = some b ∧
          a' = if attrDiffers a b.read then updateAttr v.dflt a b b else b) := by
  have hok : OkDb db' := by
    obtain ⟨-, t, hi⟩ := initDb_done hc h hd
    exact hi.okDb
  obtain ⟨w', hf, hcase⟩ := rel_after hc h hd hv
  rcases hcase with ⟨hn, hr⟩ | ⟨w, hw, hr⟩
  · obtain ⟨a', ha', he, hm⟩ := hr.attrs.entry a ha
    refine ⟨a', (findAttr_some hok).2 ⟨w', hf, ha', he.trans ht⟩, .inl ⟨?_, ?_⟩⟩
    · unfold findAttr; rw [hn]
    · rcases hm with ⟨-, hx⟩ | ⟨b, hb, -⟩
      · exact hx
      · cases hb
  · obtain ⟨a', ha', he, hm⟩ := hr.attrs.entry a ha
    refine ⟨a', (findAttr_some hok).2 ⟨w', hf, ha', he.trans ht⟩, ?_⟩
    rcases hm with ⟨hno, hx⟩ | ⟨b, hb, hbt, e⟩
    · refine .inl ⟨?_, hx⟩
      cases hfa : findAttr db k v.vkey t with
      | none => rfl
      | some b =>
        obtain ⟨w₁, hw₁, hb, hbt⟩ := (findAttr_some h).1 hfa
        rw [hw] at hw₁
        injection hw₁ with hw₁
        subst hw₁
        exact absurd (hbt.trans ht.symm) (hno b hb)
    · exact .inr ⟨b, (findAttr_some h).2 ⟨w, hw, hb, hbt.trans ht⟩, e⟩

theorem holds_step {db : DB} (h : OkDb db) {k : Key} {n : VKey} {t : AttrType} {value src : Str}
    (ho : SetByOthers src) {o : Op} (ht : o.Tidy) (hk : o.KeepsAttr k n t) (hh : Holds db k n t value src) :
    Holds (o.exec db) k n t value src := by
  cases o with
  | start cfg =>
    obtain ⟨v, a, hv, rfl, ha, hat⟩ := hk
    cases hd : initDb cfg db with
    | done db' =>
      simp only [Op.exec, hd, Result.db]
      obtain ⟨a', hf, hcase⟩ := attr_after ht h hd hv ha hat
      obtain ⟨b, hb, hbv, hbs⟩ := hh
      rcases hcase with ⟨hn, -⟩ | ⟨b', hb', e⟩
      · rw [hn] at hb; cases hb
      · rw [hb] at hb'
        injection hb' with hb'
        subst hb'
        refine ⟨a', hf, ?_⟩
        rw [e]
        split
        · have := updateAttr_others (dflt := v.dflt) (a := a) hbs ho
          rw [this.1, this.2]; exact ⟨hbv, hbs⟩
        · exact ⟨hbv, hbs⟩
    | thrown db' =>
      simp only [Op.exec, hd, Result.db]
      obtain ⟨vs, hvs, -⟩ := hv
      exact holds_congr hh (findVar_thrown h hd hvs _)
  | interrupted cfg gone =>
    obtain ⟨v, a, ⟨vs, hvs, -⟩, -⟩ := hk
    exact holds_congr hh (findVar_partly hvs _)
  | set k' n' t' value' src' =>
    simp only [Op.exec, setValue]
    have := findVar_onVar (db := db) (k := k') (v := n')
      (f := fun w => { w with attrs := w.attrs.map (writeValue t' value' src') }) (fun _ => rfl) db.next k n
    obtain ⟨b, hb, hbv, hbs⟩ := hh
    refine ⟨b, ?_, hbv, hbs⟩
    unfold findAttr at hb ⊢
    rw [this]
    split at hb
    · cases hb
    · rename_i w hw
      rw [hw]
      by_cases hkn : k = k' ∧ n = n'
      · rw [if_pos hkn]
        have htt : t' ≠ t := fun e => hk ⟨hkn.1.symm, hkn.2.symm, e⟩
        dsimp only [Option.map_some]
        rw [List.find?_map]
        have e : ((fun a : Attr => decide (a.type = some t)) ∘ writeValue t' value' src')
            = fun a => decide (a.type = some t) := by
          funext a
          simp [writeValue_type]
        rw [e, hb]
        have : b.type ≠ some t' := by
          have := (find_key (f := Attr.type) hb).2
          rw [this]; intro e; injection e with e; exact htt e.symm
        simp [writeValue, this]
      · rw [if_neg hkn]; exact hb
  | addMonitor k' n' m =>
    simp only [Op.exec, addMonitor]
    split
    · have := findVar_onVar (db := db) (k := k') (v := n')
        (f := fun w => { w with mons := w.mons ++ [⟨db.next, { m with cfg := .custom }⟩] }) (fun _ => rfl)
        (db.next + 1) k n
      split at this
      · exact holds_mons hh (g := fun w => w.mons ++ [⟨db.next, { m with cfg := .custom }⟩]) this
      · exact holds_congr hh this
    · exact hh
  | clearMonitor i p =>
    exact holds_mons hh (g := fun w => w.mons.filter _) (findVar_onMons _ db k n)
  | reference i r =>
    exact holds_mons hh (g := fun w => w.mons.map _) (findVar_onMons _ db k n)

theorem holds_execs {k : Key} {n : VKey} {t : AttrType} {value src : Str} (ho : SetByOthers src) :
    ∀ {ops : List Op} {db : DB}, OkDb db → (∀ o ∈ ops, o.Tidy) → (∀ o ∈ ops, o.KeepsAttr k n t) →
      Holds db k n t value src → Holds (exec ops db) k n t value src
  | [], _, _, _, _, h => h
  | o :: r, db, hok, ht, hk, h =>
    holds_execs (ops := r) ho (okDb_exec (ht o (by simp)) hok) (fun o' h' => ht o' (by simp [h']))
      (fun o' h' => hk o' (by simp [h'])) (holds_step hok ho (ht o (by simp)) (hk o (by simp)) h)

theorem holds_set {db : DB} {k : Key} {n : VKey} {t : AttrType} (value src : Str)
    (hf : findAttr db k n t ≠ none) : Holds (setValue k n t value src db) k n t value src := by
  have := findVar_onVar (db := db) (k := k) (v := n)
    (f := fun w => { w with attrs := w.attrs.map (writeValue t value src) }) (fun _ => rfl) db.next k n
  rw [if_pos ⟨rfl, rfl⟩] at this
  unfold Holds setValue findAttr
  rw [this]
  unfold findAttr at hf
  split at hf
  · exact absurd rfl hf
  · rename_i w hw
    rw [hw]
    dsimp only [Option.map_some]
    rw [List.find?_map]
    have e : ((fun a : Attr => decide (a.type = some t)) ∘ writeValue t value src)
        = fun a => decide (a.type = some t) := by
      funext a
      simp [writeValue_type]
    rw [e]
    cases hb : w.attrs.find? (fun a => decide (a.type = some t)) with
    | none => exact absurd hb hf
    | some b =>
      have := (find_key (f := Attr.type) hb).2
      exact ⟨_, rfl, by simp [writeValue, this], by simp [writeValue, this]⟩

/-! ### Custom monitors -/

theorem mem_monitors {db : DB} {k : Key} {n : VKey} {d : DMon} :
    d ∈ monitors db k n ↔ ∃ w, findVar db k n = some w ∧ d ∈ w.mons := by
  unfold monitors
  split
  · rename_i h; rw [h]; simp
  · rename_i w h; rw [h]; simp

theorem mon_step {db : DB} (h : OkDb db) {k : Key} {n : VKey} {d : DMon} (hc : d.mon.cfg = .custom) {o : Op}
    (ht : o.Tidy) (hk : o.KeepsMonitor k n d.id) (hd : d ∈ monitors db k n) : d ∈ monitors (o.exec db) k n := by
  obtain ⟨w, hw, hdw⟩ := mem_monitors.1 hd
  cases o with
  | start cfg =>
    obtain ⟨v, hv, rfl⟩ := hk
    cases hr : initDb cfg db with
    | done db' =>
      simp only [Op.exec, hr, Result.db]
      obtain ⟨w', hf, hcase⟩ := rel_after ht h hr hv
      rcases hcase with ⟨hn, -⟩ | ⟨w₁, hw₁, hrel⟩
      · rw [hn] at hw; cases hw
      · rw [hw] at hw₁
        injection hw₁ with hw₁
        subst hw₁
        exact mem_monitors.2 ⟨w', hf, (hrel.mons.custom d hc).2 hdw⟩
    | thrown db' =>
      simp only [Op.exec, hr, Result.db]
      obtain ⟨vs, hvs, -⟩ := hv
      exact mem_monitors.2 ⟨w, by rw [findVar_thrown h hr hvs]; exact hw, hdw⟩
  | interrupted cfg gone =>
    obtain ⟨v, ⟨vs, hvs, -⟩, -⟩ := hk
    exact mem_monitors.2 ⟨w, (findVar_partly hvs _).trans hw, hdw⟩
  | set k' n' t' value' src' =>
    have := findVar_onVar (db := db) (k := k') (v := n')
      (f := fun w => { w with attrs := w.attrs.map (writeValue t' value' src') }) (fun _ => rfl) db.next k n
    rw [hw] at this
    refine mem_monitors.2 ?_
    split at this
    · exact ⟨_, this, hdw⟩
    · exact ⟨w, this, hdw⟩
  | addMonitor k' n' m =>
    simp only [Op.exec, addMonitor]
    split
    · have := findVar_onVar (db := db) (k := k') (v := n')
        (f := fun w => { w with mons := w.mons ++ [⟨db.next, { m with cfg := .custom }⟩] }) (fun _ => rfl)
        (db.next + 1) k n
      rw [hw] at this
      refine mem_monitors.2 ?_
      split at this
      · exact ⟨_, this, by simp [hdw]⟩
      · exact ⟨w, this, hdw⟩
    · exact hd
  | clearMonitor i p =>
    have hne : i ≠ d.id := hk
    have := findVar_onMons (fun l => l.filter (fun m => !(decide (m.id = i) && (p || decide (m.mon.cfg = .custom)))))
      db k n
    rw [hw] at this
    refine mem_monitors.2 ⟨_, this, ?_⟩
    simp [List.mem_filter, hdw, hne.symm]
  | reference i r =>
    have hne : i ≠ d.id := hk
    have := findVar_onMons (fun l => l.map (fun m => if m.id = i then { m with mon := { m.mon with ref := some r } }
      else m)) db k n
    rw [hw] at this
    refine mem_monitors.2 ⟨_, this, ?_⟩
    exact List.mem_map.2 ⟨d, hdw, if_neg hne.symm⟩

theorem mon_execs {k : Key} {n : VKey} {d : DMon} (hc : d.mon.cfg = .custom) :
    ∀ {ops : List Op} {db : DB}, OkDb db → (∀ o ∈ ops, o.Tidy) → (∀ o ∈ ops, o.KeepsMonitor k n d.id) →
      d ∈ monitors db k n → d ∈ monitors (exec ops db) k n
  | [], _, _, _, _, h => h
  | o :: r, db, hok, ht, hk, h =>
    mon_execs (ops := r) hc (okDb_exec (ht o (by simp)) hok) (fun o' h' => ht o' (by simp [h']))
      (fun o' h' => hk o' (by simp [h'])) (mon_step hok hc (ht o (by simp)) (hk o (by simp)) h)

theorem mon_add {db : DB} {k : Key} {n : VKey} (m : Mon) (hf : findVar db k n ≠ none) :
    (⟨db.next, { m with cfg := .custom }⟩ : DMon) ∈ monitors (addMonitor k n m db) k n := by
  cases hw : findVar db k n with
  | none => exact absurd hw hf
  | some w =>
    unfold addMonitor
    rw [if_pos (by simp [hw])]
    have := findVar_onVar (db := db) (k := k) (v := n)
      (f := fun w => { w with mons := w.mons ++ [⟨db.next, { m with cfg := .custom }⟩] }) (fun _ => rfl)
      (db.next + 1) k n
    rw [if_pos ⟨rfl, rfl⟩, hw] at this
    exact mem_monitors.2 ⟨_, this, by simp⟩

end Verif.InitDb
