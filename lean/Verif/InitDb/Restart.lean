import Verif.InitDb.History
/-
Exceptions, interrupted starts and starts with an unchanged configuration.
-/
set_option linter.constructorNameAsVariable false

namespace Verif.InitDb

open Verif.DM (Str DataType AttrType ciEq)

/-! ### Exceptions -/

theorem insertAll_quiet {N O : Type} {ins : N → Ctx → O × Ctx} : ∀ {ns : List N} {x : Ctx},
    (∀ n ∈ ns, ∀ x : Ctx, x.thrown = false → (ins n x).2.thrown = false) → x.thrown = false →
      (insertAll ins ns x).2.thrown = false
  | [], _, _, h => h
  | n :: ns, x, h, hx => by
    simp only [insertAll]
    exact insertAll_quiet (ns := ns) (fun n' h' => h n' (by simp [h'])) (h n (by simp) x hx)

theorem modify_quiet {N O K : Type} {s : Sync N O K} {i : Nat} {f : O → Ctx → O × Ctx}
    (h : ∀ o (x : Ctx), x.thrown = false → (f o x).2.thrown = false) : ∀ {l : List O} {x : Ctx},
      x.thrown = false → (s.modify i f l x).2.thrown = false
  | [], _, hx => hx
  | o :: r, x, hx => by
    simp only [Sync.modify]
    split
    · exact h o x hx
    · exact modify_quiet h hx

theorem apply_quiet {N O K : Type} [DecidableEq K] {s : Sync N O K} {os : List O} : ∀ {ns : List N} {cur : List O}
    {x : Ctx}, (∀ n ∈ ns, ∀ x : Ctx, x.thrown = false → (s.ins n x).2.thrown = false) →
      (∀ n ∈ ns, ∀ d o, ∀ x : Ctx, x.thrown = false → (s.upd n d o x).2.thrown = false) → x.thrown = false →
      (s.apply os ns cur x).2.thrown = false
  | [], _, _, _, _, hx => hx
  | n :: ns, cur, x, h1, h2, hx => by
    simp only [Sync.apply]
    split
    · exact apply_quiet (fun n' h' => h1 n' (by simp [h'])) (fun n' h' => h2 n' (by simp [h']))
        (h1 n (by simp) x hx)
    · exact apply_quiet (fun n' h' => h1 n' (by simp [h'])) (fun n' h' => h2 n' (by simp [h']))
        (modify_quiet (h2 n (by simp) _) hx)

/-- The delta monitors of a variable have reference values. -/
def QuietVar (v : CVar) : Prop := ∀ m ∈ v.mons, m.type = .delta → m.ref ≠ none

theorem insertMon_quiet {m : Mon} (h : m.type = .delta → m.ref ≠ none) {x : Ctx} (hx : x.thrown = false) :
    (insertMon m x).2.thrown = false := by
  simp only [insertMon, hx, Bool.false_or]
  cases hr : m.ref with
  | some r => simp
  | none =>
    have : m.type ≠ .delta := fun e => h e hr
    simp [this]

theorem insertVar_quiet {v : CVar} (h : QuietVar v) {x : Ctx} (hx : x.thrown = false) :
    (insertVar v x).2.thrown = false := by
  refine insertAll_quiet (fun m hm x hx => insertMon_quiet (h m hm) hx) ?_
  exact insertAll_quiet (fun a _ x hx => hx) hx

theorem updateVar_quiet {v : CVar} (h : QuietVar v) (d o : Var) {x : Ctx} (hx : x.thrown = false) :
    (updateVar v d o x).2.thrown = false := by
  have ha : (updateAttrs v d o x).2.thrown = false := by
    unfold updateAttrs Sync.run
    split
    · exact hx
    · exact apply_quiet (s := attrSync v.dflt) (fun a _ x hx => hx) (fun a _ d o x hx => hx) hx
  show (updateMons v d o (updateAttrs v d o x).2).2.thrown = false
  generalize (updateAttrs v d o x).2 = y at ha ⊢
  unfold updateMons Sync.run
  split
  · exact ha
  · exact apply_quiet (s := monSync) (fun m hm x hx => insertMon_quiet (h m hm) hx) (fun a _ d o x hx => hx) ha

theorem varUpd_quiet {v : CVar} (h : QuietVar v) (d o : Var) {x : Ctx} (hx : x.thrown = false) :
    (varSync.upd v d o x).2.thrown = false := by
  simp only [varSync]
  split
  · exact updateVar_quiet h d o hx
  · exact hx

theorem init_quiet {cfg : Config} (h : ∀ e ∈ cfg, ∀ v ∈ e.2, QuietVar v) (os cur : List Comp) (i : Nat) :
    (insertComponents cfg os cur i).2.thrown = false := by
  refine apply_quiet (s := compSync) ?_ ?_ rfl
  · intro e he x hx
    exact insertAll_quiet (fun v hv x hx => insertVar_quiet (h e he v hv) hx) hx
  · intro e he d o x hx
    exact apply_quiet (s := varSync) (fun v hv x hx => insertVar_quiet (h e he v hv) hx)
      (fun v hv d o x hx => varUpd_quiet (h e he v hv) d o hx) hx

/-! ### Interrupted starts -/

theorem apply_congr {N O K : Type} [DecidableEq K] {s : Sync N O K} {os os' : List O} : ∀ {ns : List N}
    {cur : List O} {x : Ctx}, (∀ n ∈ ns, os.find? (fun d => decide (s.keyO d = s.keyN n))
      = os'.find? (fun d => decide (s.keyO d = s.keyN n))) → s.apply os ns cur x = s.apply os' ns cur x
  | [], _, _, _ => rfl
  | n :: ns, cur, x, h => by
    simp only [Sync.apply, h n (by simp)]
    split
    · exact apply_congr (fun n' h' => h n' (by simp [h']))
    · exact apply_congr (fun n' h' => h n' (by simp [h']))

theorem find_filter {A : Type} {p q : A → Bool} : ∀ {l : List A}, (∀ a ∈ l, q a = true → p a = true) →
    (l.filter p).find? q = l.find? q
  | [], _ => rfl
  | a :: r, h => by
    have ih := find_filter (p := p) (q := q) (l := r) (fun a' h' => h a' (by simp [h']))
    cases hq : q a with
    | true => simp [h a (by simp) hq, hq]
    | false =>
      cases hp : p a with
      | true => simp [hp, hq, ih]
      | false => simp [hp, hq, ih]

theorem init_partly {cfg : Config} {db : DB} (h : OkDb db) (gone : Comp → Bool) (hi : integrity cfg = true)
    : initDb cfg (db.partlyRemoved cfg gone) = initDb cfg db := by
  have hp : OkDb (db.partlyRemoved cfg gone) := h.filter _
  have h1 : removeComps cfg (db.partlyRemoved cfg gone).comps = removeComps cfg db.comps := by
    rw [removeComps_eq h, removeComps_eq hp]
    simp only [DB.partlyRemoved, List.filter_filter]
    apply List.filter_congr
    intro c _
    cases cfg.any (fun e => decide (e.1 = c.key)) <;> simp
  have h2 : insertComponents cfg (readAll (db.partlyRemoved cfg gone).comps) (removeComps cfg db.comps) db.next
      = insertComponents cfg (readAll db.comps) (removeComps cfg db.comps) db.next := by
    apply apply_congr
    intro e he
    unfold readAll
    rw [filter_visible_comps hp.ok, filter_visible_comps h.ok]
    simp only [DB.partlyRemoved]
    rw [List.find?_map, List.find?_map, find_filter]
    intro c _ hc
    simp only [Function.comp_apply, decide_eq_true_eq] at hc
    have : cfg.any (fun e => decide (e.1 = c.key)) = true := by
      simp only [List.any_eq_true, decide_eq_true_eq]
      exact ⟨e, he, hc.symm⟩
    simp [this]
  unfold initDb
  rw [h1]
  have hn : (db.partlyRemoved cfg gone).next = db.next := rfl
  rw [hn, h2]
  simp only [DB.removed, h1, hi]
  rfl

/-! ### The same configuration again -/

theorem applyValue_twice (v : Option Str) (a : Attr) : applyValue v (applyValue v a) = applyValue v a := by
  cases v with
  | none => rfl
  | some v =>
    simp only [applyValue]
    by_cases h : a.src = some fromConfig ∨ a.src = some [] ∨ a.src = none
    · simp [setConfigValue, h]
    · simp [setConfigValue, h]

/-- The fields an update writes besides the value. -/
theorem update_fixed {dflt : Option Str} {a : CAttr} {b : Attr} (hm : b.muta = a.muta) (ht : b.type = a.type)
    (hp : b.persistent = some ((a.persistent.or b.persistent).getD true))
    (hc : b.constant = some ((a.constant.or b.constant).getD false))
    (hv : applyValue (configValue a dflt) b = b) : updateAttr dflt a b b = b := by
  have e : ({ b with
      muta := a.muta
      type := a.type
      persistent := some ((a.persistent.or b.persistent).getD true)
      constant := some ((a.constant.or b.constant).getD false) } : Attr) = b := by
    rw [← hm, ← ht, ← hp, ← hc]
  unfold updateAttr
  rw [e, hv]

theorem attr_fixed {dflt : Option Str} {a : CAttr} {old : List Attr} {a' : Attr}
    (hf : a.persistent ≠ some false ∧ a.constant ≠ some true) (h : AttrMade dflt a old a') :
    Fixed (attrSync dflt) id a a' := by
  intro x
  simp only [attrSync, id_eq]
  have key : attrDiffers a a'.read = true → updateAttr dflt a a' a' = a' := by
    intro hd
    rcases h with ⟨-, x, rfl⟩ | ⟨b, hb, hbt, e⟩
    · apply update_fixed
      · simp [insertAttr, applyValue_muta]
      · simp [insertAttr, applyValue_type]
      · simp only [insertAttr, applyValue_persistent]
        cases hp : a.persistent with
        | none => rfl
        | some p => cases p with
          | true => rfl
          | false => exact absurd hp hf.1
      · simp only [insertAttr, applyValue_constant]
        cases hp : a.constant with
        | none => rfl
        | some p => cases p with
          | false => rfl
          | true => exact absurd hp hf.2
      · exact applyValue_twice _ _
    · split at e
      · subst e
        apply update_fixed
        · simp [updateAttr, applyValue_muta]
        · simp [updateAttr, applyValue_type]
        · simp only [updateAttr, applyValue_persistent]
          cases a.persistent <;> rfl
        · simp only [updateAttr, applyValue_constant]
          cases a.constant <;> rfl
        · exact applyValue_twice _ _
      · rename_i hn
        subst e
        exact absurd hd hn
  split
  · rename_i hd; rw [key hd]
  · rfl

theorem attrs_fixed {v : CVar} {old : List Attr} {w : Var} {b : Nat} (hw : OkVar w b)
    (hf : ∀ a ∈ v.attrs, a.persistent ≠ some false ∧ a.constant ≠ some true) (h : AttrRel v old w.attrs) (x : Ctx) :
    updateAttrs v w.read w x = (w.attrs, x) := by
  unfold updateAttrs
  split
  · rfl
  · have := run_fixed (s := attrSync v.dflt) (vis := fun _ => true) (rd := id) (l := w.attrs) (news := v.attrs) (x := x)
      (fun _ => rfl) (fun _ => rfl) hw.attrIds (by rw [vkeys_all]; exact hw.types)
      (fun o ho _ => by obtain ⟨a, ha, e, -⟩ := h.row o ho; exact ⟨a, ha, e.symm⟩)
      (fun a ha => by
        obtain ⟨a', ha', e, hm⟩ := h.entry a ha
        exact ⟨a', ha', rfl, e, attr_fixed (hf a ha) hm⟩)
    rw [olds_all, List.map_id] at this
    exact this

theorem mon_fixed {m : Mon} {old : List DMon} {m' : DMon} (h : MonMade m old m') : Fixed monSync id m m' := by
  intro x
  have : monDiffers m m'.mon = false := by
    rcases h with h | ⟨-, h⟩
    · rw [h]; exact monDiffers_refl m
    · exact h
  simp [monSync, this]

theorem mons_fixed {v : CVar} {old : List DMon} {w : Var} {b : Nat} (hw : OkVar w b) (h : MonRel v old w.mons)
    (x : Ctx) : updateMons v w.read w x = (w.mons, x) := by
  unfold updateMons
  split
  · rfl
  · have := run_fixed (s := monSync) (vis := DMon.visible) (rd := id) (l := w.mons) (news := v.mons) (x := x)
      (fun _ => rfl) (fun _ => rfl) hw.monIds hw.monKeys
      (fun o ho hv => by obtain ⟨a, ha, e, -⟩ := h.row o ho (of_decide_eq_true hv); exact ⟨a, ha, e.symm⟩)
      (fun a ha => by
        obtain ⟨a', ha', hc, e, hm⟩ := h.entry a ha
        exact ⟨a', ha', decide_eq_true hc, e, mon_fixed hm⟩)
    unfold olds at this
    rw [List.map_id] at this
    exact this

theorem var_fixed {v : CVar} {oa : List Attr} {om : List DMon} {w : Var} {b : Nat} (hv : TidyVar v) (hw : OkVar w b)
    (hf : ∀ a ∈ v.attrs, a.persistent ≠ some false ∧ a.constant ≠ some true) (h : VarRel v oa om w)
    (hs : w.source = v.source ∨ varDiffers w.read v = false) : Fixed varSync Var.read v w := by
  intro x
  simp only [varSync]
  split
  · rename_i hd
    have hs : w.source = v.source := by
      rcases hs with hs | hs
      · exact hs
      · rw [hs] at hd; cases hd
    have hk := h.key
    simp only [Var.vkey, CVar.vkey, VKey.mk.injEq] at hk
    unfold updateVar
    rw [attrs_fixed hw hf h.attrs, mons_fixed hw h.mons]
    have hc : charsDiffer v.chars w.read.chars = false := h.chars
    rw [hc, storedInst_eq hv.inst, ← hk.1, ← hk.2, ← hs]
    rfl
  · rfl

theorem inserted_fixed {v : CVar} (hv : TidyVar v)
    (hf : ∀ a ∈ v.attrs, a.persistent ≠ some false ∧ a.constant ≠ some true) (x : Ctx) :
    Fixed varSync Var.read v (insertVar v x).1 :=
  var_fixed hv (insertVar_ok hv x) hf (insert_rel hv x) (.inl rfl)

theorem updated_fixed {v : CVar} {w : Var} {x : Ctx} (hv : TidyVar v) (hw : OkVar w x.next)
    (hk : w.vkey = v.vkey)
    (hf : ∀ a ∈ v.attrs, a.persistent ≠ some false ∧ a.constant ≠ some true) :
    Fixed varSync Var.read v (varSync.upd v w.read w x).1 := by
  refine var_fixed hv (var_lawful.upd_ok v w x hv hw.visible hw hk) hf (upd_rel hv hw) ?_
  simp only [varSync]
  cases hd : varDiffers w.read v with
  | true => exact .inl rfl
  | false => exact .inr hd

theorem comp_fixed {e : Key × List CVar} {c : Comp} {b b' : Nat} {l : List Var} {x' : Ctx} (he : TidyComp e)
    (hc : OkComp c b') (hf : ∀ v ∈ e.2, ∀ a ∈ v.attrs, a.persistent ≠ some false ∧ a.constant ≠ some true)
    (hl : ∀ w ∈ l, OkVar w b) (h : VarInv b l e.2 c.vars x') : Fixed compSync Comp.read e c := by
  intro x
  have := run_fixed (s := varSync) (vis := Var.visible) (rd := Var.read) (l := c.vars) (news := e.2) (x := x)
    (fun _ => rfl) (fun _ => rfl) hc.varIds (by unfold vkeys; rw [filter_visible hc.ok]; exact hc.names)
    (fun o ho hv => by obtain ⟨a, ha, e, -⟩ := h.row ho hv; exact ⟨a, ha, e.symm⟩)
    (fun v hv => by
      obtain ⟨w, hw, hvis, hk, hcase⟩ := h.entry he.names hv
      refine ⟨w, hw, hvis, hk, ?_⟩
      rcases hcase with ⟨-, x1, rfl⟩ | ⟨w₀, hw₀, -, hk₀, x1, hx1, rfl⟩
      · exact inserted_fixed (he.tidy v hv) (hf v hv) x1
      · exact updated_fixed (he.tidy v hv) ((hl w₀ hw₀).mono hx1) hk₀ (hf v hv))
  unfold olds at this
  simp only [compSync]
  have e1 : c.read.vars = (c.vars.filter Var.visible).map Var.read := rfl
  rw [e1, this]

theorem init_fixed {cfg : Config} {db db' : DB} (hc : Tidy cfg) (h : OkDb db)
    (hf : ∀ e ∈ cfg, ∀ v ∈ e.2, ∀ a ∈ v.attrs, a.persistent ≠ some false ∧ a.constant ≠ some true)
    (hd : initDb cfg db = .done db') : initDb cfg db' = .done db' := by
  obtain ⟨hint, t, hi⟩ := initDb_done hc h hd
  have hok : OkDb db' := hi.okDb
  have := run_fixed (s := compSync) (vis := Comp.visible) (rd := Comp.read) (l := db'.comps) (news := cfg)
    (x := ⟨db'.next, false⟩) (fun _ => rfl) (fun _ => rfl) hok.ids
    (by unfold vkeys; rw [filter_visible_comps hok.ok]; exact hok.keys)
    (fun o ho hv => by obtain ⟨a, ha, e, -⟩ := hi.row ho hv; exact ⟨a, ha, e.symm⟩)
    (fun e he => by
      obtain ⟨c, hcm, hvis, hk, hcase⟩ := hi.entry hc.keys he
      refine ⟨c, hcm, hvis, hk, ?_⟩
      rcases hcase with ⟨-, x1, rfl⟩ | ⟨c₀, hc₀, -, hk₀, x1, hx1, rfl⟩
      · exact comp_fixed (hc.tidy e he) (hok.ok _ hcm) (hf e he) (l := []) (by simp)
          (insertComp_spec (hc.tidy e he) x1)
      · exact comp_fixed (hc.tidy e he) (hok.ok _ hcm) (hf e he)
          (((h.ok c₀ hc₀).mono hx1).ok) (updComp_spec (hc.tidy e he) ((h.ok c₀ hc₀).mono hx1)))
  have e : insertComponents cfg (readAll db'.comps) (removeComps cfg db'.comps) db'.next
      = (db'.comps, ⟨db'.next, false⟩) := this
  unfold initDb
  rw [e]
  simp [hint]

end Verif.InitDb
