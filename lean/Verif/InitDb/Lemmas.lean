import Verif.InitDb.Spec
import Verif.InitDb.Sync
/-
The invariant of the device model database, and what a start does to components, variables, attributes and
monitors.
-/
set_option linter.constructorNameAsVariable false

namespace Verif.InitDb

open Verif.DM (Str DataType AttrType)

theorem olds_all (rd : α → α) (l : List α) : olds (fun _ => true) rd l = l.map rd := by
  unfold olds; rw [List.filter_eq_self.2 (fun _ _ => rfl)]

theorem vkeys_all {N O K : Type} (s : Sync N O K) (l : List O) : vkeys s (fun _ => true) l = l.map s.keyO := by
  unfold vkeys; rw [List.filter_eq_self.2 (fun _ _ => rfl)]

theorem storedInst_eq {i : Option Str} (h : i ≠ some []) : storedInst i = i := by
  unfold storedInst
  split
  · exact absurd rfl h
  · rfl

/-! ### Attributes -/

theorem applyValue_id (v : Option Str) (a : Attr) : (applyValue v a).id = a.id := by
  unfold applyValue setConfigValue; (repeat' split) <;> rfl

theorem applyValue_type (v : Option Str) (a : Attr) : (applyValue v a).type = a.type := by
  unfold applyValue setConfigValue; (repeat' split) <;> rfl

theorem applyValue_muta (v : Option Str) (a : Attr) : (applyValue v a).muta = a.muta := by
  unfold applyValue setConfigValue; (repeat' split) <;> rfl

/-- An attribute of the database in order. -/
structure okAttr (a : Attr) (b : Nat) : Prop where
  id : a.id < b
  persistent : a.persistent.isSome = true
  constant : a.constant.isSome = true

theorem okAttr.mono {a : Attr} {b b' : Nat} (h : okAttr a b) (hb : b ≤ b') : okAttr a b' :=
  ⟨Nat.lt_of_lt_of_le h.id hb, h.persistent, h.constant⟩

theorem applyValue_persistent (v : Option Str) (a : Attr) : (applyValue v a).persistent = a.persistent := by
  unfold applyValue setConfigValue; (repeat' split) <;> rfl

theorem applyValue_constant (v : Option Str) (a : Attr) : (applyValue v a).constant = a.constant := by
  unfold applyValue setConfigValue; (repeat' split) <;> rfl

theorem applyValue_ok {v : Option Str} {a : Attr} {b : Nat} (h : okAttr a b) : okAttr (applyValue v a) b :=
  ⟨by rw [applyValue_id]; exact h.id, by rw [applyValue_persistent]; exact h.persistent,
    by rw [applyValue_constant]; exact h.constant⟩

theorem attr_lawful (dflt : Option Str) :
    Lawful (attrSync dflt) (fun _ => true) id okAttr (fun _ => True) where
  rd_id _ := rfl
  rd_key _ := rfl
  mono o b b' h h' := h.mono h'
  id_lt o b h := h.id
  ins_id n x := by simp [attrSync, insertAttr, applyValue_id]
  ins_next n x := by simp [attrSync, insertAttr]
  ins_key n x _ := by simp [attrSync, insertAttr, applyValue_type]
  ins_vis n x _ := rfl
  ins_ok n x _ := applyValue_ok ⟨Nat.lt_succ_self _, rfl, rfl⟩
  upd_id n d o x := by simp only [attrSync, updateAttr]; split <;> simp [applyValue_id]
  upd_next n d o x := Nat.le_refl _
  upd_key n o x _ h := by
    simp only [attrSync, updateAttr] at h ⊢
    split
    · simp [applyValue_type]
    · exact h
  upd_vis n o x _ _ _ _ := rfl
  upd_ok n o x _ _ h _ := by
    simp only [attrSync, updateAttr]
    split
    · exact applyValue_ok ⟨h.id, rfl, rfl⟩
    · exact h

/-! ### Monitors -/

def okMon (m : DMon) (b : Nat) : Prop := m.id < b

theorem mon_lawful : Lawful monSync DMon.visible id okMon (fun m => m.cfg ≠ .custom) where
  rd_id _ := rfl
  rd_key _ := rfl
  mono o b b' h h' := Nat.lt_of_lt_of_le h h'
  id_lt o b h := h
  ins_id n x := rfl
  ins_next n x := by simp [monSync, insertMon]
  ins_key n x _ := rfl
  ins_vis n x h := by
    show decide (n.cfg ≠ .custom) = true
    exact decide_eq_true h
  ins_ok n x _ := by simp [monSync, insertMon, okMon]
  upd_id n d o x := by simp only [monSync]; split <;> rfl
  upd_next n d o x := Nat.le_refl _
  upd_key n o x _ h := by
    simp only [monSync] at h ⊢
    split
    · rfl
    · exact h
  upd_vis n o x h h' _ _ := by
    simp only [monSync]
    split
    · show decide (n.cfg ≠ .custom) = true
      exact decide_eq_true h
    · exact h'
  upd_ok n o x _ _ h _ := by
    simp only [okMon, monSync] at h ⊢
    split <;> exact h

/-! ### Variables -/

/-- A variable of the database in order. -/
structure OkVar (v : Var) (b : Nat) : Prop where
  id : v.id < b
  attrs : v.attrs ≠ []
  attrIds : (v.attrs.map Attr.id).Nodup
  types : (v.attrs.map Attr.type).Nodup
  attrLt : ∀ a ∈ v.attrs, okAttr a b
  monIds : (v.mons.map DMon.id).Nodup
  monKeys : (vkeys monSync DMon.visible v.mons).Nodup
  monLt : ∀ m ∈ v.mons, m.id < b

theorem OkVar.mono {v : Var} {b b' : Nat} (h : OkVar v b) (hb : b ≤ b') : OkVar v b' :=
  ⟨Nat.lt_of_lt_of_le h.id hb, h.attrs, h.attrIds, h.types, fun a ha => (h.attrLt a ha).mono hb,
    h.monIds, h.monKeys, fun m hm => Nat.lt_of_lt_of_le (h.monLt m hm) hb⟩

theorem OkVar.visible {v : Var} {b : Nat} (h : OkVar v b) : v.visible = true := by
  simp [Var.visible, h.attrs]

/-- The attributes of a variable after the loops. -/
abbrev AttrInv (dflt : Option Str) (b : Nat) (l : List Attr) (news : List CAttr) (cur : List Attr) (x : Ctx) : Prop :=
  Inv (attrSync dflt) (fun _ => true) id okAttr b l news [] cur x

/-- The monitors of a variable after the loops. -/
abbrev MonInv (b : Nat) (l : List DMon) (news : List Mon) (cur : List DMon) (x : Ctx) : Prop :=
  Inv monSync DMon.visible id okMon b l news [] cur x

theorem attrInv_nonempty {dflt : Option Str} {b : Nat} {l : List Attr} {news : List CAttr} {cur : List Attr}
    {x : Ctx} (h : AttrInv dflt b l news cur x) (hn : news ≠ []) : cur ≠ [] := by
  cases news with
  | nil => exact absurd rfl hn
  | cons n ns =>
    obtain ⟨o, ho, -⟩ := h.made n (by simp)
    intro e; rw [e] at ho; cases ho

theorem insertAttr_le (dflt : Option Str) (a : CAttr) (x : Ctx) : x.next ≤ (insertAttr dflt a x).2.next :=
  Nat.le_succ _

theorem insertMon_le (m : Mon) (x : Ctx) : x.next ≤ (insertMon m x).2.next := Nat.le_succ _

/-- An inserted variable: attributes and monitors are those of the configuration. -/
theorem insertVar_spec {v : CVar} (hv : TidyVar v) (x : Ctx) :
    ∃ x1, x.next < x1.next ∧ x1.next ≤ (insertVar v x).2.next ∧
      AttrInv v.dflt (x.next + 1) [] v.attrs (insertVar v x).1.attrs x1 ∧
      MonInv x1.next [] v.mons (insertVar v x).1.mons (insertVar v x).2 := by
  have ha := insertAll_spec (attr_lawful v.dflt) (news := v.attrs) (x := { x with next := x.next + 1 })
    (fun _ _ => trivial) hv.types
  have hm := insertAll_spec mon_lawful (news := v.mons)
    (x := (insertAll (insertAttr v.dflt) v.attrs { x with next := x.next + 1 }).2) hv.cfg hv.mons
  refine ⟨(insertAll (insertAttr v.dflt) v.attrs { x with next := x.next + 1 }).2, ?_, ?_, ha, hm⟩
  · exact Nat.lt_of_lt_of_le (Nat.lt_succ_self _)
      (insertAll_next (insertAttr_le v.dflt) v.attrs { x with next := x.next + 1 })
  · exact insertAll_next insertMon_le v.mons _

theorem okVar_of {v : Var} {dflt : Option Str} {b b1 : Nat} {as : List CAttr} {ms : List Mon} {la : List Attr}
    {lm : List DMon} {x1 x2 : Ctx} (hid : v.id < x2.next) (hne : as ≠ [])
    (ha : AttrInv dflt b la as v.attrs x1) (hm : MonInv b1 lm ms v.mons x2) (hle : x1.next ≤ x2.next) :
    OkVar v x2.next :=
  ⟨hid, attrInv_nonempty ha hne, ha.ids, by have := ha.keys; rwa [vkeys_all] at this,
    fun a h => (ha.ok a h).mono hle, hm.ids, hm.keys, hm.ok⟩

theorem insertVar_ok {v : CVar} (hv : TidyVar v) (x : Ctx) : OkVar (insertVar v x).1 (insertVar v x).2.next := by
  obtain ⟨x1, h1, h2, ha, hm⟩ := insertVar_spec hv x
  exact okVar_of (v := (insertVar v x).1) (Nat.lt_of_lt_of_le h1 h2) hv.attrs ha hm h2

theorem insertVar_next (v : CVar) (x : Ctx) : x.next < (insertVar v x).2.next :=
  Nat.lt_of_lt_of_le (Nat.lt_of_lt_of_le (Nat.lt_succ_self _)
      (insertAll_next (insertAttr_le v.dflt) v.attrs { x with next := x.next + 1 }))
    (insertAll_next insertMon_le v.mons _)

/-- The attributes after an update. -/
theorem updateAttrs_spec {v : CVar} {o : Var} {x : Ctx} (hv : TidyVar v) (ho : OkVar o x.next) :
    (sameAttrs v.attrs (o.attrs.map Attr.read) = true ∧ updateAttrs v o.read o x = (o.attrs, x))
    ∨ (sameAttrs v.attrs (o.attrs.map Attr.read) = false ∧
      AttrInv v.dflt x.next o.attrs v.attrs (updateAttrs v o.read o x).1 (updateAttrs v o.read o x).2) := by
  unfold updateAttrs
  have hr : o.read.attrs = o.attrs := rfl
  rw [hr]
  cases h : sameAttrs v.attrs (o.attrs.map Attr.read) with
  | true => exact .inl ⟨rfl, rfl⟩
  | false =>
    refine .inr ⟨rfl, ?_⟩
    have := run_spec (attr_lawful v.dflt) (l := o.attrs) (news := v.attrs) (x := x) (fun _ _ => trivial)
      hv.types ho.attrIds (by rw [vkeys_all]; exact ho.types) ho.attrLt
    rw [olds_all, List.map_id] at this
    exact this

/-- The monitors after an update. -/
theorem updateMons_spec {v : CVar} {o : Var} {x : Ctx} (hv : TidyVar v) (ho : OkVar o x.next) :
    (sameMons v.mons (o.read.mons.map (·.mon)) = true ∧ updateMons v o.read o x = (o.mons, x))
    ∨ (sameMons v.mons (o.read.mons.map (·.mon)) = false ∧
      MonInv x.next o.mons v.mons (updateMons v o.read o x).1 (updateMons v o.read o x).2) := by
  unfold updateMons
  cases h : sameMons v.mons (o.read.mons.map (·.mon)) with
  | true => exact .inl ⟨rfl, rfl⟩
  | false =>
    refine .inr ⟨rfl, ?_⟩
    have := run_spec mon_lawful (l := o.mons) (news := v.mons) (x := x) hv.cfg hv.mons ho.monIds ho.monKeys
      ho.monLt
    unfold olds at this
    rw [List.map_id] at this
    exact this

theorem modify_next {N O K : Type} {s : Sync N O K} {f : O → Ctx → O × Ctx} (i : Nat)
    (h : ∀ o x, x.next ≤ (f o x).2.next) : ∀ (l : List O) (x : Ctx), x.next ≤ (s.modify i f l x).2.next
  | [], x => Nat.le_refl _
  | o :: r, x => by
    simp only [Sync.modify]
    split
    · exact h o x
    · exact modify_next i h r x

theorem apply_next {N O K : Type} [DecidableEq K] {s : Sync N O K} (h1 : ∀ n x, x.next ≤ (s.ins n x).2.next)
    (h2 : ∀ n d o x, x.next ≤ (s.upd n d o x).2.next) (os : List O) :
    ∀ (ns : List N) (cur : List O) (x : Ctx), x.next ≤ (s.apply os ns cur x).2.next
  | [], cur, x => Nat.le_refl _
  | n :: ns, cur, x => by
    simp only [Sync.apply]
    split
    · exact Nat.le_trans (h1 n x) (apply_next h1 h2 os ns _ _)
    · exact Nat.le_trans (modify_next _ (h2 n _) cur x) (apply_next h1 h2 os ns _ _)

theorem updateAttrs_next (v : CVar) (d o : Var) (x : Ctx) : x.next ≤ (updateAttrs v d o x).2.next := by
  unfold updateAttrs Sync.run
  split
  · exact Nat.le_refl _
  · exact apply_next (s := attrSync v.dflt) (insertAttr_le v.dflt) (fun _ _ _ _ => Nat.le_refl _) _ _ _ _

theorem updateMons_next (v : CVar) (d o : Var) (x : Ctx) : x.next ≤ (updateMons v d o x).2.next := by
  unfold updateMons Sync.run
  split
  · exact Nat.le_refl _
  · exact apply_next (s := monSync) insertMon_le (fun _ _ _ _ => Nat.le_refl _) _ _ _ _

theorem updateVar_next (v : CVar) (d o : Var) (x : Ctx) : x.next ≤ (updateVar v d o x).2.next :=
  Nat.le_trans (updateAttrs_next v d o x) (updateMons_next v d o _)

theorem updateVar_ok {v : CVar} {o : Var} {x : Ctx} (hv : TidyVar v) (ho : OkVar o x.next) :
    OkVar (updateVar v o.read o x).1 (updateVar v o.read o x).2.next := by
  have hn1 := updateAttrs_next v o.read o x
  have hn2 := updateMons_next v o.read o (updateAttrs v o.read o x).2
  have ho' := ho.mono hn1
  have ho'' := ho'.mono hn2
  have hm : (((updateMons v o.read o (updateAttrs v o.read o x).2).1.map DMon.id).Nodup ∧
      (vkeys monSync DMon.visible (updateMons v o.read o (updateAttrs v o.read o x).2).1).Nodup ∧
      ∀ m ∈ (updateMons v o.read o (updateAttrs v o.read o x).2).1,
        m.id < (updateMons v o.read o (updateAttrs v o.read o x).2).2.next) := by
    rcases updateMons_spec hv ho' with ⟨-, h⟩ | ⟨-, h⟩
    · rw [h]; exact ⟨ho'.monIds, ho'.monKeys, ho'.monLt⟩
    · exact ⟨h.ids, h.keys, h.ok⟩
  have ha : ((updateAttrs v o.read o x).1 ≠ [] ∧ ((updateAttrs v o.read o x).1.map Attr.id).Nodup ∧
      ((updateAttrs v o.read o x).1.map Attr.type).Nodup ∧
      ∀ a ∈ (updateAttrs v o.read o x).1, okAttr a (updateAttrs v o.read o x).2.next) := by
    rcases updateAttrs_spec hv ho with ⟨-, h⟩ | ⟨-, h⟩
    · rw [h]; exact ⟨ho.attrs, ho.attrIds, ho.types, ho.attrLt⟩
    · exact ⟨attrInv_nonempty h hv.attrs, h.ids, by have := h.keys; rwa [vkeys_all] at this, h.ok⟩
  exact ⟨ho''.id, ha.1, ha.2.1, ha.2.2.1, fun a h => (ha.2.2.2 a h).mono hn2, hm.1, hm.2.1, hm.2.2⟩

theorem updateVar_key {v : CVar} {d o : Var} {x : Ctx} (hv : TidyVar v) : (updateVar v d o x).1.vkey = v.vkey := by
  simp [updateVar, Var.vkey, CVar.vkey, storedInst_eq hv.inst]

theorem var_lawful : Lawful varSync Var.visible Var.read OkVar TidyVar where
  rd_id _ := rfl
  rd_key _ := rfl
  mono o b b' h h' := h.mono h'
  id_lt o b h := h.id
  ins_id n x := rfl
  ins_next n x := insertVar_next n x
  ins_key n x h := by simp [varSync, insertVar, Var.vkey, CVar.vkey, storedInst_eq h.inst]
  ins_vis n x h := (insertVar_ok h x).visible
  ins_ok n x h := insertVar_ok h x
  upd_id n d o x := by simp only [varSync]; split <;> rfl
  upd_next n d o x := by
    simp only [varSync]
    split
    · exact updateVar_next n d o x
    · exact Nat.le_refl _
  upd_key n o x h he := by
    simp only [varSync] at he ⊢
    split
    · exact updateVar_key h
    · exact he
  upd_vis n o x h hv ho he := by
    simp only [varSync]
    split
    · exact (updateVar_ok h ho).visible
    · exact hv
  upd_ok n o x h hv ho he := by
    simp only [varSync]
    split
    · exact updateVar_ok h ho
    · exact ho

/-! ### Components -/

/-- A component of the database in order. -/
structure OkComp (c : Comp) (b : Nat) : Prop where
  id : c.id < b
  vars : c.vars ≠ []
  varIds : (c.vars.map Var.id).Nodup
  names : (c.vars.map Var.vkey).Nodup
  ok : ∀ v ∈ c.vars, OkVar v b

theorem OkComp.mono {c : Comp} {b b' : Nat} (h : OkComp c b) (hb : b ≤ b') : OkComp c b' :=
  ⟨Nat.lt_of_lt_of_le h.id hb, h.vars, h.varIds, h.names, fun v hv => (h.ok v hv).mono hb⟩

theorem filter_visible {l : List Var} {b : Nat} (h : ∀ v ∈ l, OkVar v b) : l.filter Var.visible = l :=
  List.filter_eq_self.2 (fun v hv => (h v hv).visible)

theorem OkComp.visible {c : Comp} {b : Nat} (h : OkComp c b) : c.visible = true := by
  have := h.vars
  cases hv : c.vars with
  | nil => exact absurd hv this
  | cons v r => simp [Comp.visible, hv, (h.ok v (by simp [hv])).visible]

/-- The variables of a component after the loops. -/
abbrev VarInv (b : Nat) (l : List Var) (news : List CVar) (cur : List Var) (x : Ctx) : Prop :=
  Inv varSync Var.visible Var.read OkVar b l news [] cur x

theorem VarInv.okVars {b : Nat} {l : List Var} {news : List CVar} {cur : List Var} {x : Ctx}
    (h : VarInv b l news cur x) (hn : news ≠ []) :
    cur ≠ [] ∧ (cur.map Var.id).Nodup ∧ (cur.map Var.vkey).Nodup ∧ ∀ v ∈ cur, OkVar v x.next := by
  refine ⟨?_, h.ids, ?_, h.ok⟩
  · cases news with
    | nil => exact absurd rfl hn
    | cons n ns =>
      obtain ⟨o, ho, -⟩ := h.made n (by simp)
      intro e; rw [e] at ho; cases ho
  · have := h.keys
    unfold vkeys at this
    rwa [filter_visible h.ok] at this

theorem insertComp_spec {e : Key × List CVar} (he : TidyComp e) (x : Ctx) :
    VarInv (x.next + 1) [] e.2 (insertComp e x).1.vars (insertComp e x).2 :=
  insertAll_spec var_lawful (news := e.2) (x := { x with next := x.next + 1 }) he.tidy he.names

theorem insertComp_next (e : Key × List CVar) (x : Ctx) : x.next < (insertComp e x).2.next :=
  Nat.lt_of_lt_of_le (Nat.lt_succ_self _)
    (insertAll_next (fun v x => Nat.le_of_lt (insertVar_next v x)) e.2 { x with next := x.next + 1 })

theorem insertComp_ok {e : Key × List CVar} (he : TidyComp e) (x : Ctx) :
    OkComp (insertComp e x).1 (insertComp e x).2.next := by
  have h := (insertComp_spec he x).okVars he.vars
  exact ⟨insertComp_next e x, h.1, h.2.1, h.2.2.1, h.2.2.2⟩

theorem updComp_spec {e : Key × List CVar} {c : Comp} {x : Ctx} (he : TidyComp e) (hc : OkComp c x.next) :
    VarInv x.next c.vars e.2 (compSync.upd e c.read c x).1.vars (compSync.upd e c.read c x).2 :=
  run_spec var_lawful (l := c.vars) (news := e.2) (x := x) he.tidy he.names hc.varIds
    (by unfold vkeys; rw [filter_visible hc.ok]; exact hc.names) hc.ok

theorem updComp_next (e : Key × List CVar) (d c : Comp) (x : Ctx) : x.next ≤ (compSync.upd e d c x).2.next :=
  apply_next (s := varSync) (fun n x => Nat.le_of_lt (insertVar_next n x)) var_lawful.upd_next _ _ _ _

theorem updComp_ok {e : Key × List CVar} {c : Comp} {x : Ctx} (he : TidyComp e) (hc : OkComp c x.next) :
    OkComp (compSync.upd e c.read c x).1 (compSync.upd e c.read c x).2.next := by
  have h := (updComp_spec he hc).okVars he.vars
  exact ⟨Nat.lt_of_lt_of_le hc.id (updComp_next e _ c x), h.1, h.2.1, h.2.2.1, h.2.2.2⟩

theorem comp_lawful : Lawful compSync Comp.visible Comp.read OkComp TidyComp where
  rd_id _ := rfl
  rd_key _ := rfl
  mono o b b' h h' := h.mono h'
  id_lt o b h := h.id
  ins_id n x := rfl
  ins_next n x := insertComp_next n x
  ins_key n x h := by
    simp only [compSync, insertComp, storedInst_eq h.inst]
  ins_vis n x h := (insertComp_ok h x).visible
  ins_ok n x h := insertComp_ok h x
  upd_id n d o x := rfl
  upd_next n d o x := updComp_next n d o x
  upd_key n o x h he := he
  upd_vis n o x h hv ho he := (updComp_ok h ho).visible
  upd_ok n o x h hv ho he := updComp_ok h ho

/-- The database in order. -/
structure OkDb (db : DB) : Prop where
  ids : (db.comps.map Comp.id).Nodup
  keys : (db.comps.map Comp.key).Nodup
  ok : ∀ c ∈ db.comps, OkComp c db.next

/-- The components after a start. -/
abbrev CompInv (b : Nat) (l : List Comp) (cfg : Config) (cur : List Comp) (x : Ctx) : Prop :=
  Inv compSync Comp.visible Comp.read OkComp b l cfg [] cur x

theorem filter_visible_comps {l : List Comp} {b : Nat} (h : ∀ c ∈ l, OkComp c b) : l.filter Comp.visible = l :=
  List.filter_eq_self.2 (fun c hc => (h c hc).visible)

theorem insertComponents_spec {cfg : Config} {db : DB} (hc : Tidy cfg) (h : OkDb db) :
    CompInv db.next db.comps cfg
      (insertComponents cfg (readAll db.comps) (removeComps cfg db.comps) db.next).1
      (insertComponents cfg (readAll db.comps) (removeComps cfg db.comps) db.next).2 :=
  run_spec comp_lawful (l := db.comps) (news := cfg) (x := ⟨db.next, false⟩) hc.tidy hc.keys h.ids
    (by unfold vkeys; rw [filter_visible_comps h.ok]; exact h.keys) h.ok

theorem CompInv.okDb {b : Nat} {l : List Comp} {cfg : Config} {cur : List Comp} {x : Ctx}
    (h : CompInv b l cfg cur x) : OkDb ⟨cur, x.next⟩ := by
  refine ⟨h.ids, ?_, h.ok⟩
  have := h.keys
  unfold vkeys at this
  rwa [filter_visible_comps h.ok] at this

/-- A successful start. -/
theorem initDb_done {cfg : Config} {db db' : DB} (hc : Tidy cfg) (h : OkDb db) (hd : initDb cfg db = .done db') :
    integrity cfg = true ∧ ∃ t, CompInv db.next db.comps cfg db'.comps ⟨db'.next, t⟩ := by
  unfold initDb at hd
  split at hd
  · cases hd
  · rename_i hint
    split at hd
    · cases hd
    · injection hd with hd
      refine ⟨by simpa using hint, ?_⟩
      have := insertComponents_spec hc h
      rw [← hd]
      exact ⟨_, this⟩

theorem removeComps_eq {cfg : Config} {db : DB} (h : OkDb db) : removeComps cfg db.comps
    = db.comps.filter (fun c => cfg.any (fun e => decide (e.1 = c.key))) := by
  have := delete_read (s := compSync) (vis := Comp.visible) (rd := Comp.read) (l := db.comps) (cur := db.comps)
    (news := cfg) (fun _ => rfl) (fun _ => rfl) h.ids (fun c h => h)
  unfold removeComps readAll
  unfold olds at this
  rw [this]
  apply List.filter_congr
  intro c hcm
  rw [(h.ok c hcm).visible]
  rfl

theorem OkDb.filter {db : DB} (h : OkDb db) (p : Comp → Bool) : OkDb { db with comps := db.comps.filter p } := by
  have hs : List.Sublist (db.comps.filter p) db.comps := List.filter_sublist
  exact ⟨h.ids.sublist (hs.map _), h.keys.sublist (hs.map _), fun c hc => h.ok c (hs.subset hc)⟩

theorem okDb_init {cfg : Config} {db : DB} (hc : Tidy cfg) (h : OkDb db) : OkDb (initDb cfg db).db := by
  cases hr : initDb cfg db with
  | done db' =>
    obtain ⟨-, t, hi⟩ := initDb_done hc h hr
    exact hi.okDb
  | thrown db' =>
    unfold initDb at hr
    split at hr
    · injection hr with hr; rw [← hr]; exact h
    · split at hr
      · injection hr with hr
        rw [← hr]
        simp only [Result.db, DB.removed, removeComps_eq h]
        exact h.filter _
      · cases hr

/-! ### The other operations keep the database in order -/

theorem modifyFirst_map {A B : Type} {p : A → Bool} {f : A → A} {g : A → B} (h : ∀ a, g (f a) = g a) :
    ∀ l : List A, (modifyFirst p f l).map g = l.map g
  | [] => rfl
  | a :: r => by
    simp only [modifyFirst]
    split
    · simp [h]
    · simp [modifyFirst_map h r]

theorem modifyFirst_mem {A : Type} {p : A → Bool} {f : A → A} : ∀ {l : List A} {a : A},
    a ∈ modifyFirst p f l → a ∈ l ∨ ∃ b ∈ l, p b = true ∧ a = f b
  | [], a, h => by cases h
  | b :: r, a, h => by
    simp only [modifyFirst] at h
    split at h
    · rename_i hb
      rcases List.mem_cons.1 h with rfl | h
      · exact .inr ⟨b, by simp, hb, rfl⟩
      · exact .inl (by simp [h])
    · rcases List.mem_cons.1 h with rfl | h
      · exact .inl (by simp)
      · rcases modifyFirst_mem h with h | ⟨b', hb', r⟩
        · exact .inl (by simp [h])
        · exact .inr ⟨b', by simp [hb'], r⟩

theorem modifyFirst_nil {A : Type} {p : A → Bool} {f : A → A} {l : List A} (h : l ≠ []) : modifyFirst p f l ≠ [] := by
  cases l with
  | nil => exact absurd rfl h
  | cons a r => simp only [modifyFirst]; split <;> simp

theorem okDb_onVar {db : DB} {k : Key} {v : VKey} {f : Var → Var} {b : Nat} (h : OkDb db) (hb : db.next ≤ b)
    (hid : ∀ w, (f w).id = w.id) (hkey : ∀ w, (f w).vkey = w.vkey)
    (hok : ∀ w, OkVar w db.next → OkVar (f w) b) : OkDb ⟨onVar k v f db.comps, b⟩ := by
  refine ⟨?_, ?_, ?_⟩
  · simp only [onVar]; rw [modifyFirst_map (g := Comp.id) (by intro c; rfl)]; exact h.ids
  · simp only [onVar]; rw [modifyFirst_map (g := Comp.key) (by intro c; rfl)]; exact h.keys
  · intro c hc
    rcases modifyFirst_mem hc with hc | ⟨c', hc', -, rfl⟩
    · exact (h.ok c hc).mono hb
    · have ho := h.ok c' hc'
      refine ⟨Nat.lt_of_lt_of_le ho.id hb, modifyFirst_nil ho.vars, ?_, ?_, ?_⟩
      · dsimp only; rw [modifyFirst_map hid]; exact ho.varIds
      · dsimp only; rw [modifyFirst_map hkey]; exact ho.names
      · intro w hw
        rcases modifyFirst_mem hw with hw | ⟨w', hw', -, rfl⟩
        · exact (ho.ok w hw).mono hb
        · exact hok w' (ho.ok w' hw')

theorem writeValue_id (t : AttrType) (value src : Str) (a : Attr) : (writeValue t value src a).id = a.id := by
  unfold writeValue; split <;> rfl

theorem writeValue_type (t : AttrType) (value src : Str) (a : Attr) :
    (writeValue t value src a).type = a.type := by
  unfold writeValue; split <;> rfl

theorem okDb_set {db : DB} (k : Key) (v : VKey) (t : AttrType) (value src : Str) (h : OkDb db) :
    OkDb (setValue k v t value src db) := by
  refine okDb_onVar h (Nat.le_refl _) (fun _ => rfl) (fun _ => rfl) (fun w hw => ?_)
  have h1 : (w.attrs.map (writeValue t value src)).map Attr.id = w.attrs.map Attr.id := by
    rw [List.map_map]; exact List.map_congr_left (fun a _ => writeValue_id t value src a)
  have h2 : (w.attrs.map (writeValue t value src)).map Attr.type = w.attrs.map Attr.type := by
    rw [List.map_map]; exact List.map_congr_left (fun a _ => writeValue_type t value src a)
  refine ⟨hw.id, by simpa using hw.attrs, by rw [h1]; exact hw.attrIds, by rw [h2]; exact hw.types, ?_,
    hw.monIds, hw.monKeys, hw.monLt⟩
  intro a ha
  obtain ⟨a', ha', rfl⟩ := List.mem_map.1 ha
  have := hw.attrLt a' ha'
  unfold writeValue
  split
  · exact ⟨this.id, this.persistent, this.constant⟩
  · exact this

theorem okDb_addMonitor {db : DB} (k : Key) (v : VKey) (m : Mon) (h : OkDb db) : OkDb (addMonitor k v m db) := by
  unfold addMonitor
  split
  · refine okDb_onVar h (Nat.le_succ _) (fun _ => rfl) (fun _ => rfl) (fun w hw => ?_)
    have hw' := hw.mono (Nat.le_succ db.next)
    refine ⟨hw'.id, hw.attrs, hw.attrIds, hw.types, hw'.attrLt, ?_, ?_, ?_⟩
    · rw [List.map_append, List.nodup_append]
      refine ⟨hw.monIds, by simp, ?_⟩
      intro i hi j hj
      obtain ⟨m', hm', rfl⟩ := List.mem_map.1 hi
      simp only [List.map_cons, List.map_nil, List.mem_singleton] at hj
      rw [hj]; exact Nat.ne_of_lt (hw.monLt m' hm')
    · have : vkeys monSync DMon.visible (w.mons ++ [⟨db.next, { m with cfg := .custom }⟩])
          = vkeys monSync DMon.visible w.mons := by
        simp [vkeys, List.filter_append, DMon.visible]
      rw [this]; exact hw.monKeys
    · intro m' hm'
      rcases List.mem_append.1 hm' with hm' | hm'
      · exact hw'.monLt m' hm'
      · rw [List.mem_singleton.1 hm']; exact Nat.lt_succ_self _
  · exact h

theorem okDb_onMons {db : DB} {f : List DMon → List DMon} (h : OkDb db)
    (hf : ∀ l : List DMon, (l.map DMon.id).Nodup → (vkeys monSync DMon.visible l).Nodup →
      (∀ m ∈ l, m.id < db.next) → ((f l).map DMon.id).Nodup ∧ (vkeys monSync DMon.visible (f l)).Nodup ∧
      ∀ m ∈ f l, m.id < db.next) : OkDb (onMons f db) := by
  have e1 : (onMons f db).comps.map Comp.id = db.comps.map Comp.id := by
    simp only [onMons, List.map_map]; rfl
  have e2 : (onMons f db).comps.map Comp.key = db.comps.map Comp.key := by
    simp only [onMons, List.map_map]; rfl
  refine ⟨by rw [e1]; exact h.ids, by rw [e2]; exact h.keys, ?_⟩
  intro c hc
  obtain ⟨c', hc', rfl⟩ := List.mem_map.1 hc
  have ho := h.ok c' hc'
  refine ⟨ho.id, by simpa using ho.vars, ?_, ?_, ?_⟩
  · simp only [List.map_map]; exact ho.varIds
  · simp only [List.map_map]; exact ho.names
  · intro w hw
    obtain ⟨w', hw', rfl⟩ := List.mem_map.1 hw
    have hv := ho.ok w' hw'
    have := hf w'.mons hv.monIds hv.monKeys hv.monLt
    exact ⟨hv.id, hv.attrs, hv.attrIds, hv.types, hv.attrLt, this.1, this.2.1, this.2.2⟩

theorem okDb_clear {db : DB} (i : Nat) (p : Bool) (h : OkDb db) : OkDb (clearMonitor i p db) := by
  refine okDb_onMons h (fun l h1 h2 h3 => ?_)
  have hs : List.Sublist (l.filter (fun m => !(decide (m.id = i) && (p || decide (m.mon.cfg = .custom))))) l :=
    List.filter_sublist
  exact ⟨h1.sublist (hs.map _), h2.sublist ((hs.filter _).map _), fun m hm => h3 m (hs.subset hm)⟩

/-- A new reference value. -/
def refMon (i : Nat) (r : Str) (m : DMon) : DMon :=
  if m.id = i then { m with mon := { m.mon with ref := some r } } else m

theorem refMon_facts (i : Nat) (r : Str) (m : DMon) : (refMon i r m).id = m.id ∧
    (refMon i r m).visible = m.visible ∧ (refMon i r m).mon.mkey = m.mon.mkey := by
  unfold refMon; split <;> exact ⟨rfl, rfl, rfl⟩

theorem okDb_reference {db : DB} (i : Nat) (r : Str) (h : OkDb db) : OkDb (setReference i r db) := by
  refine okDb_onMons h (fun l h1 h2 h3 => ?_)
  have e : (fun m : DMon => if m.id = i then { m with mon := { m.mon with ref := some r } } else m)
      = refMon i r := rfl
  rw [e]
  refine ⟨?_, ?_, ?_⟩
  · rw [List.map_map]
    rw [List.map_congr_left (f := DMon.id ∘ refMon i r) (g := DMon.id) (fun a _ => (refMon_facts i r a).1)]
    exact h1
  · have : vkeys monSync DMon.visible (l.map (refMon i r)) = vkeys monSync DMon.visible l := by
      unfold vkeys
      rw [List.filter_map, List.map_map]
      have : l.filter (DMon.visible ∘ refMon i r) = l.filter DMon.visible :=
        List.filter_congr (fun m _ => (refMon_facts i r m).2.1)
      rw [this]
      exact List.map_congr_left (fun m _ => (refMon_facts i r m).2.2)
    rw [this]; exact h2
  · intro m hm
    obtain ⟨m', hm', rfl⟩ := List.mem_map.1 hm
    rw [(refMon_facts i r m').1]; exact h3 m' hm'

theorem okDb_exec {db : DB} {o : Op} (ho : o.Tidy) (h : OkDb db) : OkDb (o.exec db) := by
  cases o with
  | start cfg => exact okDb_init ho h
  | interrupted cfg gone => exact h.filter _
  | set k v t value src => exact okDb_set k v t value src h
  | addMonitor k v m => exact okDb_addMonitor k v m h
  | clearMonitor i p => exact okDb_clear i p h
  | reference i r => exact okDb_reference i r h

theorem okDb_empty : OkDb emptyDb := ⟨by simp [emptyDb], by simp [emptyDb], by simp [emptyDb]⟩

theorem okDb_execs {ops : List Op} : ∀ {db : DB}, (∀ o ∈ ops, o.Tidy) → OkDb db → OkDb (exec ops db) := by
  induction ops with
  | nil => intro db _ h; exact h
  | cons o r ih =>
    intro db ht h
    exact ih (fun o' h' => ht o' (by simp [h'])) (okDb_exec (ht o (by simp)) h)

theorem okDb_reachable {db : DB} (h : Reachable db) : OkDb db := by
  obtain ⟨ops, ht, rfl⟩ := h
  exact okDb_execs ht okDb_empty

end Verif.InitDb
