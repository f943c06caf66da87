import Verif.Wire.EnumTables

/-!
C49: conversions of enumerations are mutually inverse.
-/

namespace Verif.Wire

/-- What is asked of the conversions: every declared value is written, what is written is read as that value, and nothing else is read: a text that
is read as a value is the text of that value, and that is a declared one. -/
structure Inverse (t : EnumTable) : Prop where
  written : ∀ v ∈ t.decl, ∃ s, t.write v = some s ∧ t.read s = some v
  read : ∀ s v, t.read s = some v → v ∈ t.decl ∧ t.write v = some s

theorem lookup_mem {l : List (String × String)} {k v : String} (h : lookup l k = some v) : (k, v) ∈ l := by
  induction l with
  | nil => simp [lookup] at h
  | cons p r ih =>
    obtain ⟨a, b⟩ := p
    unfold lookup at h
    by_cases ha : a = k
    · subst ha; simp at h; subst h; exact List.mem_cons_self ..
    · simp [ha] at h; exact List.mem_cons_of_mem _ (ih h)

/-- A check over the finite tables that implies `Inverse` for all texts. -/
def check (t : EnumTable) : Bool :=
  t.decl.all (fun v => match t.write v with
    | some s => t.read s == some v
    | none => false) &&
  t.fromS.all (fun p => t.decl.contains p.2 && t.write p.2 == some p.1)

theorem Inverse.of_check {t : EnumTable} (h : check t = true) : Inverse t := by
  unfold check at h
  simp only [Bool.and_eq_true, List.all_eq_true] at h
  refine ⟨?_, ?_⟩
  · intro v hv
    have := h.1 v hv
    cases hw : t.write v with
    | none => simp [hw] at this
    | some s => simp only [hw, beq_iff_eq] at this; exact ⟨s, rfl, this⟩
  · intro s v hr
    have := h.2 (s, v) (lookup_mem hr)
    simp only [List.contains_eq_mem, decide_eq_true_eq, beq_iff_eq] at this
    exact this

/-- The tables but that of the types of messages of OCPP 1.6. -/
def otherEnums : List EnumTable := enums.filter (fun t => t.name != "v16.MessageType")

theorem check_all : otherEnums.all check = true := by decide +kernel

/-- C49: for every enumeration of the library with both conversions, but `MessageType` of OCPP 1.6, they are inverse to each other, for all values and
all texts. -/
theorem C49_partial (t : EnumTable) (h : t ∈ enums) (h16 : t.name ≠ "v16.MessageType") : Inverse t := by
  have : t ∈ otherEnums := List.mem_filter.mpr ⟨h, by simpa using h16⟩
  exact Inverse.of_check (List.all_eq_true.mp check_all t this)

/-- `MessageType` of OCPP 1.6 without the value that cannot be read. -/
def messageType16 : EnumTable := { e_v16_MessageType with decl := e_v16_MessageType.decl.filter (· != "InternalError") }

/-- C49: for the types of messages of OCPP 1.6 the same holds without `InternalError`. -/
theorem C49_messageType16_partial : Inverse messageType16 := Inverse.of_check (by decide +kernel)

/-- A case: all types of messages of OCPP 2 are written and read, for instance a request to reserve. -/
example : e_v2_MessageType ∈ enums ∧ e_v2_MessageType.name ≠ "v16.MessageType" ∧ "ReserveNow" ∈ e_v2_MessageType.decl ∧
    e_v2_MessageType.write "ReserveNow" = some "ReserveNow" := by decide +kernel

/-- C49: `InternalError` of OCPP 1.6 is written, but what is written cannot be read. -/
theorem C49_violated : "InternalError" ∈ e_v16_MessageType.decl ∧ e_v16_MessageType.write "InternalError" = some "InternalError" ∧
    e_v16_MessageType.read "InternalError" = none := by
  decide +kernel

end Verif.Wire
