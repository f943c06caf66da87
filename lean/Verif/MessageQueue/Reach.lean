import Verif.MessageQueue.StepInv

/-! # Induction over histories -/

namespace Verif.MQ

set_option linter.unusedSimpArgs false

def SInv (s : St) : Prop := CInv s.core

theorem SInv.tidy {s : St} (h : SInv s) : Tidy s := by
  have hI := h.inv
  refine ⟨hI.txqNodup, ?_, h.psLt⟩
  intro x hx
  have : x.iid ∈ s.dbT.map Row.iid := by
    rw [show s.dbT.map Row.iid = _ from hI.ids]; simp; right; exact ⟨x, hx, rfl⟩
  obtain ⟨r, hr, he⟩ := List.mem_map.1 this
  rw [← he]; exact hI.lt r hr

theorem SInv.db {s : St} (h : SInv s) : DbInv s.dbN s.dbT s.nextId s.trace := h.inv.crash

theorem RestartFacts.sinv {p s' : St} {cfg ign} (h : RestartFacts p s' cfg ign) : SInv s' := by
  refine ⟨?_, ?_⟩
  · have := h.inv
    simp only [St.core, h.inFlight]; exact this
  · simp [St.core, h.ps]

theorem loadRows_cut (rows : List Row) (s : St) (b : Bool) {dbN0 dbT0 tr0 ws0} (W : List DbWrite)
    (hw : s.writes = W ++ ws0) (hc : Cut dbN0 dbT0 tr0 ws0 s.dbN s.dbT s.nextId) :
    ∃ ws, (s.loadRows .tx b rows).writes = W ++ ws ∧
      Cut dbN0 dbT0 tr0 ws (s.loadRows .tx b rows).dbN (s.loadRows .tx b rows).dbT (s.loadRows .tx b rows).nextId := by
  induction rows generalizing s ws0 with
  | nil => exact ⟨ws0, hw, hc⟩
  | cons r rest ih =>
    unfold St.loadRows
    split
    · refine ih ((s.db (.del .tx r.iid .ignored)).emit (.done r.iid .ignored))
        (ws0 := ws0 ++ [.del .tx r.iid .ignored]) ?_ ?_
      · simp [St.emit, St.db, hw]
      · exact hc.snoc (Nat.le_refl _) (WOk.delTx _ _ _ _ _)
    · exact ih { s with txq := s.txq ++ [r.load] } hw hc

theorem restart_cut (s : St) (cfg : Cfg) (ign : Bool) (h : DbInv s.dbN s.dbT s.nextId s.trace) :
    ∃ ws, (s.restart cfg ign).writes = s.writes ++ ws ∧
      Cut s.dbN s.dbT s.trace ws (s.restart cfg ign).dbN (s.restart cfg ign).dbT (s.restart cfg ign).nextId := by
  unfold St.restart St.load
  have hk : ∀ r ∈ (s.reset cfg).dbN, r.kind.isTx = false := h.dbNKind
  rw [loadRows_normal _ _ _ hk]
  simp only
  generalize hs1 : (if (s.reset cfg).dbN ≠ [] then
      { ({ (s.reset cfg) with nq := (s.reset cfg).nq ++ List.map Row.load (s.reset cfg).dbN } : St) with newMsg := true }
    else { (s.reset cfg) with nq := (s.reset cfg).nq ++ List.map Row.load (s.reset cfg).dbN }) = s1
  have f1 : s1.writes = s.writes ++ [] ∧ s1.dbN = s.dbN ∧ s1.dbT = s.dbT ∧ s1.nextId = s.nextId := by
    rw [← hs1]
    split <;> simp [St.reset]
  obtain ⟨ws, e1, e2⟩ := loadRows_cut s1.dbT s1 ign (dbN0 := s.dbN) (dbT0 := s.dbT) (tr0 := s.trace) (ws0 := [])
    s.writes f1.1 (by rw [f1.2.1, f1.2.2.1, f1.2.2.2]; exact Cut.refl h)
  generalize hs2 : s1.loadRows .tx ign s1.dbT = s2 at *
  have e3 : ∀ s3 : St, s3.writes = s2.writes → s3.dbN = s2.dbN → s3.dbT = s2.dbT → s3.nextId = s2.nextId →
      ∃ ws, (if (!s3.cfg.queueAll) = true then s3.db (.clear .normal) else s3).writes = s.writes ++ ws ∧
        Cut s.dbN s.dbT s.trace ws (if (!s3.cfg.queueAll) = true then s3.db (.clear .normal) else s3).dbN
          (if (!s3.cfg.queueAll) = true then s3.db (.clear .normal) else s3).dbT
          (if (!s3.cfg.queueAll) = true then s3.db (.clear .normal) else s3).nextId := by
    intro s3 a b c d
    split
    · refine ⟨ws ++ [.clear .normal], ?_, ?_⟩
      · simp [St.db, a, e1]
      · simp only [St.db, b, c, d]
        exact e2.snoc (Nat.le_refl _) (WOk.clear _ _ _)
    · exact ⟨ws, by rw [a, e1], by rw [b, c, d]; exact e2⟩
  split
  · exact e3 { s2 with newMsg := true } rfl rfl rfl rfl
  · exact e3 s2 rfl rfl rfl rfl

/-- What a base step other than a restart, or a restart, does to the database before an interruption. -/
theorem baseStep_cut (s : St) (op : BaseOp) (h : SInv s) (hf : s.fault = none) :
    ∃ ws, (baseStep s op).writes = s.writes ++ ws ∧
      Cut s.dbN s.dbT s.trace ws (baseStep s op).dbN (baseStep s op).dbT (baseStep s op).nextId := by
  cases hr : op.isRestart
  · exact cut_micros h (micros_baseStep s op h.tidy hf hr)
  · cases op <;> simp [BaseOp.isRestart] at hr
    exact restart_cut s _ _ h.db

def Op.isCrash : Op → Bool
  | .run _ => false
  | .crash _ _ _ _ => true

/-- `p` is `s` plus the traces of the database writes of an interrupted operation. -/
def Gap (s p : St) (op : Op) : Prop :=
  ∃ es, p.trace = s.trace ++ es ∧ (∀ e ∈ es, (∃ i k, e = .push i k) ∨ ∃ i w, e = .done i w) ∧
    (op.isCrash = false → es = [] ∧ p.dbT = s.dbT)

/-- The two ways a step can look. -/
inductive StepView (s : St) (op : Op) : Prop
  | micros (b : BaseOp) (ho : op = .run b) (hf : s.fault = none) (hr : b.isRestart = false)
      (h : Micros (flagsOf { s with writes := [] } b) ({ s with writes := [] } : St).core (step s op).core)
      (e : step s op = baseStep { s with writes := [] } b)
  | stuck (hf : s.fault.isSome) (h : step s op = s)
  | restart (p : St) (cfg : Cfg) (ign : Bool) (hn : p.now = s.now)
      (hid : s.nextId ≤ p.nextId)
      (ht : Gap s p op)
      (hdb : DbInv p.dbN p.dbT p.nextId p.trace)
      (h : step s op = p.restart cfg ign)
      (hop : ∀ b, op = .run b → b = .restart cfg ign)

theorem writes_ev (w : DbWrite) : ∀ e ∈ w.ev, (∃ i k, e = .push i k) ∨ ∃ i w, e = .done i w := by
  intro e he
  cases w <;> simp [DbWrite.ev] at he
  · left; exact ⟨_, _, he⟩
  · right; exact ⟨_, _, he⟩

theorem stepView (s : St) (op : Op) (h : SInv s) : StepView s op := by
  have h' : SInv { s with writes := [] } := ⟨h.inv, h.psLt⟩
  by_cases hf : s.fault.isSome = true
  · cases op with
    | run b =>
      cases b with
      | restart c i =>
        exact .restart { s with writes := [] } c i rfl (Nat.le_refl _) ⟨[], by simp, by simp, fun _ => ⟨rfl, rfl⟩⟩ h.db (by simp [step, hf]) (by simp)
      | _ => exact .stuck hf (by simp [step, hf])
    | crash b k c i =>
      exact .restart { s with writes := [] } c i rfl (Nat.le_refl _) ⟨[], by simp, by simp, fun _ => ⟨rfl, rfl⟩⟩ h.db (by simp [step, hf]) (by simp)
  · have hf' : s.fault = none := by simpa using hf
    cases op with
    | run b =>
      cases hr : b.isRestart
      · refine .micros b rfl hf' hr ?_ (by simp [step, hf])
        have e : step s (.run b) = baseStep { s with writes := [] } b := by simp [step, hf]
        rw [e]
        exact micros_baseStep _ b h'.tidy hf' hr
      · cases b <;> simp [BaseOp.isRestart] at hr
        rename_i c i
        exact .restart { s with writes := [] } c i rfl (Nat.le_refl _) ⟨[], by simp, by simp, fun _ => ⟨rfl, rfl⟩⟩ h.db (by simp [step, hf, baseStep]) (by simp)
    | crash b k c i =>
      obtain ⟨ws, e1, hc⟩ := baseStep_cut { s with writes := [] } b h' hf'
      simp only [List.nil_append] at e1
      refine .restart (({ s with writes := [], nextId := (baseStep { s with writes := [] } b).nextId } : St).partialWrites
        ((baseStep { s with writes := [] } b).writes.take k)) c i rfl ?_ ?_ ?_ (by simp [step, hf]) (by simp)
      · show s.nextId ≤ (baseStep { s with writes := [] } b).nextId
        cases hr : b.isRestart
        · have hm := micros_baseStep { s with writes := [] } b h'.tidy hf' hr
          have : ∀ {c c' : Core}, Micros (flagsOf { s with writes := [] } b) c c' → c.nextId ≤ c'.nextId := by
            intro c c' hm
            induction hm with
            | refl => exact Nat.le_refl _
            | tail _ h2 ih => exact Nat.le_trans ih (WOk_mono_n h2)
          exact this hm
        · cases b <;> simp [BaseOp.isRestart] at hr
          exact Nat.le_of_eq (restart_facts { s with writes := [] } _ _ h.db).nextId.symm
      · refine ⟨((baseStep { s with writes := [] } b).writes.take k).flatMap DbWrite.ev, rfl, ?_, by simp [Op.isCrash]⟩
        intro e he
        obtain ⟨w, _, hw⟩ := List.mem_flatMap.1 he
        exact writes_ev w e hw
      · rw [e1]; exact hc.good k

theorem step_sinv (s : St) (op : Op) (h : SInv s) : SInv (step s op) := by
  cases stepView s op h with
  | micros b ho hf hr hm => exact CInv.micros (c := ({ s with writes := [] } : St).core) ⟨h.inv, h.psLt⟩ hm
  | stuck hf h2 => rw [h2]; exact h
  | restart p c i hn hid ht hdb h2 hop => rw [h2]; exact (restart_facts p c i hdb).sinv

theorem init_sinv (cfg : Cfg) (now : Int) : SInv (init cfg now) := by
  refine ⟨?_, ?_⟩ <;> simp [init, St.core]
  constructor <;> simp [infTx, infN, txSends, pendingTx, pushIds]

theorem run_snoc (s : St) (ops : List Op) (op : Op) : run s (ops ++ [op]) = step (run s ops) op := by
  simp [run]

/-- Reverse induction over histories. -/
theorem run_induction {P : St → Prop} {ok : Op → Prop} (s : St) (h0 : P s)
    (hstep : ∀ s op, P s → ok op → P (step s op)) :
    ∀ ops : List Op, (∀ op ∈ ops, ok op) → P (run s ops) := by
  intro ops
  induction ops generalizing s with
  | nil => intro _; exact h0
  | cons op ops ih =>
    intro hok
    exact ih (step s op) (hstep s op h0 (hok op (by simp))) (fun o ho => hok o (by simp [ho]))

theorem run_sinv (s : St) (h : SInv s) (ops : List Op) : SInv (run s ops) :=
  run_induction (ok := fun _ => True) s h (fun s op h _ => step_sinv s op h) ops (by simp)

/-- The features an operation of a history uses in state `s`. -/
def opFlags (s : St) : Op → Flags
  | .run b => flagsOf s b
  | .crash _ _ _ _ => Flags.none

/-- Histories all of whose operations satisfy `ok` in the state in which they start. -/
def Along (ok : St → Op → Prop) : St → List Op → Prop
  | _, [] => True
  | s, op :: ops => ok s op ∧ Along ok (step s op) ops

theorem run_along {P : St → Prop} {ok : St → Op → Prop}
    (hstep : ∀ s op, P s → ok s op → P (step s op)) :
    ∀ (ops : List Op) (s : St), P s → Along ok s ops → P (run s ops) := by
  intro ops
  induction ops with
  | nil => intro s h _; exact h
  | cons op ops ih =>
    intro s h0 hok
    exact ih (step s op) (hstep s op h0 hok.1) hok.2

theorem along_of_forall {ok : Op → Prop} {s : St} {ops : List Op} (h : ∀ op ∈ ops, ok op) :
    Along (fun _ => ok) s ops := by
  induction ops generalizing s with
  | nil => trivial
  | cons op ops ih => exact ⟨h op (by simp), ih (fun o ho => h o (by simp [ho]))⟩

theorem along_true (s : St) (ops : List Op) : Along (fun _ _ => True) s ops := by
  induction ops generalizing s with
  | nil => trivial
  | cons op ops ih => exact ⟨trivial, ih _⟩

/-- Induction principle for an invariant `J` of the core. -/
theorem run_core {J : Core → Prop} {fl : Flags} {ok : St → Op → Prop} (hfl : ∀ s op, ok s op → (opFlags s op).Le fl)
    (hws : ∀ c ws, J c → J { c with ws := ws })
    (hm : ∀ c c', CInv c → J c → Micro fl c c' → J c')
    (hr : ∀ (s p s' : St) cfg ign op, ok s op → SInv s → J s.core → Gap s p op →
      RestartFacts p s' cfg ign → (∀ b, op = .run b → b = .restart cfg ign) → J s'.core)
    (s : St) (hs : SInv s) (h0 : J s.core) (ops : List Op) (hok : Along ok s ops) : J (run s ops).core := by
  have : SInv (run s ops) ∧ J (run s ops).core := by
    refine run_along (P := fun s => SInv s ∧ J s.core) (ok := ok) ?_ ops s ⟨hs, h0⟩ hok
    intro s op ⟨hS, hJ⟩ ho
    refine ⟨step_sinv s op hS, ?_⟩
    cases stepView s op hS with
    | micros b hob hf hr' hmm he =>
      have hle : (flagsOf { s with writes := [] } b).Le fl := by
        have := hfl s op ho
        rw [hob] at this
        exact ⟨this.raw, this.att, this.fail, this.mid⟩
      have hmm' := hmm.mono hle
      have hC : CInv ({ s with writes := [] } : St).core := ⟨hS.inv, hS.psLt⟩
      have hJ' : J ({ s with writes := [] } : St).core := hws s.core [] hJ
      revert hC hJ'
      generalize ({ s with writes := [] } : St).core = c0 at hmm'
      generalize (step s op).core = c1 at hmm'
      intro hC hJ'
      have : CInv c1 ∧ J c1 := by
        clear hmm he
        induction hmm' with
        | refl => exact ⟨hC, hJ'⟩
        | tail _ h2 ih => exact ⟨ih.1.micro h2, hm _ _ ih.1 ih.2 h2⟩
      exact this.2
    | stuck hf h2 => rw [h2]; exact hJ
    | restart p c i hn hid ht hdb h2 hop => rw [h2]; exact hr s p _ c i op ho hS hJ ht (restart_facts p c i hdb) hop
  exact this.2

end Verif.MQ
