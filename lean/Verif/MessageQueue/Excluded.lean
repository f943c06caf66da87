import Verif.MessageQueue.Taken
import Verif.Wire.EnumTheorems
import Verif.DeviceModel.Text

/-!
# Message types that are not to be queued (C256)

The setting `MessageTypesDiscardForQueueing` and what it means for the messages that are handed to the queue.
-/

namespace Verif.MQ

open Verif.DM (Str splitLoop splitString Piece)
open Verif.Wire (EnumTable)

/-- The types of messages: of OCPP 2.x (`lib/ocpp/v2/types.cpp` l.377-916) or of OCPP 1.6 (`lib/ocpp/v16/types.cpp` l.182-419). -/
def messageTypes (v2 : Bool) : EnumTable := if v2 then Wire.e_v2_MessageType else Wire.e_v16_MessageType

/-- `conversions::string_to_messagetype`; `none` is `StringToEnumException`. -/
def typeNamed (v2 : Bool) (x : Str) : Option String := (messageTypes v2).read (String.ofList x)

/-- The messages of a type, as far as the queue distinguishes them (`lib/ocpp/v16/message_queue.cpp` l.20-38, `lib/ocpp/v2/message_queue.cpp` l.9-31);
the types it does not distinguish are numbered as they are declared. -/
def kindsOf (v2 : Bool) (t : String) : List Kind :=
  if t = "BootNotification" then [.boot]
  else if t = "SecurityEventNotification" then [.secEvent]
  else if v2 = true ∧ t = "TransactionEvent" then [.txUpdate, .txOther]
  else if v2 = false ∧ t = "StartTransaction" then [.txStart]
  else if v2 = false ∧ t = "MeterValues" then [.txUpdate]
  else if v2 = false ∧ t = "StopTransaction" then [.txOther]
  else [.normal ((messageTypes v2).decl.idxOf t)]

/-- `std::transform` with an inserter and a conversion that throws (`lib/ocpp/v16/charge_point_impl.cpp` l.270-272, `lib/ocpp/v2/charge_point.cpp`
l.504-506): the types that were inserted before the first name that is none stay in the set. -/
def readTypes (v2 : Bool) : List Str → List String
  | [] => []
  | x :: r =>
    match typeNamed v2 x with
    | none => []
    | some t => t :: readTypes v2 r

/-- `message_types_discard_for_queueing` (`lib/ocpp/v16/charge_point_impl.cpp` l.263-281, `lib/ocpp/v2/charge_point.cpp` l.497-513) for a value of
the setting, or none.  The set is a list of the messages of these types. -/
def discards (v2 : Bool) (value : Option Str) : List Kind :=
  match value with
  | none => []
  | some l => (readTypes v2 (splitString l)).flatMap (kindsOf v2)

/-- The configuration the queue is made with (`lib/ocpp/v16/charge_point_impl.cpp` l.283-289, `lib/ocpp/v2/charge_point.cpp` l.515-526); the other
settings are those of `c`. -/
def Cfg.with (c : Cfg) (value : Option Str) : Cfg := { c with discard := discards c.v2 value }

/-! ## Specification -/

/-- Every name of the comma separated list is the name of a type of messages. -/
def AllNames (v2 : Bool) (l : Str) : Prop := ∀ x, Piece x l → typeNamed v2 x ≠ none

/-- The text `x` is a name of the list, and so are all names before it names of types of messages: up to it, and the comma after it or the end, the
list names only types of messages. -/
def NamedBefore (v2 : Bool) (x l : Str) : Prop :=
  ∃ pre rest, l = pre ++ rest ∧ (rest = [] ∨ ∃ p, pre = p ++ [',']) ∧ Piece x pre ∧ AllNames v2 pre

/-! ## Proofs -/

theorem splitLoop_comma (a b : Str) : ∀ cur, splitLoop cur (a ++ ',' :: b) = splitLoop cur (a ++ [',']) ++ splitLoop [] b := by
  induction a with
  | nil => intro cur; simp [splitLoop]
  | cons c a ih =>
    intro cur
    simp only [List.cons_append, splitLoop]
    split
    · rw [ih]; rfl
    · rw [ih]

/-- The pieces up to some point are the pieces of a beginning of the text. -/
theorem split_prefix : ∀ (s cur : Str) (a b : List Str), splitLoop cur s = a ++ b → a ≠ [] →
    ∃ pre rest, s = pre ++ rest ∧ (rest = [] ∨ ∃ p, pre = p ++ [',']) ∧ splitLoop cur pre = a := by
  intro s
  induction s with
  | nil =>
    intro cur a b h ha
    refine ⟨[], [], rfl, Or.inl rfl, ?_⟩
    unfold splitLoop at h ⊢
    split at h
    · cases a with
      | nil => exact absurd rfl ha
      | cons x r => cases h
    · rename_i hc
      rw [if_neg hc]
      cases a with
      | nil => exact absurd rfl ha
      | cons x r =>
        simp only [List.cons_append, List.cons.injEq] at h
        obtain ⟨h1, h2⟩ := h
        rw [h1]
        have : r = [] := by cases r with | nil => rfl | cons y q => cases h2
        rw [this]
  | cons c s ih =>
    intro cur a b h ha
    rw [splitLoop] at h
    by_cases hc : c = ','
    · rw [if_pos hc] at h
      cases a with
      | nil => exact absurd rfl ha
      | cons x r =>
        simp only [List.cons_append, List.cons.injEq] at h
        by_cases hr : r = []
        · refine ⟨[c], s, rfl, Or.inr ⟨[], by rw [hc]; rfl⟩, ?_⟩
          rw [splitLoop, if_pos hc, h.1, hr]
          rfl
        · obtain ⟨pre, rest, h1, h2, h3⟩ := ih [] r b h.2 hr
          refine ⟨c :: pre, rest, by rw [h1]; rfl, ?_, ?_⟩
          · rcases h2 with h2 | ⟨p, h2⟩
            · exact Or.inl h2
            · exact Or.inr ⟨c :: p, by rw [h2]; rfl⟩
          · rw [splitLoop, if_pos hc, h3, h.1]
    · rw [if_neg hc] at h
      obtain ⟨pre, rest, h1, h2, h3⟩ := ih _ a b h ha
      refine ⟨c :: pre, rest, by rw [h1]; rfl, ?_, ?_⟩
      · rcases h2 with h2 | ⟨p, h2⟩
        · exact Or.inl h2
        · exact Or.inr ⟨c :: p, by rw [h2]; rfl⟩
      · rw [splitLoop, if_neg hc, h3]

theorem mem_readTypes (v2 : Bool) (t : String) : ∀ l : List Str, t ∈ readTypes v2 l ↔
    ∃ a b x, l = a ++ b ∧ x ∈ a ∧ typeNamed v2 x = some t ∧ ∀ y ∈ a, typeNamed v2 y ≠ none := by
  intro l
  induction l with
  | nil =>
    refine ⟨fun h => (by cases h), ?_⟩
    rintro ⟨a, b, x, h, hx, _⟩
    cases a with
    | nil => cases hx
    | cons => cases h
  | cons z l ih =>
    rw [readTypes]
    cases hz : typeNamed v2 z with
    | none =>
      refine ⟨fun h => (by cases h), ?_⟩
      rintro ⟨a, b, x, h, hx, _, hy⟩
      cases a with
      | nil => cases hx
      | cons w a =>
        simp only [List.cons_append, List.cons.injEq] at h
        exact absurd (h.1 ▸ hz) (hy w (List.mem_cons_self ..))
    | some u =>
      dsimp only
      rw [List.mem_cons, ih]
      constructor
      · rintro (h | ⟨a, b, x, h1, h2, h3, h4⟩)
        · refine ⟨[z], l, z, rfl, List.mem_singleton_self _, by rw [hz, h], ?_⟩
          intro y hy
          rw [List.mem_singleton.mp hy, hz]
          simp
        · refine ⟨z :: a, b, x, by rw [h1]; rfl, List.mem_cons_of_mem _ h2, h3, ?_⟩
          intro y hy
          rcases List.mem_cons.mp hy with hy | hy
          · rw [hy, hz]; simp
          · exact h4 y hy
      · rintro ⟨a, b, x, h1, h2, h3, h4⟩
        cases a with
        | nil => cases h2
        | cons w a =>
          simp only [List.cons_append, List.cons.injEq] at h1
          obtain ⟨h1, h1'⟩ := h1
          rcases List.mem_cons.mp h2 with h2 | h2
          · left
            rw [h2, ← h1, hz] at h3
            exact (Option.some.inj h3).symm
          · exact Or.inr ⟨a, b, x, h1', h2, h3, fun y hy => h4 y (List.mem_cons_of_mem _ hy)⟩

theorem named_inj (v2 : Bool) {x y : Str} {t : String} (hx : typeNamed v2 x = some t) (hy : typeNamed v2 y = some t) : x = y := by
  have hinv : ∀ s v, (messageTypes v2).read s = some v → (messageTypes v2).write v = some s := by
    cases v2
    · exact fun s v h => (Wire.C49_messageType16_partial.2 s v h).2
    · exact fun s v h => ((Wire.C49_partial Wire.e_v2_MessageType (by decide +kernel) (by decide +kernel)).2 s v h).2
  have h := (hinv _ _ hx).symm.trans (hinv _ _ hy)
  exact String.ofList_injective (Option.some.inj h)

theorem named_decl (v2 : Bool) {x : Str} {t : String} (hx : typeNamed v2 x = some t) : t ∈ (messageTypes v2).decl := by
  have h := Wire.lookup_mem hx
  have hall : ∀ v, ((messageTypes v).fromS.all fun p => (messageTypes v).decl.contains p.2) = true := by decide +kernel
  have := List.all_eq_true.mp (hall v2) _ h
  simpa using this

/-- The messages of two types are different. -/
theorem kinds_disjoint (v2 : Bool) {t u : String} (ht : t ∈ (messageTypes v2).decl) {k : Kind} (h1 : k ∈ kindsOf v2 t)
    (h2 : k ∈ kindsOf v2 u) : t = u := by
  unfold kindsOf at h1 h2
  repeat' split at h1
  all_goals repeat' split at h2
  all_goals simp only [List.mem_cons, List.mem_nil_iff, or_false] at h1 h2
  all_goals first
    | (subst h1; cases h2; done)
    | (rcases h1 with h1 | h1 <;> subst h1 <;> simp at h2; done)
    | (simp_all; done)
    | skip
  all_goals
    rw [h1] at h2
    exact (List.idxOf_inj ht).mp (Kind.normal.inj h2)

/-- Which messages are excluded. -/
theorem mem_discards (v2 : Bool) (l x : Str) {t : String} (hx : typeNamed v2 x = some t) {k : Kind} (hk : k ∈ kindsOf v2 t) :
    k ∈ discards v2 (some l) ↔ NamedBefore v2 x l := by
  show k ∈ (readTypes v2 (splitString l)).flatMap (kindsOf v2) ↔ _
  rw [List.mem_flatMap]
  constructor
  · rintro ⟨u, hu, hku⟩
    obtain ⟨a, b, y, h1, h2, h3, h4⟩ := (mem_readTypes v2 u _).mp hu
    have htu : t = u := kinds_disjoint v2 (named_decl v2 hx) hk hku
    have hyx : y = x := named_inj v2 (htu ▸ h3) hx
    obtain ⟨pre, rest, e1, e2, e3⟩ := split_prefix l [] a b h1 (List.ne_nil_of_mem h2)
    refine ⟨pre, rest, e1, e2, ?_, ?_⟩
    · rw [← DM.mem_split, ← hyx]
      show y ∈ splitLoop [] pre
      rw [e3]; exact h2
    · intro z hz
      rw [← DM.mem_split] at hz
      have hz' : z ∈ splitLoop [] pre := hz
      rw [e3] at hz'
      exact h4 z hz'
  · rintro ⟨pre, rest, e1, e2, e3, e4⟩
    refine ⟨t, (mem_readTypes v2 t _).mpr ?_, hk⟩
    refine ⟨splitString pre, (if rest = [] then [] else splitString rest), x, ?_, (DM.mem_split x pre).mpr e3, hx, ?_⟩
    · rcases e2 with e2 | ⟨p, e2⟩
      · rw [if_pos e2, e1, e2, List.append_nil, List.append_nil]
      · by_cases hr : rest = []
        · rw [if_pos hr, e1, hr, List.append_nil, List.append_nil]
        · rw [if_neg hr, e1, e2, List.append_assoc]
          exact splitLoop_comma p rest []
    · intro y hy
      exact e4 y ((DM.mem_split y pre).mp hy)

theorem allNames_before {v2 : Bool} {l : Str} (h : AllNames v2 l) (x : Str) : NamedBefore v2 x l ↔ Piece x l := by
  constructor
  · rintro ⟨pre, rest, e1, e2, e3, -⟩
    rcases e2 with e2 | ⟨p, e2⟩
    · rw [e1, e2, List.append_nil]; exact e3
    · obtain ⟨a, b, f1, f2, f3, f4⟩ := e3
      refine ⟨a, b ++ rest, by rw [e1, f1]; simp, f2, f3, Or.inr ?_⟩
      rcases f4 with ⟨hb, hx⟩ | ⟨q, hq⟩
      · exfalso
        rw [hb, List.append_nil] at f1
        have hlast : x.getLast? = some ',' := by
          have : (a ++ x).getLast? = some ',' := by rw [← f1, e2]; simp
          rw [List.getLast?_append] at this
          cases hg : x.getLast? with
          | none => exact absurd (List.getLast?_eq_none_iff.mp hg) hx
          | some c => rw [hg] at this; simpa using this
        exact f2 (List.mem_of_getLast? hlast)
      · exact ⟨q ++ rest, by rw [hq]; rfl⟩
  · intro hx
    exact ⟨l, [], (List.append_nil _).symm, Or.inl rfl, hx, h⟩

/-! The configuration is kept while the queue lives. -/

theorem fulfil_cfg (s : St) (i : Nat) (off : Bool) : (s.fulfil i off).cfg = s.cfg := by
  unfold St.fulfil
  split <;> rfl

theorem checkSizes_cfg (s : St) : s.checkSizes.cfg = s.cfg := by
  have hu : ∀ n (t : St), (St.dropUpdateLoop n t).cfg = t.cfg := by
    intro n
    induction n with
    | zero => intro t; rfl
    | succ n ih =>
      intro t
      unfold St.dropUpdateLoop
      split
      · dsimp only
        split
        · rfl
        · rw [ih, (evictTx_fields _ _).2.2]
      · rfl
  have hd : ∀ l : List Nat, ∀ t : St, (l.foldl (fun s _ => s.dropFront) t).cfg = t.cfg := by
    intro l
    induction l with
    | nil => intro t; rfl
    | cons a l ih => intro t; rw [List.foldl_cons, ih, dropFront_cfg]
  have hn : ∀ n (t : St), (St.dropNormalLoop n t).cfg = t.cfg := by
    intro n
    induction n with
    | zero => intro t; rfl
    | succ n ih =>
      intro t
      unfold St.dropNormalLoop
      split
      · rw [ih]; exact hd _ t
      · rfl
  unfold St.checkSizes
  split
  · rfl
  · dsimp only
    rw [hu, hn]

theorem addNormal_cfg (s : St) (m : Msg) : (s.addNormal m).cfg = s.cfg := by
  unfold St.addNormal
  dsimp only
  rw [checkSizes_cfg]
  dsimp only
  split <;> split <;> rfl

theorem addTx_cfg (s : St) (m : Msg) : (s.addTx m).cfg = s.cfg := by
  unfold St.addTx
  dsimp only
  rw [checkSizes_cfg]
  rfl

theorem pushCall_cfg (s : St) (k : Kind) (a b : Bool) : (s.pushCall k a b).cfg = s.cfg := by
  unfold St.pushCall
  dsimp only
  split
  · rfl
  · split
    · rw [addTx_cfg]; rfl
    · split
      · rw [addNormal_cfg]; rfl
      · rfl

theorem pushCallAsync_cfg (s : St) (k : Kind) (b : Bool) : (s.pushCallAsync k b).cfg = s.cfg := by
  unfold St.pushCallAsync
  dsimp only
  split
  · rw [fulfil_cfg]; rfl
  · split
    · rw [addTx_cfg]; rfl
    · split
      · rw [addNormal_cfg]; rfl
      · rw [fulfil_cfg]; rfl

theorem clearNewMsg_cfg (s : St) : s.clearNewMsg.cfg = s.cfg := by
  unfold St.clearNewMsg
  split <;> rfl

theorem attempt_cfg (s : St) (q : Q) (m : Msg) (ok : Bool) : (s.attempt q m ok).cfg = s.cfg := by
  unfold St.attempt
  dsimp only
  split
  · rw [clearNewMsg_cfg]
    cases q <;> rfl
  · rw [clearNewMsg_cfg]
    show (ite _ _ _ : St).cfg = s.cfg
    split
    · cases q <;> rfl
    · split
      · cases q <;> rfl
      · cases q
        · dsimp only
          split
          · rw [fulfil_cfg]
          · split
            · rw [fulfil_cfg]
            · show (St.fulfil _ _ _).cfg = _
              rw [fulfil_cfg]
        · rfl

theorem worker_cfg (s : St) (ok : Bool) : (s.worker ok).cfg = s.cfg := by
  unfold St.worker
  split
  · rfl
  · split
    · rfl
    · split
      · rfl
      · split
        · rfl
        · dsimp only
          split
          · rfl
          · split
            · split
              · rfl
              · exact attempt_cfg ..
            · exact attempt_cfg ..

theorem handleFail_cfg (s : St) (off : Bool) : (s.handleFail off).cfg = s.cfg := by
  unfold St.handleFail
  split
  · rfl
  · dsimp only
    split
    · split
      · split <;> rfl
      · split
        · rw [fulfil_cfg]; rfl
        · show (St.fulfil _ _ _).cfg = _
          rw [fulfil_cfg]; rfl
    · split
      · rfl
      · split
        · rw [fulfil_cfg]; rfl
        · show (St.fulfil _ _ _).cfg = _
          rw [fulfil_cfg]; rfl

theorem recvResult_cfg (s : St) (u : Nat) : (s.recvResult u).cfg = s.cfg := by
  unfold St.recvResult
  dsimp only
  split
  · rfl
  · split
    · rfl
    · split
      · rw [fulfil_cfg]; rfl
      · show (ite _ _ _ : St).cfg = s.cfg
        split
        · show (St.fulfil _ _ _).cfg = _
          rw [fulfil_cfg]; rfl
        · show (St.fulfil _ _ _).cfg = _
          rw [fulfil_cfg]; rfl

theorem recvError_cfg (s : St) (u : Nat) : (s.recvError u).cfg = s.cfg := by
  unfold St.recvError
  dsimp only
  split
  · rfl
  · split <;> rfl

theorem runError_cfg (s : St) : s.runError.cfg = s.cfg := by
  unfold St.runError
  split
  · rfl
  · rw [handleFail_cfg]

theorem timerFire_cfg (s : St) : s.timerFire.cfg = s.cfg := by
  unfold St.timerFire
  split
  · split <;> rfl
  · rfl

theorem runTimeout_cfg (s : St) : s.runTimeout.cfg = s.cfg := by
  unfold St.runTimeout
  split
  · rfl
  · rw [handleFail_cfg]

theorem resumeNow_cfg (s : St) (c : Nat) : (s.resumeNow c).cfg = s.cfg := by
  unfold St.resumeNow
  split <;> rfl

theorem loadRows_cfg (q : Q) (i : Bool) : ∀ (l : List Row) (s : St), (s.loadRows q i l).cfg = s.cfg := by
  intro l
  induction l with
  | nil => intro s; rfl
  | cons r l ih =>
    intro s
    unfold St.loadRows
    split
    · rw [ih]; rfl
    · cases q <;> rw [ih]

theorem restart_cfg (s : St) (c : Cfg) (i : Bool) : (s.restart c i).cfg = c := by
  unfold St.restart St.load
  dsimp only
  have h1 : ∀ (t : St) (b : Prop) [Decidable b], (if b then { t with newMsg := true } else t).cfg = t.cfg := by
    intro t b _; split <;> rfl
  have h2 : ∀ (t : St) (b : Prop) [Decidable b], (if b then t.db (.clear .normal) else t).cfg = t.cfg := by
    intro t b _; split <;> rfl
  rw [h2, h1, loadRows_cfg, h1, loadRows_cfg]
  rfl

/-- The configurations with which the queue is made anew in an operation are made with this value of the setting. -/
def Op.Uses (value : Option Str) : Op → Prop
  | .run (.restart c _) => ∃ c', c = Cfg.with c' value
  | .crash _ _ c _ => ∃ c', c = Cfg.with c' value
  | _ => True

theorem base_cfg (s : St) (b : BaseOp) (h : ∀ c i, b ≠ .restart c i) :
    (baseStep s b).cfg.discard = s.cfg.discard ∧ (baseStep s b).cfg.v2 = s.cfg.v2 := by
  have key : ∀ t : St, t.cfg = s.cfg → t.cfg.discard = s.cfg.discard ∧ t.cfg.v2 = s.cfg.v2 := fun t h => by rw [h]; exact ⟨rfl, rfl⟩
  cases b with
  | push k st => exact key _ (pushCall_cfg ..)
  | pushAsync k => exact key _ (pushCallAsync_cfg ..)
  | dispatch k t =>
    refine key _ ?_
    show (s.dispatch k t).cfg = _
    unfold St.dispatch
    split
    · exact pushCall_cfg ..
    · exact pushCall_cfg ..
    · rfl
  | dispatchAsync k t =>
    refine key _ ?_
    show (s.dispatchAsync k t).cfg = _
    unfold St.dispatchAsync
    dsimp only
    split
    · exact pushCallAsync_cfg ..
    · rfl
  | worker ok => exact key _ (worker_cfg ..)
  | recvResult u => exact key _ (recvResult_cfg ..)
  | recvError u => exact key _ (recvError_cfg ..)
  | runError => exact key _ (runError_cfg ..)
  | timerFire => exact key _ (timerFire_cfg ..)
  | runTimeout => exact key _ (runTimeout_cfg ..)
  | timeout =>
    refine key _ ?_
    show (ite _ _ _ : St).cfg = _
    split
    · rw [runTimeout_cfg, timerFire_cfg]
    · rfl
  | callError u =>
    refine key _ ?_
    show (s.recvError u).runError.cfg = _
    rw [runError_cfg, recvError_cfg]
  | csmsCall u => exact ⟨rfl, rfl⟩
  | reply u =>
    refine key _ ?_
    show (s.reply u).cfg = _
    unfold St.reply
    dsimp only
    split
    · rfl
    · split <;> rfl
  | resetHold => exact ⟨rfl, rfl⟩
  | pause => exact ⟨rfl, rfl⟩
  | resume d =>
    refine key _ ?_
    show (s.resume d).cfg = _
    unfold St.resume
    dsimp only
    split
    · rfl
    · split
      · rfl
      · rw [resumeNow_cfg]
  | resumeFire c =>
    refine key _ ?_
    show (s.resumeFire c).cfg = _
    unfold St.resumeFire
    split
    · exact resumeNow_cfg ..
    · rfl
  | regStatus a =>
    refine key _ ?_
    show (s.regStatus a).cfg = _
    unfold St.regStatus
    dsimp only
    split <;> rfl
  | notifyFire =>
    refine key _ ?_
    show s.notifyFire.cfg = _
    unfold St.notifyFire
    split
    · split <;> rfl
    · rfl
  | tick d => exact ⟨rfl, rfl⟩
  | stop => exact ⟨rfl, rfl⟩
  | addStopped u t => exact ⟨rfl, rfl⟩
  | addMeterValueId a b =>
    refine key _ ?_
    show (s.addMeterValueId a b).cfg = _
    unfold St.addMeterValueId
    split <;> rfl
  | notifyStart a t =>
    refine key _ ?_
    show (s.notifyStart a t).cfg = _
    unfold St.notifyStart
    split <;> rfl
  | setAttempts n => exact ⟨rfl, rfl⟩
  | setRetryInterval n => exact ⟨rfl, rfl⟩
  | restart c i => exact absurd rfl (h c i)

theorem step_made (value : Option Str) (s : St) (op : Op) (hu : op.Uses value) (hs : s.cfg.discard = discards s.cfg.v2 value) :
    (step s op).cfg.discard = discards (step s op).cfg.v2 value := by
  have hr : ∀ (t : St) (c : Cfg) (i : Bool), (∃ c', c = Cfg.with c' value) →
      (t.restart c i).cfg.discard = discards (t.restart c i).cfg.v2 value := by
    rintro t c i ⟨c', rfl⟩
    rw [restart_cfg]
    rfl
  unfold step
  split
  · split
    · exact hr _ _ _ hu
    · exact hr _ _ _ hu
    · exact hs
  · split
    · rename_i b
      by_cases hb : ∃ c i, b = .restart c i
      · obtain ⟨c, i, rfl⟩ := hb
        exact hr _ _ _ hu
      · obtain ⟨h1, h2⟩ := base_cfg { s with writes := [] } b (fun c i h => hb ⟨c, i, h⟩)
        rw [h1, h2]
        exact hs
    · exact hr _ _ _ hu

theorem run_made (value : Option Str) (ops : List Op) : ∀ s : St, (∀ op ∈ ops, op.Uses value) → s.cfg.discard = discards s.cfg.v2 value →
    (run s ops).cfg.discard = discards (run s ops).cfg.v2 value := by
  induction ops with
  | nil => intro s _ h; exact h
  | cons op ops ih =>
    intro s hu hs
    exact ih (step s op) (fun o ho => hu o (List.mem_cons_of_mem _ ho)) (step_made value s op (hu op (List.mem_cons_self ..)) hs)

/-! ## Theorems -/

/-- **C256**: whatever the value of the setting is and whatever happened before: without a connection, if everything is to be queued, a message whose type
has the name `x` is put into the queue exactly if it concerns a transaction, is a BootNotification, or `x` is not among the names at the
beginning of the list that are names of types. -/
theorem C256_beginning (c : Cfg) (l : Str) (now : Int) (ops : List Op) (hu : ∀ op ∈ ops, op.Uses (some l)) (x : Str) (t : String) (k : Kind)
    (stall : Bool) :
    let s := run (init (c.with (some l)) now) ops
    s.fault = none → s.running = true → s.paused = true → s.resuming = false → s.cfg.queueAll = true →
    typeNamed s.cfg.v2 x = some t → k ∈ kindsOf s.cfg.v2 t →
    (.push s.nextId k ∈ (step s (.run (.push k stall))).trace ↔ k.isTx = true ∨ k = .boot ∨ ¬ NamedBefore s.cfg.v2 x l) := by
  intro s hf hr hp hn hq hx hk
  have hm : s.cfg.discard = discards s.cfg.v2 (some l) := run_made (some l) ops _ hu rfl
  rw [(C254_pushed _ now ops k stall hf).1]
  have hd : k ∈ s.cfg.discard ↔ NamedBefore s.cfg.v2 x l := by
    rw [hm]
    exact mem_discards s.cfg.v2 l x hx hk
  show (s.running = true ∧ (k.isTx = true ∨ k = .boot ∨ s.paused = false ∨ s.resuming = true ∨ (s.cfg.queueAll = true ∧ k ∉ s.cfg.discard))) ↔ _
  rw [hd, hr, hp, hn, hq]
  simp

/-- **C256**, partial: if the list contains only names of types of messages, the types it names are those that are not queued; see `C256_violated`. -/
theorem C256_named_partial (c : Cfg) (l : Str) (now : Int) (ops : List Op) (hu : ∀ op ∈ ops, op.Uses (some l)) (x : Str) (t : String) (k : Kind)
    (stall : Bool) :
    let s := run (init (c.with (some l)) now) ops
    s.fault = none → s.running = true → s.paused = true → s.resuming = false → s.cfg.queueAll = true →
    AllNames s.cfg.v2 l → typeNamed s.cfg.v2 x = some t → k ∈ kindsOf s.cfg.v2 t → k.isTx = false → k ≠ .boot →
    (.push s.nextId k ∈ (step s (.run (.push k stall))).trace ↔ ¬ Piece x l) := by
  intro s hf hr hp hn hq ha hx hk h1 h2
  rw [C256_beginning c l now ops hu x t k stall hf hr hp hn hq hx hk, allNames_before ha, h1]
  simp [h2]

/-- A setting with two names, after a restart. -/
example : let l := "Heartbeat,StatusNotification".toList
    let c : Cfg := { queueAll := true }
    let s := run (init (c.with (some l)) 0) [.run (.restart (c.with (some l)) false)]
    s.fault = none ∧ s.running = true ∧ s.paused = true ∧ s.resuming = false ∧ s.cfg.queueAll = true ∧ s.cfg.v2 = true ∧
    typeNamed true "StatusNotification".toList = some "StatusNotification" ∧ (kindsOf true "StatusNotification").any (fun k => !k.isTx && decide (k ≠ .boot)) = true ∧
    ((splitString l).all fun x => (typeNamed true x).isSome) = true := by
  decide +kernel

/-- **C256** is violated: the list names Heartbeat and StatusNotification with a blank after the comma and then MeterValues; the
MeterValues are queued although they are named (so is the StatusNotification, whose name has a blank before it). -/
theorem C256_violated : ∃ (c : Cfg) (l : Str) (k : Kind), l = "Heartbeat, StatusNotification,MeterValues".toList ∧ c.queueAll = true ∧
    k ∈ kindsOf true "MeterValues" ∧ k.isTx = false ∧ k ≠ .boot ∧ Piece "MeterValues".toList l ∧
    let s := run (init (c.with (some l)) 0) []
    s.fault = none ∧ s.running = true ∧ s.paused = true ∧ .push s.nextId k ∈ (step s (.run (.push k false))).trace := by
  refine ⟨{ queueAll := true }, _, .normal ((messageTypes true).decl.idxOf "MeterValues"), rfl, rfl, by decide +kernel, by decide +kernel, by decide +kernel, ?_, by decide +kernel⟩
  rw [← DM.mem_split]
  decide +kernel

end Verif.MQ
