import Verif.Wire.TypeLemmas
import Verif.Wire.TimeTheorems

/-!
C106: messages and types are read from JSON as they were written.  C107: what is read is a value of the type.
-/

namespace Verif.Wire

theorem good_V2a : typesV2a.all good = true := by decide +kernel
theorem good_V2b : typesV2b.all good = true := by decide +kernel
theorem good_V2c : typesV2c.all good = true := by decide +kernel
theorem good_V16 : typesV16.all good = true := by decide +kernel
theorem good_common : typesCommon.all good = true := by decide +kernel

theorem good_types : ∀ t ∈ types, good t = true := by
  intro t ht
  simp only [types, List.mem_append] at ht
  rcases ht with (((ht | ht) | ht) | ht) | ht
  · exact List.all_eq_true.mp good_V2a t ht
  · exact List.all_eq_true.mp good_V2b t ht
  · exact List.all_eq_true.mp good_V2c t ht
  · exact List.all_eq_true.mp good_V16 t ht
  · exact List.all_eq_true.mp good_common t ht

/-- C106: every value of every struct of the messages of both versions, at any depth of nesting, can be written as JSON, and what was written is read as
that value. -/
theorem C106_partial (dump : J → String) (n : Nat) (s : String) (v : V) (h : Typed types FourDigits n (.struct s) v) :
    ∃ j, enc types rfc3339 n .plain (.struct s) v = some j ∧ dec types rfc3339 dump n .plain (.struct s) j = some v :=
  trip (fun t ht => C108 t ht) good_types n .plain .plain (.struct s) v rfl h

/-- The keys are the names of the members, in all tables but that of `RunningCostChargingPrice`. -/
def keysNamed (t : TypeTable) : Bool :=
  t.toJ.all (fun a => a.key == a.member) && t.fromJ.all (fun a => a.key == a.member) || t.name == "common.RunningCostChargingPrice"

theorem keys_V2a : typesV2a.all keysNamed = true := by decide +kernel
theorem keys_V2b : typesV2b.all keysNamed = true := by decide +kernel
theorem keys_V2c : typesV2c.all keysNamed = true := by decide +kernel
theorem keys_V16 : typesV16.all keysNamed = true := by decide +kernel
theorem keys_common : typesCommon.all keysNamed = true := by decide +kernel

theorem keys_types : ∀ t ∈ types, keysNamed t = true := by
  intro t ht
  simp only [types, List.mem_append] at ht
  rcases ht with (((ht | ht) | ht) | ht) | ht
  · exact List.all_eq_true.mp keys_V2a t ht
  · exact List.all_eq_true.mp keys_V2b t ht
  · exact List.all_eq_true.mp keys_V2c t ht
  · exact List.all_eq_true.mp keys_V16 t ht
  · exact List.all_eq_true.mp keys_common t ht

theorem enc_keys {e : Conv → Base → V → Option J} {ty : Base → V → Prop} {FS : List Field} {L : List (String × V)}
    {fs : List Field} {as bs : List Access} {l : List (String × V)} {ps : List (List (String × J))}
    (hal : aligned fs as bs = true) (hn : (fs.map (·.name)).Nodup) (hm : Members ty fs l) (hk : ∀ a ∈ as, a.key = a.member)
    (hF : ∀ f ∈ fs, FS.find? (fun g => g.name == f.name) = some f) (hL : ∀ f ∈ fs, get L f.name = get l f.name)
    (h : allSome (as.map (encMember e FS L)) = some ps) : ps.flatten.map (·.1) = l.map (·.1) := by
  induction fs generalizing as bs l ps with
  | nil =>
    match as, bs, hal with
    | [], [], _ =>
      simp only [Members] at hm
      subst hm
      simp [allSome] at h
      subst h; rfl
  | cons f fs ih =>
    match as, bs, hal with
    | a :: as, b :: bs, hal =>
      simp only [aligned, Bool.and_eq_true, beq_iff_eq] at hal
      obtain ⟨⟨⟨⟨⟨⟨ham, _⟩, _⟩, hao⟩, _⟩, _⟩, hal⟩ := hal
      simp only [List.map_cons, List.nodup_cons] at hn
      have hff := hF f (List.mem_cons_self ..)
      have hLf := hL f (List.mem_cons_self ..)
      simp only [Members] at hm
      rcases hm with ⟨ho, hm⟩ | ⟨v, r, rfl, hm, _⟩
      · have hnone : get l f.name = none := get_none (fun hk' => hn.1 (hm.names _ hk'))
        have he : encMember e FS L a = some [] := by
          unfold encMember; rw [ham, hff]; simp only [hLf, hnone]; rw [hao, ho]; rfl
        simp only [List.map_cons, he, allSome, Option.map_eq_some_iff] at h
        obtain ⟨ps', hp, rfl⟩ := h
        simpa using ih hal hn.2 hm (fun x hx => hk x (List.mem_cons_of_mem _ hx)) (fun g hg => hF g (List.mem_cons_of_mem _ hg))
          (fun g hg => hL g (List.mem_cons_of_mem _ hg)) hp
      · have hne : ∀ g ∈ fs, f.name ≠ g.name := fun g hg e => hn.1 (e ▸ List.mem_map.mpr ⟨g, hg, rfl⟩)
        have hget : get L f.name = some v := by rw [hLf]; simp [get]
        cases hv : encVal e a f v with
        | none =>
          have he : encMember e FS L a = none := by unfold encMember; rw [ham, hff]; simp only [hget, hv, Option.map_none]
          simp [allSome, he] at h
        | some j =>
          have he : encMember e FS L a = some [(a.key, j)] := by unfold encMember; rw [ham, hff]; simp only [hget, hv, Option.map_some]
          simp only [List.map_cons, he, allSome, Option.map_eq_some_iff] at h
          obtain ⟨ps', hp, rfl⟩ := h
          have := ih hal hn.2 hm (fun x hx => hk x (List.mem_cons_of_mem _ hx)) (fun g hg => hF g (List.mem_cons_of_mem _ hg))
            (fun g hg => by rw [hL g (List.mem_cons_of_mem _ hg)]; simp [get, hne g hg]) hp
          simp [this, hk a (List.mem_cons_self ..), ham]

/-- C106: the object that is written has exactly the members of the value, under their names, and members that are not set have no key. -/
theorem C106_keys (n : Nat) (s : String) (l : List (String × V)) (j : J) (h : Typed types FourDigits n (.struct s) (.struct l))
    (hs : s ≠ "common.RunningCostChargingPrice") (hj : enc types rfc3339 n .plain (.struct s) (.struct l) = some j) :
    ∃ o, j = .obj o ∧ o.map (·.1) = l.map (·.1) := by
  cases n with
  | zero => exact h.elim
  | succ n =>
    obtain ⟨t, hf, hm⟩ := h
    simp only [enc, hf, Option.map_eq_some_iff] at hj
    obtain ⟨ps, hp, rfl⟩ := hj
    have ht := List.mem_of_find?_eq_some hf
    have hname : t.name = s := by simpa using List.find?_some hf
    have hgt := good_types t ht
    simp only [good, Bool.and_eq_true, decide_eq_true_eq] at hgt
    have hk := keys_types t ht
    simp only [keysNamed, Bool.or_eq_true, Bool.and_eq_true, List.all_eq_true, beq_iff_eq] at hk
    rcases hk with hk | hk
    · exact ⟨_, rfl, enc_keys hgt.1.1 hgt.1.2 hm hk.1 (fun f hf => find_name hgt.1.2 hf) (fun _ _ => rfl) hp⟩
    · exact absurd (hname.symm.trans hk) hs

/-- C107: whatever is read as a struct of the messages is a value of it: all members that are not optional are there, every text is within its length,
every integer one of 32 bits, every value of an enumeration a declared one; at any depth. -/
theorem C107_partial (dump : J → String) (n : Nat) (s : String) (j : J) (v : V) (h : dec types rfc3339 dump n .plain (.struct s) j = some v) :
    Typed types (fun _ => True) n (.struct s) v :=
  dec_typed (fun _ _ _ => trivial) good_types n .plain .plain (.struct s) j v rfl h

/-- C107: JSON without a key of a member that is not optional is refused. -/
theorem C107_required (dump : J → String) (n : Nat) (s : String) (j : J) (t : TypeTable) (f : Field) (ht : types.find? (fun t => t.name == s) = some t)
    (hf : f ∈ t.fields) (hopt : f.opt = false) (hj : j.get f.name = none) : dec types rfc3339 dump n .plain (.struct s) j = none := by
  cases n with
  | zero => rfl
  | succ n =>
    have hmem := List.mem_of_find?_eq_some ht
    have hname : t.name = s := by simpa using List.find?_some ht
    have hgt := good_types t hmem
    simp only [good, Bool.and_eq_true, decide_eq_true_eq] at hgt
    obtain ⟨b, hb, hbm, hbo⟩ := aligned_fields hgt.1.1 f hf
    have hkey : b.key = f.name := by
      have hk := keys_types t hmem
      simp only [keysNamed, Bool.or_eq_true, Bool.and_eq_true, List.all_eq_true, beq_iff_eq] at hk
      rcases hk with hk | hk
      · rw [hk.2 b hb, hbm]
      · have : t = t_common_RunningCostChargingPrice := by
          have e : types.find? (fun t => t.name == "common.RunningCostChargingPrice") = some t_common_RunningCostChargingPrice := by decide +kernel
          rw [← hname, hk, e] at ht
          exact (Option.some.inj ht).symm
        subst this
        have : ∀ f ∈ t_common_RunningCostChargingPrice.fields, f.opt = true := by decide
        rw [this f hf] at hopt
        cases hopt
    simp only [dec, ht]
    cases ha : allSome (t.fromJ.map (decMember (dec types rfc3339 dump n) t.fields j)) with
    | none => rfl
    | some ps =>
      obtain ⟨p, _, hdm⟩ := allSome_all ha b hb
      unfold decMember at hdm
      rw [hbm, find_name hgt.1.2 hf] at hdm
      simp [hkey, hj, hbo, hopt] at hdm

/-- C107: keys that are not members do not matter: two objects that agree on the members are read alike. -/
theorem C107_unknown (dump : J → String) (n : Nat) (s : String) (j k : J) (t : TypeTable) (ht : types.find? (fun t => t.name == s) = some t)
    (hs : s ≠ "common.RunningCostChargingPrice") (h : ∀ f ∈ t.fields, j.get f.name = k.get f.name) :
    dec types rfc3339 dump n .plain (.struct s) j = dec types rfc3339 dump n .plain (.struct s) k := by
  cases n with
  | zero => rfl
  | succ n =>
    have hmem := List.mem_of_find?_eq_some ht
    have hname : t.name = s := by simpa using List.find?_some ht
    have hgt := good_types t hmem
    simp only [good, Bool.and_eq_true, decide_eq_true_eq] at hgt
    have hk := keys_types t hmem
    simp only [keysNamed, Bool.or_eq_true, Bool.and_eq_true, List.all_eq_true, beq_iff_eq] at hk
    rcases hk with hk | hk
    · have e : t.fromJ.map (decMember (dec types rfc3339 dump n) t.fields j) = t.fromJ.map (decMember (dec types rfc3339 dump n) t.fields k) := by
        apply List.map_congr_left
        intro b hb
        obtain ⟨f, hf, hbm, _⟩ := aligned_from hgt.1.1 b hb
        unfold decMember
        rw [hk.2 b hb, hbm, h f hf]
      simp only [dec, ht, e]
    · exact absurd (hname.symm.trans hk) hs

/-- An answer with a status, a nested struct with a text and no custom data. -/
def exampleValue : V :=
  .struct [("status", .enum "Accepted"), ("statusInfo", .struct [("reasonCode", .str "Ok"), ("additionalInfo", .str "done")])]

theorem exampleValue_enc : (enc types rfc3339 3 .plain (.struct "v2.ClearCacheResponse") exampleValue).isSome = true := by decide +kernel

theorem find_ClearCacheResponse : types.find? (fun t => t.name == "v2.ClearCacheResponse") = some t_v2_ClearCacheResponse := by decide +kernel
theorem find_StatusInfo : types.find? (fun t => t.name == "v2.StatusInfo") = some t_v2_StatusInfo := by decide +kernel
theorem find_ClearCacheStatusEnum : findEnum "v2.ClearCacheStatusEnum" = some e_v2_ClearCacheStatusEnum := by decide +kernel

/-- The hypothesis of C106 holds for a nested value with a text, an enumeration and members that are not set. -/
example : Typed types FourDigits 3 (.struct "v2.ClearCacheResponse") exampleValue := by
  refine ⟨_, find_ClearCacheResponse, Or.inr ⟨_, _, rfl, Or.inr ⟨_, _, rfl, Or.inl ⟨rfl, rfl⟩, ?_⟩, ?_⟩⟩
  · refine ⟨_, find_StatusInfo, Or.inr ⟨_, _, rfl, Or.inr ⟨_, _, rfl, Or.inl ⟨rfl, rfl⟩, ?_⟩, ?_⟩⟩
    · intro m hm; cases hm; decide
    · intro m hm; cases hm; decide
  · exact ⟨_, find_ClearCacheStatusEnum, by decide⟩

/-- C106: `DisplayMessageContent` is not read as it was written: the text is written under another key than it is read from, so it comes back empty. -/
theorem C106_violated (dump : J → String) :
    (enc [t_common_DisplayMessageContent] rfc3339 2 .plain (.struct "common.DisplayMessageContent") (.struct [("message", .str "0.30 EUR/kWh")])).bind
      (dec [t_common_DisplayMessageContent] rfc3339 dump 2 .plain (.struct "common.DisplayMessageContent")) = some (.struct [("message", .str "")]) := by
  rfl

theorem find_EVSE : types.find? (fun t => t.name == "v2.EVSE") = some t_v2_EVSE := by decide +kernel

/-- C107: a number that does not fit is not refused but read as another one: an EVSE with the id 4294967297 is read as EVSE 1, and so is the id 1.9 and the
id `true`. -/
theorem C107_violated (dump : J → String) :
    dec types rfc3339 dump 2 .plain (.struct "v2.EVSE") (.obj [("id", .int 4294967297)]) = some (.struct [("id", .int 1)]) ∧
    dec types rfc3339 dump 2 .plain (.struct "v2.EVSE") (.obj [("id", .dec (19 / 10))]) = some (.struct [("id", .int 1)]) ∧
    dec types rfc3339 dump 2 .plain (.struct "v2.EVSE") (.obj [("id", .bool true)]) = some (.struct [("id", .int 1)]) := by
  have h1 : truncate (19 / 10) = some 1 := by decide +kernel
  refine ⟨?_, ?_, ?_⟩
  · simp only [dec, find_EVSE]; rfl
  · simp only [dec, find_EVSE]
    simp [t_v2_EVSE, decMember, decVal, J.get, get, dec, h1, allSome, arrange, arrangeOne]
  · simp only [dec, find_EVSE]; rfl

end Verif.Wire
