import Verif.PubKeys.Spec
/-!
C250: the public keys of the meters of an OCPP 1.6 station.
-/
namespace Verif.PubKeys

open Verif.Conf16 (Text bytes Write)

/-! ## Names -/

theorem isDigit_eq (c : Char) : isDigit c = c.isDigit := by
  simp only [isDigit, Char.isDigit]
  have h0 : '0'.toNat = 48 := by decide
  have h9 : '9'.toNat = 57 := by decide
  rw [h0, h9]
  have e : c.toNat = c.val.toNat := rfl
  rw [Bool.eq_iff_iff]
  simp only [decide_eq_true_eq, Bool.and_eq_true, ge_iff_le, UInt32.le_iff_toNat_le]
  rw [e]
  exact Iff.rfl

theorem number_eq (ds : Text) : number ds = ds.foldl (fun a c => 10 * a + (c.toNat - 48)) 0 := rfl

theorem pre_length : pre.length = 15 := by decide

theorem parse_name (ds : Text) (h0 : ds ≠ []) (hd : ∀ c ∈ ds, c.isDigit = true) :
    parseIndex (pre ++ ds ++ [']']) = if number ds < 2 ^ 32 then some (number ds) else none := by
  have hl : (pre ++ ds ++ [']']).length = 15 + ds.length + 1 := by
    rw [List.length_append, List.length_append, pre_length]; rfl
  have hpos : 0 < ds.length := List.length_pos_iff.2 h0
  have hpre : pre.isPrefixOf (pre ++ ds ++ [']']) = true := by
    rw [List.isPrefixOf_iff_prefix]; exact ⟨ds ++ [']'], by simp⟩
  have hlast : (pre ++ ds ++ [']']).drop (15 + ds.length + 1 - 1) = [']'] := by
    have : 15 + ds.length + 1 - 1 = (pre ++ ds).length := by rw [List.length_append, pre_length]; omega
    rw [this, List.drop_left]
  have hmid : ((pre ++ ds ++ [']']).drop 15).take (15 + ds.length + 1 - 15 - 1) = ds := by
    have : 15 + ds.length + 1 - 15 - 1 = ds.length := by omega
    rw [this, List.append_assoc, ← pre_length, List.drop_left, List.take_left]
  unfold parseIndex
  rw [hl, pre_length, hlast]
  dsimp only
  rw [hmid, if_neg (by omega), if_neg (by rw [hpre]; decide), if_neg (fun h => h rfl)]
  have he : ds.isEmpty = false := by cases ds with
    | nil => exact absurd rfl h0
    | cons _ _ => rfl
  have ha : ds.all isDigit = true := List.all_eq_true.2 (fun c hc => by rw [isDigit_eq]; exact hd c hc)
  rw [he, ha, if_neg (by decide), if_neg (by decide)]
  by_cases hn : number ds < 2 ^ 32
  · rw [if_neg (by omega), if_neg (by omega), if_pos hn]
  · rw [if_neg hn]
    split
    · rfl
    · rw [if_pos (by omega)]

/-- The names of public keys: exactly MeterPublicKey[k] with the number in decimal digits, below 2^32. -/
theorem C250_names (t : Text) (k : Nat) : parseIndex t = some k ↔ IsName t k ∧ k < 2 ^ 32 := by
  constructor
  · intro h
    unfold parseIndex at h
    split at h
    · cases h
    rename_i hlen
    split at h
    · cases h
    rename_i hp
    split at h
    · cases h
    rename_i hs
    dsimp only at h
    split at h
    · cases h
    rename_i he
    split at h
    · cases h
    rename_i ha
    split at h
    · cases h
    split at h
    · cases h
    rename_i hn
    have hp : pre.isPrefixOf t = true := by
      cases hh : pre.isPrefixOf t with
      | true => rfl
      | false => exact absurd hh hp
    obtain ⟨r, hr⟩ := List.isPrefixOf_iff_prefix.1 hp
    have hs : t.drop (t.length - 1) = [']'] := Decidable.of_not_not hs
    subst hr
    rw [pre_length] at hlen
    have hl : (pre ++ r).length = 15 + r.length := by rw [List.length_append, pre_length]
    rw [hl] at hlen hs
    have hrr : r = r.take (r.length - 1) ++ [']'] := by
      have h1 : (pre ++ r).drop (15 + r.length - 1) = r.drop (r.length - 1) := by
        have : 15 + r.length - 1 = pre.length + (r.length - 1) := by rw [pre_length]; omega
        rw [this, List.drop_append]
        simp
      rw [h1] at hs
      rw [← hs, List.take_append_drop]
    have hm : ((pre ++ r).drop pre.length).take ((pre ++ r).length - pre.length - 1) = r.take (r.length - 1) := by
      rw [List.drop_left, hl, pre_length]
      congr 1
      omega
    rw [hm] at he ha h hn
    injection h with h
    subst h
    refine ⟨⟨r.take (r.length - 1), ?_, ?_, ?_, rfl⟩, by omega⟩
    · intro e
      rw [e] at he
      exact he rfl
    · intro c hc
      rw [← isDigit_eq]
      have ha' : (r.take (r.length - 1)).all isDigit = true := by
        cases hh : (r.take (r.length - 1)).all isDigit with
        | true => rfl
        | false => exact absurd hh ha
      exact List.all_eq_true.1 ha' c hc
    · rw [List.append_assoc]
      show pre ++ r = pre ++ (r.take (r.length - 1) ++ [']'])
      rw [← hrr]
  · rintro ⟨⟨ds, h0, hd, rfl, hk⟩, hlt⟩
    have := parse_name ds h0 hd
    rw [number_eq, hk, if_pos hlt] at this
    exact this

theorem keyName_isName (k : Nat) : IsName (keyName k) k := by
  refine ⟨decimal k, Nat.toDigits_ne_nil, fun c hc => Nat.isDigit_of_mem_toDigits (by omega) (by omega) hc, rfl, ?_⟩
  have := Nat.ofDigitChars_toDigits (b := 10) (n := k) (by omega) (by omega)
  exact this

/-! ## Histories -/

/-- The state after a history with a working disk: nothing set yet, or an array that is in the file as well, with the values `f`. -/
def Inv (n : Nat) (base : Option (List Text)) (f : Nat → Text) (any : Prop) (s : St) : Prop :=
  s.n = n ∧ s.base = base ∧
  ((¬ any ∧ s.user = some none ∧ s.cfg = base ∧ ∀ c, 1 ≤ c → c ≤ n → f c = before base c)
   ∨ (any ∧ ∃ l, s.cfg = some l ∧ s.user = some (some l) ∧ n ≤ l.length ∧ ∀ c, 1 ≤ c → c ≤ n → l.getD (c - 1) [] = f c))

theorem prepared_base {n : Nat} {base : Option (List Text)} (hf : BaseFits n base) (s : St) (hn : s.n = n) (hc : s.cfg = base) :
    n ≤ (prepared s).length ∧ ∀ c, 1 ≤ c → c ≤ n → (prepared s).getD (c - 1) [] = before base c := by
  unfold prepared before
  rw [hc]
  cases hb : base with
  | none => exact ⟨by simp [hn], fun c _ _ => by simp only [List.getD_eq_getElem?_getD, List.getElem?_replicate]; split <;> rfl⟩
  | some l =>
    cases l with
    | nil => exact ⟨by simp [hn], fun c _ _ => by simp only [List.getD_eq_getElem?_getD, List.getElem?_replicate]; split <;> rfl⟩
    | cons a l =>
      refine ⟨?_, fun c _ _ => rfl⟩
      cases hf _ hb with
      | inl h => cases h
      | inr h => exact h

theorem step_set {n : Nat} {base : Option (List Text)} (hf : BaseFits n base) {f : Nat → Text} {any : Prop} {s : St} (h : Inv n base f any s)
    (c : Int) (key : Text) :
    Inv n base (fun x => if c = (x : Int) then key else f x) (any ∨ (1 ≤ c ∧ c ≤ (n : Int))) (setKey s c key .ok).1 ∧
      (setKey s c key .ok).2 = .val (decide (1 ≤ c ∧ c ≤ (n : Int))) := by
  obtain ⟨hn, hb, h⟩ := h
  by_cases hr : 1 ≤ c ∧ c ≤ (n : Int)
  · have hp : n ≤ (prepared s).length ∧ ∀ c, 1 ≤ c → c ≤ n → (prepared s).getD (c - 1) [] = f c := by
      cases h with
      | inl h =>
        obtain ⟨_, _, h2, h3⟩ := h
        have := prepared_base hf s hn h2
        exact ⟨this.1, fun c h1 h2 => by rw [this.2 c h1 h2, h3 c h1 h2]⟩
      | inr h =>
        obtain ⟨_, l, h1, _, h3, h4⟩ := h
        have : prepared s = l := by
          unfold prepared
          rw [h1]
          cases l with
          | nil =>
            have h0 : n = 0 := by simpa using h3
            omega
          | cons _ _ => rfl
        rw [this]
        exact ⟨h3, h4⟩
    have hu : ∃ u, s.user = some u := by
      cases h with
      | inl h => exact ⟨none, h.2.1⟩
      | inr h => obtain ⟨_, l, _, h2, _⟩ := h; exact ⟨some l, h2⟩
    obtain ⟨u, hu⟩ := hu
    have he : setKey s c key .ok =
        ({ s with cfg := some ((prepared s).set (c.toNat - 1) key), user := some (some ((prepared s).set (c.toNat - 1) key)) }, .val true) := by
      unfold setKey
      rw [if_neg (by omega), if_neg (by omega)]
      unfold store
      simp only [hu]
    rw [he]
    refine ⟨⟨hn, hb, Or.inr ⟨Or.inr hr, _, rfl, rfl, by rw [List.length_set]; exact hp.1, ?_⟩⟩, by simp [hr]⟩
    intro x h1 h2
    show _ = if c = (x : Int) then key else f x
    rw [List.getD_eq_getElem?_getD, List.getElem?_set]
    by_cases hx : c = (x : Int)
    · rw [if_pos (by omega), if_pos (by omega), if_pos hx]; rfl
    · rw [if_neg (by omega), if_neg hx, ← List.getD_eq_getElem?_getD]
      exact hp.2 x h1 h2
  · have he : setKey s c key .ok = (s, .val false) := by
      unfold setKey
      rw [if_pos (by omega)]
    rw [he]
    have hx : ∀ x : Nat, 1 ≤ x → x ≤ n → (if c = (x : Int) then key else f x) = f x := fun x h1 h2 => if_neg (by omega)
    refine ⟨⟨hn, hb, ?_⟩, by simp [hr]⟩
    cases h with
    | inl h =>
      refine Or.inl ⟨fun e => e.elim h.1 hr, h.2.1, h.2.2.1, fun x h1 h2 => ?_⟩
      show (if c = (x : Int) then key else f x) = _
      rw [hx x h1 h2, h.2.2.2 x h1 h2]
    | inr h =>
      obtain ⟨ha, l, h1, h2, h3, h4⟩ := h
      refine Or.inr ⟨Or.inl ha, l, h1, h2, h3, fun x g1 g2 => ?_⟩
      show _ = (if c = (x : Int) then key else f x)
      rw [hx x g1 g2, h4 x g1 g2]

theorem step_restart {n : Nat} {base : Option (List Text)} {f : Nat → Text} {any : Prop} {s : St} (h : Inv n base f any s) :
    restart s = some s := by
  obtain ⟨_, hb, h⟩ := h
  unfold restart
  cases h with
  | inl h =>
    obtain ⟨n', b, cf, u⟩ := s
    obtain ⟨_, h1, h2, _⟩ := h
    dsimp only at hb h1 h2 ⊢
    subst hb h1 h2
    rfl
  | inr h =>
    obtain ⟨n', b, cf, u⟩ := s
    obtain ⟨_, l, h1, h2, _⟩ := h
    dsimp only at h1 h2 ⊢
    subst h1 h2
    rfl

theorem inv_congr {n : Nat} {base : Option (List Text)} {f g : Nat → Text} {a b : Prop} {s : St} (h : Inv n base f a s) (hab : a ↔ b)
    (hfg : ∀ c, 1 ≤ c → c ≤ n → f c = g c) : Inv n base g b s := by
  obtain ⟨hn, hb, h⟩ := h
  refine ⟨hn, hb, ?_⟩
  cases h with
  | inl h => exact Or.inl ⟨fun e => h.1 (hab.2 e), h.2.1, h.2.2.1, fun c h1 h2 => by rw [← hfg c h1 h2, h.2.2.2 c h1 h2]⟩
  | inr h =>
    obtain ⟨ha, l, h1, h2, h3, h4⟩ := h
    exact Or.inr ⟨hab.1 ha, l, h1, h2, h3, fun c g1 g2 => by rw [← hfg c g1 g2, h4 c g1 g2]⟩

theorem run_inv {n : Nat} {base : Option (List Text)} (hf : BaseFits n base) (ops : List Op) (hd : DiskWorks ops) :
    ∀ (f : Nat → Text) (any : Prop) (s : St), Inv n base f any s →
      ∃ s', run s ops = some s' ∧ Inv n base (fun c => (lastSet c ops).getD (f c)) (any ∨ AnySet n ops) s' := by
  induction ops with
  | nil =>
    intro f any s h
    refine ⟨s, rfl, inv_congr h ⟨Or.inl, fun e => e.elim id ?_⟩ (fun _ _ _ => rfl)⟩
    rintro ⟨_, _, _, hm, _⟩
    cases hm
  | cons o r ih =>
    intro f any s h
    have hdr : DiskWorks r := fun c key w hm => hd c key w (List.mem_cons_of_mem _ hm)
    cases o with
    | set c key w =>
      have hw : w = .ok := hd c key w List.mem_cons_self
      subst hw
      obtain ⟨s', h1, h2⟩ := ih hdr _ _ _ (step_set hf h c key).1
      refine ⟨s', h1, inv_congr h2 ?_ ?_⟩
      · constructor
        · rintro ((ha | hr) | ⟨c', k', w', hm, hr⟩)
          · exact Or.inl ha
          · exact Or.inr ⟨c, key, .ok, List.mem_cons_self, hr⟩
          · exact Or.inr ⟨c', k', w', List.mem_cons_of_mem _ hm, hr⟩
        · rintro (ha | ⟨c', k', w', hm, hr⟩)
          · exact Or.inl (Or.inl ha)
          · rcases List.mem_cons.1 hm with e | hm
            · injection e with e1 e2 e3
              subst e1
              exact Or.inl (Or.inr hr)
            · exact Or.inr ⟨c', k', w', hm, hr⟩
      · intro x _ _
        show (lastSet x r).getD (if c = (x : Int) then key else f x) = (lastSet x (.set c key .ok :: r)).getD (f x)
        show _ = ((lastSet x r).orElse (fun _ => if c = (x : Int) then some key else none)).getD (f x)
        cases lastSet x r with
        | some v => rfl
        | none => by_cases hc : c = (x : Int) <;> simp [hc]
    | restart =>
      obtain ⟨s', h1, h2⟩ := ih hdr f any s h
      refine ⟨s', ?_, inv_congr h2 ?_ (fun _ _ _ => rfl)⟩
      · show (restart s).bind (run · r) = some s'
        rw [step_restart h]
        exact h1
      · constructor
        · rintro (ha | ⟨c', k', w', hm, hr⟩)
          · exact Or.inl ha
          · exact Or.inr ⟨c', k', w', List.mem_cons_of_mem _ hm, hr⟩
        · rintro (ha | ⟨c', k', w', hm, hr⟩)
          · exact Or.inl ha
          · rcases List.mem_cons.1 hm with e | hm
            · cases e
            · exact Or.inr ⟨c', k', w', hm, hr⟩

theorem init_inv (n : Nat) (base : Option (List Text)) : Inv n base (before base) False (init n base) :=
  ⟨rfl, rfl, Or.inl ⟨fun h => h, rfl, rfl, fun _ _ _ => rfl⟩⟩

/-! ## Reading -/

theorem get_name (env : Env) (s : St) {t : Text} {k : Nat} (ht : IsName t k) (hk : 1 ≤ k) (hlt : k < 2 ^ 32) : get env s t = getPublicKey s k := by
  have hp : parseIndex t = some k := (C250_names t k).2 ⟨ht, hlt⟩
  obtain ⟨ds, _, _, he, _⟩ := ht
  have hpre : pre.isPrefixOf t = true := by
    rw [List.isPrefixOf_iff_prefix]
    exact ⟨ds ++ "]".toList, by rw [he, List.append_assoc]; rfl⟩
  unfold get
  rw [if_pos hpre, hp]
  exact if_neg (by omega)

theorem getConfiguration_one (env : Env) (s : St) (t : Text) :
    getConfiguration env s (some [t]) = match get env s t with
      | .throws => .error
      | .unknown => .result [] [t]
      | .kv x => .result [x] [] := by
  show (match collect env s [t] with
    | some p => Answer.result p.1 p.2
    | none => .error) = _
  simp only [collect]
  cases get env s t <;> rfl

/-- What GetConfiguration reports for the key of connector `c`, however its number is written: the last key set by the application, over all starts of the station;
before that the key of the configuration; unknown if there never was one.  `set_powermeter_public_key` accepts exactly the existing connectors. -/
theorem C250_partial (n : Nat) (base : Option (List Text)) (ops : List Op) (hf : BaseFits n base) (hd : DiskWorks ops) :
    ∃ s, run (init n base) ops = some s ∧
      (∀ c key, (setKey s c key .ok).2 = .val (decide (1 ≤ c ∧ c ≤ (n : Int)))) ∧
      ∀ (env : Env) (c : Nat) (t : Text), 1 ≤ c → c ≤ n → c < 2 ^ 32 → IsName t c →
        ((AnySet n ops ∨ base.getD [] ≠ []) → bytes ((lastSet c ops).getD (before base c)) ≤ 500 →
          ∃ name, IsName name c ∧ getConfiguration env s (some [t]) = .result [⟨name, true, (lastSet c ops).getD (before base c)⟩] []) ∧
        (¬ (AnySet n ops ∨ base.getD [] ≠ []) → getConfiguration env s (some [t]) = .result [] [t]) := by
  obtain ⟨s, h1, h2⟩ := run_inv hf ops hd _ _ _ (init_inv n base)
  refine ⟨s, h1, fun c key => (step_set hf h2 c key).2, ?_⟩
  intro env c t hc1 hc2 hlt ht
  rw [getConfiguration_one, get_name env s ht hc1 hlt]
  obtain ⟨hn, hb, h⟩ := h2
  have key : ∀ l : List Text, s.cfg = some l → n ≤ l.length → l.getD (c - 1) [] = (lastSet c ops).getD (before base c) →
      bytes ((lastSet c ops).getD (before base c)) ≤ 500 →
      ∃ name, IsName name c ∧ (match getPublicKey s c with
        | .throws => Answer.error
        | .unknown => .result [] [t]
        | .kv x => .result [x] []) = .result [⟨name, true, (lastSet c ops).getD (before base c)⟩] [] := by
    intro l hl h3 h4 h5
    refine ⟨keyName c, keyName_isName c, ?_⟩
    unfold getPublicKey
    rw [hl]
    dsimp only
    rw [if_neg (by omega), h4]
    unfold mkKv
    rw [if_neg (by omega)]
  cases h with
  | inl h =>
    obtain ⟨ha, _, hcfg, hv⟩ := h
    have hna : ¬ AnySet n ops := fun e => ha (Or.inr e)
    constructor
    · intro hx h5
      have hx : base.getD [] ≠ [] := hx.resolve_left hna
      cases hbase : base with
      | none => rw [hbase] at hx; exact absurd rfl hx
      | some l =>
        rw [← hbase]
        rw [hbase] at hcfg
        have hll : n ≤ l.length := (hf l hbase).resolve_left (fun e => hx (by rw [hbase, e]; rfl))
        refine key l hcfg hll ?_ h5
        refine Eq.trans ?_ (hv c hc1 hc2).symm
        unfold before
        rw [hbase]
        rfl
    · intro hx
      have : getPublicKey s c = .unknown := by
        unfold getPublicKey
        rw [hcfg]
        cases hbase : base with
        | none => rfl
        | some l =>
          have hl : l = [] := Decidable.of_not_not (fun e => hx (Or.inr (by rw [hbase]; exact e)))
          subst hl
          exact if_pos (Or.inl hc1)
      rw [this]
  | inr h =>
    obtain ⟨ha, l, h3, _, h4, h5⟩ := h
    have hx : AnySet n ops := ha.resolve_left (fun e => e)
    exact ⟨fun _ hby => key l h3 h4 (h5 c hc1 hc2) hby, fun e => absurd (Or.inl hx) e⟩

theorem allFrom_some (l : List Text) : ∀ i, (∀ v ∈ l, bytes v ≤ 500) →
    allFrom i l = some (l.zipIdx i |>.map (fun p => ⟨keyName (p.2 + 1), true, p.1⟩)) := by
  induction l with
  | nil => intro i _; rfl
  | cons v l ih =>
    intro i h
    simp only [allFrom, mkKv]
    rw [if_neg (by have := h v List.mem_cons_self; omega)]
    simp only
    rw [ih (i + 1) (fun v hv => h v (List.mem_cons_of_mem _ hv))]
    rfl

/-- GetConfiguration for all keys reports the other keys and, for each connector, its public key, if none of the keys is longer than 500 bytes. -/
theorem C250_all_partial (n : Nat) (base : Option (List Text)) (ops : List Op) (hf : BaseFits n base) (hd : DiskWorks ops)
    (hbase : ∀ l, base = some l → ∀ v ∈ l, bytes v ≤ 500) (hops : ∀ c key w, Op.set c key w ∈ ops → bytes key ≤ 500) :
    ∃ s, run (init n base) ops = some s ∧ ∀ env : Env, ∃ keys : List Kv,
      getConfiguration env s none = .result (env.before ++ keys ++ env.after) [] ∧
      ((AnySet n ops ∨ base.getD [] ≠ []) → ∀ c : Nat, 1 ≤ c → c ≤ n → ∃ name, IsName name c ∧
        keys[c - 1]? = some ⟨name, true, (lastSet c ops).getD (before base c)⟩) := by
  have hlen : ∀ (ops : List Op) (s s' : St), run s ops = some s' → (∀ c key w, Op.set c key w ∈ ops → bytes key ≤ 500) →
      (∀ l, s.base = some l → ∀ v ∈ l, bytes v ≤ 500) → (∀ l, s.cfg = some l → ∀ v ∈ l, bytes v ≤ 500) →
      (∀ l, s.user = some (some l) → ∀ v ∈ l, bytes v ≤ 500) → ∀ l, s'.cfg = some l → ∀ v ∈ l, bytes v ≤ 500 := by
    intro ops
    induction ops with
    | nil => intro s s' h _ _ hc _; injection h with h; subst h; exact hc
    | cons o r ih =>
      intro s s' h ho hb hc hu
      have hor : ∀ c key w, Op.set c key w ∈ r → bytes key ≤ 500 := fun c key w hm => ho c key w (List.mem_cons_of_mem _ hm)
      cases o with
      | set c key w =>
        have hk : bytes key ≤ 500 := ho c key w List.mem_cons_self
        have hp : ∀ v ∈ prepared s, bytes v ≤ 500 := by
          intro v hv
          unfold prepared at hv
          split at hv
          · rw [(List.mem_replicate.1 hv).2]; decide
          · rw [(List.mem_replicate.1 hv).2]; decide
          · rename_i k l e; exact hc _ e v hv
        have hset : ∀ v ∈ (prepared s).set (c.toNat - 1) key, bytes v ≤ 500 := by
          intro v hv
          rcases List.mem_or_eq_of_mem_set hv with h | h
          · exact hp v h
          · rw [h]; exact hk
        refine ih (setKey s c key w).1 s' h hor ?_ ?_ ?_
        · unfold setKey store
          split
          · exact hb
          · split
            · exact hb
            · split <;> (try split) <;> exact hb
        · unfold setKey store
          split
          · exact hc
          · split
            · intro l e; injection e with e; subst e; exact hp
            · split <;> (try split) <;> (intro l e; injection e with e; subst e; exact hset)
        · unfold setKey store
          split
          · exact hu
          · split
            · exact hu
            · split
              · exact hu
              · split
                · intro l e; injection e with e; injection e with e; subst e; exact hset
                · exact hu
                · intro l e; cases e
      | restart =>
        have h' : (restart s).bind (run · r) = some s' := h
        unfold restart at h'
        cases hus : s.user with
        | none => rw [hus] at h'; cases h'
        | some u =>
          rw [hus] at h'
          refine ih _ s' h' hor hb ?_ (fun l e => hu l (hus.trans e))
          cases u with
          | none => exact hb
          | some l =>
            intro l' e
            have e' : l = l' := by injection e
            subst e'
            exact hu l hus
  obtain ⟨s, h1, h2⟩ := run_inv hf ops hd _ _ _ (init_inv n base)
  have hc := hlen ops (init n base) s h1 hops hbase hbase (by intro l e; cases e)
  refine ⟨s, h1, fun env => ?_⟩
  obtain ⟨hn, hb, h⟩ := h2
  have fin : ∀ l, s.cfg = some l → (∀ c, 1 ≤ c → c ≤ n → n ≤ l.length ∧ l.getD (c - 1) [] = (lastSet c ops).getD (before base c)) →
      ∃ keys : List Kv, getConfiguration env s none = .result (env.before ++ keys ++ env.after) [] ∧
      ∀ c : Nat, 1 ≤ c → c ≤ n → ∃ name, IsName name c ∧ keys[c - 1]? = some ⟨name, true, (lastSet c ops).getD (before base c)⟩ := by
    intro l hl hv
    refine ⟨l.zipIdx.map (fun p => ⟨keyName (p.2 + 1), true, p.1⟩), ?_, ?_⟩
    · show (match getAll env s with
        | some l => Answer.result l []
        | none => .error) = _
      unfold getAll allPublic
      rw [hl]
      simp only [allFrom_some l 0 (hc l hl), Option.map_some]
    · intro c c1 c2
      refine ⟨keyName c, keyName_isName c, ?_⟩
      obtain ⟨hle, hval⟩ := hv c c1 c2
      rw [List.getElem?_map, List.getElem?_zipIdx]
      have hlt : c - 1 < l.length := by omega
      rw [List.getD_eq_getElem?_getD, List.getElem?_eq_getElem hlt] at hval
      rw [List.getElem?_eq_getElem hlt]
      simp only [Option.map_some]
      have e1 : 0 + (c - 1) + 1 = c := by omega
      rw [e1]
      congr 2
  cases h with
  | inl h =>
    obtain ⟨ha, _, hcfg, hv⟩ := h
    have hna : ¬ AnySet n ops := fun e => ha (Or.inr e)
    by_cases hx : base.getD [] ≠ []
    · cases hbs : base with
      | none => rw [hbs] at hx; exact absurd rfl hx
      | some l =>
        rw [← hbs]
        rw [hbs] at hcfg
        have hll : n ≤ l.length := (hf l hbs).resolve_left (fun e => hx (by rw [hbs, e]; rfl))
        obtain ⟨keys, g1, g2⟩ := fin l hcfg (fun c c1 c2 => ⟨hll, by
          refine Eq.trans ?_ (hv c c1 c2).symm
          unfold before
          rw [hbs]
          rfl⟩)
        exact ⟨keys, g1, fun _ => g2⟩
    · refine ⟨[], ?_, fun e => absurd e (fun e => e.elim hna hx)⟩
      show (match getAll env s with
        | some l => Answer.result l []
        | none => .error) = _
      have : allPublic s = some [] := by
        unfold allPublic
        rw [hcfg]
        cases hbs : base with
        | none => rfl
        | some l =>
          have hl : l = [] := Decidable.of_not_not (fun e => hx (by rw [hbs]; exact e))
          subst hl
          rfl
      unfold getAll
      rw [this]
      rfl
  | inr h =>
    obtain ⟨ha, l, h3, _, h4, h5⟩ := h
    obtain ⟨keys, g1, g2⟩ := fin l h3 (fun c c1 c2 => ⟨h4, h5 c c1 c2⟩)
    exact ⟨keys, g1, fun _ => g2⟩

/-! ## Examples and negations -/

def exEnv : Env := ⟨fun _ => none, [⟨"ChargePointModel".toList, true, "M".toList⟩], [⟨"HeartbeatInterval".toList, false, "60".toList⟩]⟩

/-- Two connectors without keys; the second gets two keys with a start in between. -/
def exOps : List Op := [.set 2 "old".toList .ok, .restart, .set 3 "x".toList .ok, .set 2 "new".toList .ok, .restart]

example : BaseFits 2 none ∧ DiskWorks exOps ∧ AnySet 2 exOps ∧ lastSet 2 exOps = some "new".toList ∧
    (run (init 2 none) exOps).map (fun s => getConfiguration exEnv s (some ["MeterPublicKey[2]".toList, "MeterPublicKey[02]".toList, "MeterPublicKey[1]".toList,
        "MeterPublicKey[3]".toList])) =
      some (.result [⟨"MeterPublicKey[2]".toList, true, "new".toList⟩, ⟨"MeterPublicKey[2]".toList, true, "new".toList⟩, ⟨"MeterPublicKey[1]".toList, true, []⟩]
        ["MeterPublicKey[3]".toList]) := by
  refine ⟨?_, ?_, ?_, by decide +kernel, by decide +kernel⟩
  · intro l h; cases h
  · intro c key w h
    simp only [exOps, List.mem_cons, Op.set.injEq, reduceCtorEq, false_or, List.not_mem_nil, or_false] at h
    rcases h with h | h | h <;> exact h.2.2
  · exact ⟨2, "old".toList, .ok, by simp [exOps], by omega, by omega⟩

/-- C250 violated: a public key of 501 characters is accepted for a station with one connector; from then on, also after a start, GetConfiguration without keys is
answered with a CALLERROR (and an InvalidMessages event), so no configuration key is reported. -/
theorem C250_long_violated : ∃ (key : Text) (s : St), (setKey (init 1 none) 1 key .ok).2 = .val true ∧
    run (init 1 none) [.set 1 key .ok, .restart] = some s ∧ ∀ env, getConfiguration env s none = .error ∧
      getConfiguration env s (some ["MeterPublicKey[1]".toList]) = .error := by
  refine ⟨List.replicate 501 'a', ⟨1, none, some [List.replicate 501 'a'], some (some [List.replicate 501 'a'])⟩, by decide +kernel, by decide +kernel, ?_⟩
  have hb : bytes (List.replicate 501 'a') > 500 := by decide +kernel
  intro env
  constructor
  · simp only [getConfiguration, Option.getD_none, getAll, allPublic, allFrom, mkKv, if_pos hb, Option.map_none]
  · rw [getConfiguration_one, get_name env _ (k := 1) ⟨['1'], by decide, by decide, by decide, by decide⟩ (by decide) (by decide)]
    simp only [getPublicKey, mkKv]
    rw [if_neg (by decide)]
    simp only [Nat.sub_self, List.getD_cons_zero, if_pos hb]

/-- C250 violated: other keys are found in any spelling, the key of a meter is not: `meterPublicKey[1]` is unknown. -/
theorem C250_case_violated : ∃ (s : St), run (init 1 none) [.set 1 "key".toList .ok] = some s ∧
    getConfiguration exEnv s (some ["meterPublicKey[1]".toList]) = .result [] ["meterPublicKey[1]".toList] ∧
    getConfiguration exEnv s (some ["MeterPublicKey[1]".toList]) = .result [⟨"MeterPublicKey[1]".toList, true, "key".toList⟩] [] :=
  ⟨_, rfl, by decide +kernel, by decide +kernel⟩

/-- C250 violated: if the configuration of the application has fewer keys than connectors, the key of a further connector is refused. -/
theorem C250_short_violated : (setKey (init 2 (some ["a".toList])) 2 "b".toList .ok).2 = .val false := by decide +kernel

/-- C250 violated: the function answers true although the key cannot be written to the file; the key is lost at the next start. -/
theorem C250_disk_violated : (setKey (init 1 none) 1 "k".toList .fsError).2 = .val true ∧
    ∃ s, run (init 1 none) [.set 1 "k".toList .fsError, .restart] = some s ∧
      getConfiguration exEnv s (some ["MeterPublicKey[1]".toList]) = .result [] ["MeterPublicKey[1]".toList] :=
  ⟨by decide +kernel, _, rfl, by decide +kernel⟩

/-- C250 violated: without space for the file the function answers true as well, and the station does not start again. -/
theorem C250_full_violated : (setKey (init 1 none) 1 "k".toList .full).2 = .val true ∧ run (init 1 none) [.set 1 "k".toList .full, .restart] = none := by
  decide +kernel

end Verif.PubKeys
