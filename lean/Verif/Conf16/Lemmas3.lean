import Verif.Conf16.Theorems
/-! Invariants of histories. -/
set_option linter.unusedSimpArgs false

namespace Verif.Conf16

def putKey (n : Text) (x : Val) (m : Maps) : Maps := { m with keys := upd m.keys n x }
def putCust (n : Text) (x : Val) (m : Maps) : Maps := { m with cust := upd m.cust n x }
def putPrices (l : List (Text × J)) (m : Maps) : Maps := { m with price := some l }

/-- What a change does to the station. -/
inductive Shape (env : Env) (s : St) (now : Int) (k t : Text) (w : Write) : St → Prop
  | same : Shape env s now k t w s
  | ask (p : Int) (h0 : profileOf s < p) (h3 : p ≤ 3) : Shape env s now k t w { s with cb := some (.new p) }
  | key (e : Key) (x : Val) (he : e ∈ table) (hk : ciEq k e.name = true) (hp : e.rule ≠ .profile) (hc : check env s now e.rule t = .val x) :
      Shape env s now k t w (store s (putKey e.name x) w).1
  | auth (hk : ciEq k authKey = true) (ht : 8 ≤ bytes t) : Shape env s now k t w (store s (putKey authKey (.text (decode t))) w).1
  | price (l : List (Text × J)) (h : ∀ q ∈ l, q ∈ s.cfg.price.getD [] ∨ env.parse t = some q.2) : Shape env s now k t w (store s (putPrices l) w).1
  | cust (x : Val) (h : s.cfg.cust k ≠ none) (hc : env.customOk (upd s.cfg.cust k x) = true) : Shape env s now k t w (store s (putCust k x) w).1

theorem putPrice_mem {l : List (Text × J)} {lang : Text} {j : J} : ∀ {q : Text × J}, q ∈ putPrice l lang j → q ∈ l ∨ q.2 = j := by
  induction l with
  | nil => intro q hq; simp only [putPrice, List.mem_singleton] at hq; exact .inr (by rw [hq])
  | cons p r ih =>
    intro q hq
    simp only [putPrice] at hq
    split at hq
    · rcases List.mem_cons.mp hq with h | h
      · exact .inr (by rw [h])
      · exact .inl (by simp [h])
    · rcases List.mem_cons.mp hq with h | h
      · exact .inl (by simp [h])
      · rcases ih h with h | h
        · exact .inl (by simp [h])
        · exact .inr h

theorem set_shape {env : Env} {s : St} {now : Int} {k t : Text} {w : Write} : Shape env s now k t w (set env s now k t w).1 := by
  unfold set
  cases hf : table.find? (fun e => ciEq k e.name && e.rule != .none && e.rule != .profile) with
  | some e =>
    have hq := List.find?_some hf
    simp only [Bool.and_eq_true, bne_iff_ne] at hq
    dsimp only
    unfold setKey
    split
    · exact .same
    · cases hc : check env s now e.rule t with
      | no a => exact .same
      | val x => exact .key e x (List.mem_of_find?_eq_some hf) hq.1.1 hq.2 hc
  | none =>
    dsimp only
    split
    · rename_i hk
      unfold setAuthKey
      split
      · rename_i ht
        exact .auth hk ht
      · exact .same
    · split
      · unfold setPrice
        split
        · exact .same
        · dsimp only
          split
          · exact .same
          · cases hp : env.parse t with
            | none => exact .same
            | some j =>
              dsimp only
              split
              · exact .same
              · refine .price _ (fun q hq => ?_)
                rcases putPrice_mem hq with h | h
                · exact .inl h
                · exact .inr (by rw [h]; exact hp)
      · split
        · rename_i hcu
          unfold setCustom
          cases hr : reportCustom env s k with
          | unknown => exact .same
          | throws => exact .same
          | kv a ro b =>
            dsimp only
            split
            · exact .same
            · cases hc : env.customConv k t with
              | none => exact .same
              | some x =>
                dsimp only
                split
                · rename_i hok
                  exact .cust x (by intro h; rw [h] at hcu; cases hcu) hok
                · exact .same
        · split <;> exact .same

theorem ask_shape {env : Env} {s : St} {now : Int} {k t : Text} {w : Write} : Shape env s now k t w (askProfile env s t).1 := by
  unfold askProfile
  cases hs : stoi t with
  | invalid => exact .same
  | range => exact .same
  | val p =>
    dsimp only
    split
    · exact .same
    · split
      · exact .same
      · split
        · exact .same
        · split
          · exact .same
          · split
            · exact .same
            · exact .ask p (by omega) (by omega)

theorem change_shape {env : Env} {s : St} {now : Int} {k t : Text} {w : Write} (hf : Fresh s.cfg) : Shape env s now k t w (change env s now k t w).1 := by
  have hd : Shape env s now k t w (doSet env s now k t w).1 := by
    unfold doSet
    dsimp only
    by_cases hc : (set env s now k t w).2 = .accepted ∧ ciEq k profileKey = true
    · rw [if_pos hc]
      obtain ⟨e, he, hn⟩ := profile_mem
      rw [set_profile hc.2 (fresh_none hf he (hn ▸ hc.2)) ⟨e, he, hn⟩]
      exact ask_shape
    · rw [if_neg hc]
      exact set_shape
  unfold change
  cases get env s k with
  | throws => exact .same
  | kv a ro b =>
    dsimp only
    split
    · exact .same
    · exact hd
  | unknown =>
    dsimp only
    split
    · split
      · exact .same
      · exact hd
    · exact .same

/-! ## The configuration is that of the file -/

def Stored (s : St) : Prop := ∃ u, s.user = some u ∧ s.cfg = merged s.base u

theorem over_upd (f g : Text → Option Val) (n : Text) (x : Val) : over (upd f n x) g = upd (over f g) n x := by
  funext k
  unfold over upd
  split <;> rfl

theorem merged_putKey (b u : Maps) (n : Text) (x : Val) : merged b (putKey n x u) = putKey n x (merged b u) := by
  unfold merged putKey
  dsimp only
  rw [over_upd]

theorem merged_putCust (b u : Maps) (n : Text) (x : Val) : merged b (putCust n x u) = putCust n x (merged b u) := by
  unfold merged putCust
  dsimp only
  rw [over_upd]

theorem merged_putPrices (b u : Maps) (l : List (Text × J)) : merged b (putPrices l u) = putPrices l (merged b u) := rfl

theorem store_stored {s : St} {f : Maps → Maps} (h : Stored s) (hf : ∀ b u, merged b (f u) = f (merged b u)) : Stored (store s f .ok).1 := by
  obtain ⟨u, hu, hc⟩ := h
  rw [store_ok _ hu]
  exact ⟨f u, rfl, by rw [hf, hc]⟩

theorem switch_stored {s : St} {p : Int} (h : Stored s) : Stored (switchTo s p .ok) := by
  unfold switchTo
  obtain ⟨u, h1, h2⟩ := store_stored (f := putKey profileKey (.int p)) h (fun b u => merged_putKey b u _ _)
  exact ⟨u, h1, h2⟩

theorem change_stored {env : Env} {s : St} {now : Int} {k t : Text} (h : Stored s) (hf : Fresh s.cfg) : Stored (change env s now k t .ok).1 := by
  generalize hr : (change env s now k t .ok).1 = r
  have hs := hr ▸ change_shape (env := env) (now := now) (k := k) (t := t) (w := .ok) hf
  cases hs with
  | same => exact h
  | ask p => obtain ⟨u, hu, hc⟩ := h; exact ⟨u, hu, hc⟩
  | key e x => exact store_stored h (fun b u => merged_putKey b u _ _)
  | auth => exact store_stored h (fun b u => merged_putKey b u _ _)
  | price l => exact store_stored h (fun b u => merged_putPrices b u _)
  | cust x => exact store_stored h (fun b u => merged_putCust b u _ _)

theorem fresh_putCust {m : Maps} {k : Text} {x : Val} (h : Fresh m) (hk : m.cust k ≠ none) : Fresh (putCust k x m) := by
  intro n hn
  by_cases hc : n = k
  · subst hc; exact h n hk
  · refine h n ?_
    simpa [putCust, upd, hc] using hn

theorem change_fresh {env : Env} {s : St} {now : Int} {k t : Text} {w : Write} (hf : Fresh s.cfg) : Fresh (change env s now k t w).1.cfg := by
  generalize hr : (change env s now k t w).1 = r
  have hs := hr ▸ change_shape (env := env) (now := now) (k := k) (t := t) (w := w) hf
  cases hs with
  | same => exact hf
  | ask p => exact hf
  | key e x => rw [store_cfg]; exact hf
  | auth => rw [store_cfg]; exact hf
  | price l => rw [store_cfg]; exact hf
  | cust x h => rw [store_cfg]; exact fresh_putCust hf h

theorem stopped_cfg {s : St} {w : Write} : (stoppedConnecting s w).cfg = s.cfg ∨ ∃ p, (stoppedConnecting s w).cfg = putKey profileKey (.int p) s.cfg ∧
    (s.cb = some (.new p) ∨ s.cb = some (.back p)) := by
  unfold stoppedConnecting
  cases hc : s.cb with
  | none => exact .inl rfl
  | some c =>
    cases c with
    | new p => exact .inr ⟨p, by simp only [switchTo, store_cfg]; rfl, .inl rfl⟩
    | back p => exact .inr ⟨p, by simp only [switchTo, store_cfg]; rfl, .inr rfl⟩

theorem stopped_stored {s : St} (h : Stored s) : Stored (stoppedConnecting s .ok) := by
  unfold stoppedConnecting
  cases hc : s.cb with
  | none => exact h
  | some c => cases c <;> exact switch_stored h

theorem info_cases (s : St) (n v : Text) (c : Bool) : information s n v c = s ∨ (c = true ∧ information s n v c = { s with user := none }) ∨
    (c = false ∧ n ∈ infoNames ∧ ∃ u, s.user = some u ∧ information s n v c = { s with
      cfg := putKey n (.text v) s.cfg
      user := some (putKey n (.text v) u) }) := by
  unfold information
  cases hu : s.user with
  | none => exact .inl rfl
  | some u =>
    dsimp only
    split
    · exact .inl rfl
    · rename_i hn
      have hm : n ∈ infoNames := by simpa using hn
      cases c with
      | true => exact .inr (.inl ⟨rfl, rfl⟩)
      | false => exact .inr (.inr ⟨rfl, hm, u, rfl, rfl⟩)

theorem info_stored {s : St} {n v : Text} (h : Stored s) : Stored (information s n v false) := by
  rcases info_cases s n v false with hi | ⟨hc, _⟩ | ⟨_, _, u, hu, hi⟩
  · rw [hi]; exact h
  · cases hc
  · rw [hi]
    obtain ⟨u', hu', hc⟩ := h
    rw [hu] at hu'
    injection hu' with hu'
    subst hu'
    refine ⟨_, rfl, ?_⟩
    show putKey n (.text v) s.cfg = merged s.base (putKey n (.text v) u)
    rw [merged_putKey, hc]

theorem step_stored {env : Env} {s s' : St} {op : Op} (h : Stored s) (hf : Fresh s.cfg) (hw : op.written) (hs : step env s op = some s') :
    Stored s' ∧ Fresh s'.cfg ∧ s'.base = s.base := by
  cases op with
  | change now k t w =>
    simp only [Op.written] at hw
    subst hw
    simp only [step, Option.some.injEq] at hs
    subst hs
    refine ⟨change_stored h hf, change_fresh hf, ?_⟩
    generalize hr : (change env s now k t .ok).1 = r
    have hs := hr ▸ change_shape (env := env) (now := now) (k := k) (t := t) (w := .ok) hf
    cases hs <;> first | rfl | exact store_base _ _ _
  | stopped w =>
    simp only [Op.written] at hw
    subst hw
    simp only [step, Option.some.injEq] at hs
    subst hs
    refine ⟨stopped_stored h, ?_, ?_⟩
    · rcases stopped_cfg (s := s) (w := .ok) with hc | ⟨p, hc, _⟩
      · rw [hc]; exact hf
      · rw [hc]; exact hf
    · unfold stoppedConnecting
      cases hc : s.cb with
      | none => rfl
      | some c => cases c <;> (simp only [switchTo]; exact store_base _ _ _)
  | connected =>
    simp only [step, Option.some.injEq] at hs
    subst hs
    obtain ⟨u, hu, hc⟩ := h
    exact ⟨⟨u, hu, hc⟩, hf, rfl⟩
  | information n v c =>
    simp only [Op.written] at hw
    subst hw
    simp only [step, Option.some.injEq] at hs
    subst hs
    refine ⟨info_stored h, ?_, ?_⟩
    · rcases info_cases s n v false with hi | ⟨hc, _⟩ | ⟨_, _, u, hu, hi⟩
      · rw [hi]; exact hf
      · cases hc
      · rw [hi]; exact hf
    · rcases info_cases s n v false with hi | ⟨hc, _⟩ | ⟨_, _, u, hu, hi⟩
      · rw [hi]
      · cases hc
      · rw [hi]
  | restart =>
    simp only [step, restart] at hs
    obtain ⟨u, hu, hc⟩ := h
    rw [hu] at hs
    dsimp only at hs
    split at hs
    · injection hs with hs
      subst hs
      exact ⟨⟨u, rfl, rfl⟩, hc ▸ hf, rfl⟩
    · cases hs

theorem boot_stored {env : Env} {base user : Maps} {s : St} (h : boot env base user = some s) : Stored s ∧ startOk env s.cfg = true ∧ s.cb = none := by
  unfold boot restart at h
  dsimp only at h
  split at h
  · rename_i hok
    injection h with h
    subst h
    exact ⟨⟨user, rfl, rfl⟩, hok, rfl⟩
  · cases h

theorem run_stored {env : Env} : ∀ {ops : List Op} {s s' : St}, Stored s → Fresh s.cfg → (∀ op ∈ ops, op.written) → run env s ops = some s' →
    Stored s' ∧ Fresh s'.cfg := by
  intro ops
  induction ops with
  | nil =>
    intro s s' h hf _ hr
    simp only [run, Option.some.injEq] at hr
    subst hr
    exact ⟨h, hf⟩
  | cons op r ih =>
    intro s s' h hf hw hr
    simp only [run] at hr
    cases hs : step env s op with
    | none => rw [hs] at hr; cases hr
    | some s1 =>
      rw [hs] at hr
      have := step_stored h hf (hw op (by simp)) hs
      exact ih this.1 this.2.1 (fun o ho => hw o (by simp [ho])) hr

/-! ## The schemas admit the configuration -/

theorem startOk_iff (env : Env) (m : Maps) : startOk env m = true ↔
    (∀ e ∈ table, ∀ v, m.keys e.name = some v → e.ty.ok v = true ∧ (e.rule = .measurands → ∃ t, v = .text t ∧ env.measurandsOk t = true))
    ∧ (∀ v, m.keys authKey = some v → (Ty.str 8 none).ok v = true) ∧ env.customOk m.cust = true ∧ ∀ q ∈ m.price.getD [], q.2.good = true := by
  unfold startOk
  simp only [Bool.and_eq_true, List.all_eq_true, and_assoc]
  refine and_congr ⟨fun h e he v hv => ?_, fun h e he => ?_⟩ (and_congr ⟨fun h v hv => ?_, fun h => ?_⟩ Iff.rfl)
  · have := h e he
    rw [hv] at this
    simp only [Bool.and_eq_true] at this
    refine ⟨this.1, fun hm => ?_⟩
    have h2 := this.2
    rw [if_pos hm] at h2
    cases v <;> simp_all
  · cases hv : m.keys e.name with
    | none => rfl
    | some v =>
      have := h e he v hv
      simp only [Bool.and_eq_true]
      refine ⟨this.1, ?_⟩
      split
      · rename_i hm
        obtain ⟨t, rfl, ht⟩ := this.2 hm
        exact ht
      · rfl
  · rw [hv] at h
    exact h
  · cases hv : m.keys authKey with
    | none => rfl
    | some v => exact h v hv

theorem startOk_putKey {env : Env} {m : Maps} {n : Text} {x : Val} (h : startOk env m = true)
    (h1 : ∀ e ∈ table, e.name = n → e.ty.ok x = true ∧ (e.rule = .measurands → ∃ t, x = .text t ∧ env.measurandsOk t = true))
    (h2 : n = authKey → (Ty.str 8 none).ok x = true) : startOk env (putKey n x m) = true := by
  rw [startOk_iff] at h ⊢
  refine ⟨fun e he v hv => ?_, fun v hv => ?_, h.2.2.1, h.2.2.2⟩
  · by_cases hn : e.name = n
    · simp only [putKey, upd, hn, if_true, Option.some.injEq] at hv
      subst hv
      exact h1 e he hn
    · simp only [putKey, upd, hn, if_false] at hv
      exact h.1 e he v hv
  · by_cases hn : authKey = n
    · simp only [putKey, upd, hn, if_true, Option.some.injEq] at hv
      subst hv
      exact h2 hn.symm
    · simp only [putKey, upd, hn, if_false] at hv
      exact h.2.1 v hv

theorem auth_row {e : Key} (he : e ∈ table) : e.name ≠ authKey := by
  intro h
  have := not_auth he (ciEq_refl e.name)
  rw [h, ciEq_refl] at this
  cases this

theorem str_ok {lo : Nat} {hi : Option Nat} {t : Text} (h : Legal (.str lo hi) t) : (Ty.str lo hi).ok (.text t) = true := by
  obtain ⟨h1, h2⟩ := h
  simp only [Ty.ok, Bool.and_eq_true, decide_eq_true_eq]
  refine ⟨h1, ?_⟩
  cases hi with
  | none => rfl
  | some a => simp only [decide_eq_true_eq]; exact h2 a rfl

/-- What is stored for a key fits the schema. -/
theorem check_ok {env : Env} {s : St} {now : Int} {e : Key} {t : Text} {x : Val} (he : e ∈ table) (h : check env s now e.rule t = .val x)
    (hs : ∀ lo hi, e.ty = .str lo hi → Legal e.ty t) (hj : ∀ j, env.parse t = some j → j.good = true) :
    e.ty.ok x = true ∧ (e.rule = .measurands → ∃ t, x = .text t ∧ env.measurandsOk t = true) := by
  constructor
  · have hfit := facts_of he
    simp only [facts, Bool.and_eq_true] at hfit
    have hfit := hfit.1.1.1.1.1.1.1.1
    have hrd := check_reads he h
    unfold fits at hfit
    cases ht : e.ty with
    | bool =>
      rw [ht] at hrd
      obtain ⟨b, rfl, _⟩ := hrd
      rfl
    | str lo hi =>
      have := hs lo hi ht
      rw [ht] at hrd this
      cases hrd
      exact str_ok this
    | list => rw [ht] at hrd; exact hrd.elim
    | obj =>
      rw [ht] at hrd
      obtain ⟨j, hp, rfl⟩ := hrd
      exact hj j hp
    | int lo hi =>
      rw [ht] at hfit
      cases hr : e.rule <;> rw [hr] at hfit h <;> simp only [Bool.false_eq_true] at hfit <;> simp only [check, orReject] at h
      case none => cases h
      case profile => cases h
      case nat l b =>
        cases hp : positive t with
        | none => rw [hp] at h; cases h
        | some n =>
          rw [hp] at h
          obtain ⟨h1, rfl⟩ := ite_val h
          simp only [Bool.and_eq_true, decide_eq_true_eq] at hfit h1
          simp only [Ty.ok, Bool.and_eq_true]
          constructor
          · cases lo with
            | none => rfl
            | some a => simp only [decide_eq_true_eq] at hfit ⊢; omega
          · cases hi with
            | none => rfl
            | some a =>
              cases b with
              | none => simp at hfit
              | some b => simp only [decide_eq_true_eq] at hfit h1 ⊢; omega
      case phases =>
        simp only [Bool.and_eq_true, beq_iff_eq] at hfit
        rw [hfit.1, hfit.2]
        cases hst : stoi t with
        | val y =>
          rw [hst] at h
          obtain ⟨h1, rfl⟩ := ite_val h
          simp only [decide_eq_true_eq] at h1
          simp only [Ty.ok, Bool.and_eq_true, decide_eq_true_eq]
          omega
        | invalid => rw [hst] at h; cases h
        | range => rw [hst] at h; cases h
  · intro hr
    rw [hr] at h
    simp only [check, orReject] at h
    obtain ⟨h1, rfl⟩ := ite_val h
    exact ⟨t, rfl, h1⟩

def CbOk (s : St) : Prop := ∀ p, s.cb = some (.new p) ∨ s.cb = some (.back p) → 0 ≤ p ∧ p ≤ 3

theorem profile_row_ty {e : Key} (he : e ∈ table) (h : e.name = profileKey) : e.ty = .int (some 0) (some 3) ∧ e.rule = .profile := by
  have hr := (profile_iff he).mpr h
  refine ⟨?_, hr⟩
  have hfit := facts_of he
  simp only [facts, Bool.and_eq_true] at hfit
  have hfit := hfit.1.1.1.1.1.1.1.1
  unfold fits at hfit
  rw [hr] at hfit
  cases ht : e.ty <;> rw [ht] at hfit <;> simp only [Bool.false_eq_true, Bool.and_eq_true, beq_iff_eq] at hfit
  rw [hfit.1, hfit.2]

theorem profile_range {env : Env} {s : St} (h : startOk env s.cfg = true) : 0 ≤ profileOf s ∧ profileOf s ≤ 3 := by
  obtain ⟨e, he, hn⟩ := profile_mem
  have ht := (profile_row_ty he hn).1
  unfold profileOf
  cases hv : s.cfg.keys profileKey with
  | none => simp
  | some v =>
    have := ((startOk_iff _ _).mp h).1 e he v (hn ▸ hv)
    rw [ht] at this
    cases v <;> simp only [Ty.ok, Bool.false_eq_true, false_and, Bool.and_eq_true, decide_eq_true_eq] at this
    · exact this.1

theorem put_profile_ok {env : Env} {m : Maps} {p : Int} (h : startOk env m = true) (h0 : 0 ≤ p) (h3 : p ≤ 3) : startOk env (putKey profileKey (.int p) m) = true := by
  refine startOk_putKey h (fun e he hn => ?_) (fun hn => ?_)
  · have := profile_row_ty he hn
    rw [this.1, this.2]
    simp only [Ty.ok, Bool.and_eq_true, decide_eq_true_eq]
    exact ⟨⟨h0, h3⟩, fun h => by cases h⟩
  · exact absurd hn (by decide)

theorem change_ok {env : Env} {s : St} {now : Int} {k t : Text} {w : Write} (hf : Fresh s.cfg) (h : startOk env s.cfg = true) (hcb : CbOk s)
    (hs : (Op.change now k t w).safe env) : startOk env (change env s now k t w).1.cfg = true ∧ CbOk (change env s now k t w).1 := by
  generalize hr : (change env s now k t w).1 = r
  have hsh := hr ▸ change_shape (env := env) (now := now) (k := k) (t := t) (w := w) hf
  have hcb' : ∀ f, CbOk (store s f w).1 := by intro f p hp; rw [store_cb] at hp; exact hcb p hp
  cases hsh with
  | same => exact ⟨h, hcb⟩
  | ask p h0 h3 =>
    refine ⟨h, fun q hq => ?_⟩
    have := profile_range h
    rcases hq with hq | hq
    · injection hq with hq
      injection hq with hq
      omega
    · injection hq with hq
      cases hq
  | key e x he hk hp hc =>
    refine ⟨?_, hcb' _⟩
    rw [store_cfg]
    refine startOk_putKey h (fun e' he' hn => ?_) (fun hn => absurd hn (auth_row he))
    have : e' = e := key_unique he' he (by rw [hn])
    subst this
    exact check_ok he' hc (hs.1 e' he' (sameName_iff.mpr hk)) hs.2.2
  | auth hk ht =>
    refine ⟨?_, hcb' _⟩
    rw [store_cfg]
    refine startOk_putKey h (fun e' he' hn => absurd hn (auth_row he')) (fun _ => ?_)
    exact str_ok ⟨hs.2.1 (sameName_iff.mpr hk), fun b hb => by cases hb⟩
  | price l hl =>
    refine ⟨?_, hcb' _⟩
    rw [store_cfg]
    rw [startOk_iff] at h ⊢
    refine ⟨h.1, h.2.1, h.2.2.1, fun q hq => ?_⟩
    rcases hl q hq with hq | hq
    · exact h.2.2.2 q hq
    · exact hs.2.2 _ hq
  | cust x hne hc =>
    refine ⟨?_, hcb' _⟩
    rw [store_cfg]
    rw [startOk_iff] at h ⊢
    exact ⟨h.1, h.2.1, hc, h.2.2.2⟩

theorem stopped_ok {env : Env} {s : St} {w : Write} (h : startOk env s.cfg = true) (hcb : CbOk s) :
    startOk env (stoppedConnecting s w).cfg = true ∧ CbOk (stoppedConnecting s w) := by
  constructor
  · rcases stopped_cfg (s := s) (w := w) with hc | ⟨p, hc, hp⟩
    · rw [hc]; exact h
    · rw [hc]; exact put_profile_ok h (hcb p hp).1 (hcb p hp).2
  · unfold stoppedConnecting
    cases hc : s.cb with
    | none => exact hcb
    | some c =>
      have := profile_range h
      cases c <;>
        (intro q hq
         simp only [switchTo, Option.some.injEq, reduceCtorEq, Cb.back.injEq, false_or] at hq
         omega)

/-- The rows of the keys that the application sets are text keys that cannot be changed by requests. -/
theorem info_rows : table.all (fun e => !infoNames.any (· == e.name) || (e.rule == .none && (match e.ty with
    | .str _ _ => true
    | _ => false))) = true := by decide +kernel

theorem info_ok {env : Env} {s : St} {n v : Text} {c : Bool} (h : startOk env s.cfg = true) (hs : (Op.information n v c).safe env) :
    startOk env (information s n v c).cfg = true := by
  rcases info_cases s n v c with hi | ⟨_, hi⟩ | ⟨_, hm, u, hu, hi⟩
  · rw [hi]; exact h
  · rw [hi]; exact h
  · rw [hi]
    refine startOk_putKey h (fun e he hn => ?_) (fun hn => ?_)
    · have hrow := List.all_eq_true.mp info_rows e he
      have hany : infoNames.any (· == e.name) = true := by rw [hn]; simpa using hm
      rw [hany] at hrow
      simp only [Bool.not_true, Bool.false_or, Bool.and_eq_true, beq_iff_eq] at hrow
      have hl := hs e he hn
      cases ht : e.ty with
      | str lo hi =>
        rw [ht] at hl
        exact ⟨str_ok hl, fun hr => by rw [hrow.1] at hr; cases hr⟩
      | _ => rw [ht] at hrow; exact absurd hrow.2 (by simp)
    · rw [hn] at hm
      exact absurd hm (by decide)

/-- Everything that the theorems about histories need. -/
structure Good (env : Env) (s : St) : Prop where
  stored : Stored s
  fresh : Fresh s.cfg
  ok : startOk env s.cfg = true
  cb : CbOk s

theorem step_good {env : Env} {s : St} {op : Op} (h : Good env s) (hw : op.written) (hs : op.safe env) : ∃ s', step env s op = some s' ∧ Good env s' := by
  have hex : ∃ s', step env s op = some s' := by
    cases op with
    | restart =>
      obtain ⟨u, hu, hc⟩ := h.stored
      have := h.ok
      rw [hc] at this
      exact ⟨{ base := s.base, cfg := merged s.base u, user := some u, cb := none }, by simp only [step, restart, hu, this, if_true]⟩
    | _ => exact ⟨_, rfl⟩
  obtain ⟨s', hst⟩ := hex
  have h1 := step_stored h.stored h.fresh hw hst
  refine ⟨s', hst, ⟨h1.1, h1.2.1, ?_, ?_⟩⟩
  · cases op with
    | change now k t w =>
      simp only [step, Option.some.injEq] at hst
      subst hst
      exact (change_ok h.fresh h.ok h.cb hs).1
    | stopped w =>
      simp only [step, Option.some.injEq] at hst
      subst hst
      exact (stopped_ok h.ok h.cb).1
    | connected =>
      simp only [step, Option.some.injEq] at hst
      subst hst
      exact h.ok
    | information n v c =>
      simp only [step, Option.some.injEq] at hst
      subst hst
      exact info_ok h.ok hs
    | restart =>
      obtain ⟨u, hu, hc⟩ := h.stored
      have := h.ok
      rw [hc] at this
      simp only [step, restart, hu, this, if_true, Option.some.injEq] at hst
      subst hst
      exact this
  · cases op with
    | change now k t w =>
      simp only [step, Option.some.injEq] at hst
      subst hst
      exact (change_ok h.fresh h.ok h.cb hs).2
    | stopped w =>
      simp only [step, Option.some.injEq] at hst
      subst hst
      exact (stopped_ok h.ok h.cb).2
    | connected =>
      simp only [step, Option.some.injEq] at hst
      subst hst
      intro p hp
      simp [connected] at hp
    | information n v c =>
      simp only [step, Option.some.injEq] at hst
      subst hst
      have : (information s n v c).cb = s.cb := by
        rcases info_cases s n v c with hi | ⟨_, hi⟩ | ⟨_, _, u, hu, hi⟩ <;> rw [hi]
      intro p hp
      rw [this] at hp
      exact h.cb p hp
    | restart =>
      obtain ⟨u, hu, hc⟩ := h.stored
      have := h.ok
      rw [hc] at this
      simp only [step, restart, hu, this, if_true, Option.some.injEq] at hst
      subst hst
      intro p hp
      simp at hp

theorem boot_good {env : Env} {base user : Maps} {s : St} (h : boot env base user = some s) (hf : Fresh s.cfg) : Good env s := by
  have := boot_stored h
  refine ⟨this.1, hf, this.2.1, ?_⟩
  intro p hp
  rw [this.2.2] at hp
  simp at hp

theorem run_good {env : Env} : ∀ {ops : List Op} {s : St}, Good env s → (∀ op ∈ ops, op.written) → (∀ op ∈ ops, op.safe env) →
    ∃ s', run env s ops = some s' ∧ Good env s' := by
  intro ops
  induction ops with
  | nil => intro s h _ _; exact ⟨s, rfl, h⟩
  | cons op r ih =>
    intro s h hw hs
    obtain ⟨s1, h1, h2⟩ := step_good h (hw op (by simp)) (hs op (by simp))
    obtain ⟨s2, h3, h4⟩ := ih h2 (fun o ho => hw o (by simp [ho])) (fun o ho => hs o (by simp [ho]))
    exact ⟨s2, by simp only [run, h1, h3], h4⟩

end Verif.Conf16
