import Verif.Cert16.Model
/-! C198, C199: checks of certificates and OCSP updates of OCPP 1.6. -/
set_option linter.unusedSimpArgs false

namespace Verif.Cert16

/-! ## The specification -/

/-- The seconds that pass. -/
def seconds (ops : List Op) : Nat := ops.countP (fun o => decide (o = .tick))

/-- `first` seconds after the start and every half day from then on. -/
def Due (first e : Nat) : Prop := first ≤ e ∧ (e - first) % 43200 = 0

instance (first e : Nat) : Decidable (Due first e) := inferInstanceAs (Decidable (_ ∧ _))

/-- What the last news about the certificates say: days until the client certificate expires. -/
def clientDays : Int → List Op → Int
  | d, [] => d
  | _, .days c _ :: ops => clientDays c ops
  | d, _ :: ops => clientDays d ops

/-- … and the V2G certificate. -/
def v2gDays : Int → List Op → Int
  | d, [] => d
  | _, .days _ v :: ops => v2gDays v ops
  | d, _ :: ops => v2gDays d ops

def isClient : Ev → Bool
  | .client _ _ => true
  | _ => false

def isV2g : Ev → Bool
  | .v2g _ _ => true
  | _ => false

def isOcsp : Ev → Bool
  | .ocsp _ => true
  | _ => false

/-! ## Lemmas -/

/-- The timer that was set at `t0` to `t0 + first`, `e` seconds later. -/
def Follows (t0 first e : Nat) (t : Timer) : Prop :=
  (e < first ∧ (t = .once (t0 + first) ∨ ∃ d, t = .every (t0 + first) d)) ∨
  (first ≤ e ∧ t = .every (t0 + first + 43200 * ((e - first) / 43200 + 1)) 43200)

theorem follows_due {t0 first e : Nat} {t : Timer} (hf : 0 < first) (h : Follows t0 first e t) :
    t.due (t0 + e + 1) = true ↔ Due first (e + 1) := by
  unfold Due
  rcases h with ⟨h1, h2⟩ | ⟨h1, h2⟩
  · have : t.due (t0 + e + 1) = decide (t0 + first ≤ t0 + e + 1) := by
      rcases h2 with h2 | ⟨d, h2⟩ <;> rw [h2] <;> rfl
    rw [this, decide_eq_true_iff]
    constructor
    · intro h
      refine ⟨by omega, ?_⟩
      rw [show e + 1 - first = 0 by omega]
    · intro h; omega
  · rw [h2]
    show decide (t0 + first + 43200 * ((e - first) / 43200 + 1) ≤ t0 + e + 1) = true ↔ _
    rw [decide_eq_true_iff]
    constructor
    · intro h; exact ⟨by omega, by omega⟩
    · intro h; omega

theorem follows_fired {t0 first e : Nat} (h : Due first (e + 1)) :
    Follows t0 first (e + 1) (.every (t0 + e + 1 + halfDay) halfDay) := by
  refine Or.inr ⟨h.1, ?_⟩
  have h2 := h.2
  have h1 := h.1
  have : t0 + e + 1 + 43200 = t0 + first + 43200 * ((e + 1 - first) / 43200 + 1) := by omega
  rw [← this]
  rfl

theorem follows_kept {t0 first e : Nat} {t : Timer} (hf : 0 < first) (h : Follows t0 first e t) (hn : ¬ Due first (e + 1)) :
    Follows t0 first (e + 1) t := by
  unfold Due at hn
  rcases h with ⟨h1, h2⟩ | ⟨h1, h2⟩
  · refine Or.inl ⟨?_, h2⟩
    by_cases he : e + 1 < first
    · exact he
    · exact absurd ⟨by omega, by rw [show e + 1 - first = 0 by omega]⟩ hn
  · refine Or.inr ⟨by omega, ?_⟩
    rw [h2]
    congr 3
    by_cases hz : (e + 1 - first) % 43200 = 0
    · exact absurd ⟨by omega, hz⟩ hn
    · omega

theorem fireOcsp_spec (s : State) : fireOcsp s = (s, []) ∧ s.ocsp.due s.now = false ∨
    fireOcsp s = ({ s with ocsp := .every (s.now + halfDay) halfDay }, [.ocsp s.now]) ∧ s.ocsp.due s.now = true := by
  unfold fireOcsp
  by_cases h : s.ocsp.due s.now = true
  · rw [if_pos h]; exact Or.inr ⟨rfl, h⟩
  · rw [if_neg h]; exact Or.inl ⟨rfl, by simpa using h⟩

theorem fireClient_spec (s : State) : fireClient s = (s, []) ∧ s.client.due s.now = false ∨
    fireClient s = ({ s with client := .every (s.now + halfDay) halfDay }, [.client s.now (decide (s.clientDays < 30))]) ∧
      s.client.due s.now = true := by
  unfold fireClient
  by_cases h : s.client.due s.now = true
  · rw [if_pos h]; exact Or.inr ⟨rfl, h⟩
  · rw [if_neg h]; exact Or.inl ⟨rfl, by simpa using h⟩

theorem fireV2g_spec (s : State) : fireV2g s = (s, []) ∧ s.v2g.due s.now = false ∨
    fireV2g s = ({ s with v2g := .every (s.now + halfDay) halfDay }, [.v2g s.now (decide (s.v2gDays < 30))]) ∧ s.v2g.due s.now = true := by
  unfold fireV2g
  by_cases h : s.v2g.due s.now = true
  · rw [if_pos h]; exact Or.inr ⟨rfl, h⟩
  · rw [if_neg h]; exact Or.inl ⟨rfl, by simpa using h⟩

/-- A timer a second later. -/
def Timer.after (t : Timer) (now : Nat) : Timer := if t.due now then .every (now + halfDay) halfDay else t

/-- What a second does. -/
theorem tick_eq (s : State) : tick s =
    ({ s with
       now := s.now + 1
       ocsp := s.ocsp.after (s.now + 1)
       client := s.client.after (s.now + 1)
       v2g := s.v2g.after (s.now + 1) },
     (if s.ocsp.due (s.now + 1) then [.ocsp (s.now + 1)] else []) ++
     (if s.client.due (s.now + 1) then [.client (s.now + 1) (decide (s.clientDays < 30))] else []) ++
     (if s.v2g.due (s.now + 1) then [.v2g (s.now + 1) (decide (s.v2gDays < 30))] else [])) := by
  unfold tick fireOcsp fireClient fireV2g Timer.after
  dsimp only
  by_cases h1 : s.ocsp.due (s.now + 1) = true <;> by_cases h2 : s.client.due (s.now + 1) = true <;>
    by_cases h3 : s.v2g.due (s.now + 1) = true <;> simp [h1, h2, h3]

theorem follows_after {t0 first e : Nat} {t : Timer} (hf : 0 < first) (h : Follows t0 first e t) :
    Follows t0 first (e + 1) (t.after (t0 + e + 1)) := by
  unfold Timer.after
  by_cases hd : t.due (t0 + e + 1) = true
  · rw [if_pos hd]; exact follows_fired ((follows_due hf h).1 hd)
  · rw [if_neg hd]; exact follows_kept hf h (fun hn => hd ((follows_due hf h).2 hn))

theorem seconds_cons (o : Op) (ops : List Op) : seconds (o :: ops) = (if o = .tick then 1 else 0) + seconds ops := by
  unfold seconds
  rw [List.countP_cons]
  by_cases h : o = .tick
  · simp [h, Nat.add_comm]
  · simp [h]

theorem management_now (s : State) (b : Bool) : (management s b).now = s.now := by
  unfold management
  split
  · split <;> rfl
  · rfl

theorem interval_now (s : State) (n : Nat) : (interval s n).now = s.now := by
  unfold interval
  split
  · rfl
  · split <;> rfl

/-- One timer followed through a history: `get` is the timer, `bad` the operations that set it. -/
theorem follow (get : State → Timer) (bad : Op → Bool)
    (hg : ∀ s o, bad o = false → o ≠ .tick → get (step s o).1 = get s)
    (ht : ∀ s, get (tick s).1 = (get s).after (s.now + 1))
    {t0 first : Nat} (hf : 0 < first) (ops : List Op) (hb : ∀ o ∈ ops, bad o = false) (s : State) (e : Nat)
    (hn : s.now = t0 + e) (h : Follows t0 first e (get s)) :
    (run s ops).1.now = t0 + (e + seconds ops) ∧ Follows t0 first (e + seconds ops) (get (run s ops).1) := by
  induction ops generalizing s e with
  | nil => exact ⟨hn, h⟩
  | cons o os ih =>
    rw [show (run s (o :: os)).1 = (run (step s o).1 os).1 from rfl, seconds_cons]
    by_cases ho : o = .tick
    · subst ho
      rw [if_pos rfl, ← Nat.add_assoc e 1]
      refine ih (fun x hx => hb x (List.mem_cons_of_mem _ hx)) _ (e + 1) ?_ ?_
      · show (tick s).1.now = _
        rw [tick_eq]; show s.now + 1 = _; omega
      · show Follows t0 first (e + 1) (get (tick s).1)
        rw [ht, hn]
        exact follows_after hf h
    · rw [if_neg ho, Nat.zero_add]
      refine ih (fun x hx => hb x (List.mem_cons_of_mem _ hx)) _ e ?_ ?_
      · rw [← hn]
        cases o with
        | tick => exact absurd rfl ho
        | accepted => show (accepted s).now = s.now; unfold accepted; dsimp only; split <;> split <;> rfl
        | connected => rfl
        | disconnected => rfl
        | management b => show (management s b).now = s.now; exact management_now s b
        | interval n => show (interval s n).now = s.now; exact interval_now s n
        | newV2g => show (newV2g s).now = s.now; unfold newV2g; split <;> rfl
        | days c v => rfl
      · rw [hg s o (hb o (List.mem_cons_self ..)) ho]; exact h

/-- The certificates' days through a history. -/
theorem run_days (s : State) (ops : List Op) :
    (run s ops).1.clientDays = clientDays s.clientDays ops ∧ (run s ops).1.v2gDays = v2gDays s.v2gDays ops := by
  induction ops generalizing s with
  | nil => exact ⟨rfl, rfl⟩
  | cons o os ih =>
    rw [show (run s (o :: os)).1 = (run (step s o).1 os).1 from rfl]
    have := ih (step s o).1
    cases o with
    | days c v => exact this
    | tick =>
      have h : (step s .tick).1.clientDays = s.clientDays ∧ (step s .tick).1.v2gDays = s.v2gDays := by
        show (tick s).1.clientDays = _ ∧ (tick s).1.v2gDays = _
        rw [tick_eq]; exact ⟨rfl, rfl⟩
      rw [h.1, h.2] at this; exact this
    | accepted =>
      have h : (step s .accepted).1.clientDays = s.clientDays ∧ (step s .accepted).1.v2gDays = s.v2gDays := by
        show (accepted s).clientDays = _ ∧ (accepted s).v2gDays = _
        unfold accepted; dsimp only; split <;> split <;> exact ⟨rfl, rfl⟩
      rw [h.1, h.2] at this; exact this
    | connected => exact this
    | disconnected => exact this
    | management b =>
      have h : (step s (.management b)).1.clientDays = s.clientDays ∧ (step s (.management b)).1.v2gDays = s.v2gDays := by
        show (management s b).clientDays = _ ∧ (management s b).v2gDays = _
        unfold management
        split
        · split <;> exact ⟨rfl, rfl⟩
        · exact ⟨rfl, rfl⟩
      rw [h.1, h.2] at this; exact this
    | interval n =>
      have h : (step s (.interval n)).1.clientDays = s.clientDays ∧ (step s (.interval n)).1.v2gDays = s.v2gDays := by
        show (interval s n).clientDays = _ ∧ (interval s n).v2gDays = _
        unfold interval
        split
        · exact ⟨rfl, rfl⟩
        · split <;> exact ⟨rfl, rfl⟩
      rw [h.1, h.2] at this; exact this
    | newV2g =>
      have h : (step s .newV2g).1.clientDays = s.clientDays ∧ (step s .newV2g).1.v2gDays = s.v2gDays := by
        show (newV2g s).clientDays = _ ∧ (newV2g s).v2gDays = _
        unfold newV2g; split <;> exact ⟨rfl, rfl⟩
      rw [h.1, h.2] at this; exact this

theorem tick_client (s : State) : (tick s).2.filter isClient =
    if s.client.due (s.now + 1) then [.client (s.now + 1) (decide (s.clientDays < 30))] else [] := by
  rw [tick_eq]
  dsimp only
  by_cases h1 : s.ocsp.due (s.now + 1) = true <;> by_cases h2 : s.client.due (s.now + 1) = true <;>
    by_cases h3 : s.v2g.due (s.now + 1) = true <;> simp [h1, h2, h3, isClient, List.filter_cons]

theorem tick_v2g (s : State) : (tick s).2.filter isV2g =
    if s.v2g.due (s.now + 1) then [.v2g (s.now + 1) (decide (s.v2gDays < 30))] else [] := by
  rw [tick_eq]
  dsimp only
  by_cases h1 : s.ocsp.due (s.now + 1) = true <;> by_cases h2 : s.client.due (s.now + 1) = true <;>
    by_cases h3 : s.v2g.due (s.now + 1) = true <;> simp [h1, h2, h3, isV2g, List.filter_cons]

theorem tick_ocsp (s : State) : (tick s).2.filter isOcsp = if s.ocsp.due (s.now + 1) then [.ocsp (s.now + 1)] else [] := by
  rw [tick_eq]
  dsimp only
  by_cases h1 : s.ocsp.due (s.now + 1) = true <;> by_cases h2 : s.client.due (s.now + 1) = true <;>
    by_cases h3 : s.v2g.due (s.now + 1) = true <;> simp [h1, h2, h3, isOcsp, List.filter_cons]

/-- The operations that set the timers. -/
def setsClient : Op → Bool
  | .accepted | .disconnected => true
  | _ => false

def setsV2g : Op → Bool
  | .accepted | .disconnected | .management _ => true
  | _ => false

def setsOcsp : Op → Bool
  | .accepted | .disconnected | .management _ | .interval _ | .newV2g => true
  | _ => false

theorem client_kept (s : State) (o : Op) (hb : setsClient o = false) (ho : o ≠ .tick) : (step s o).1.client = s.client := by
  cases o with
  | tick => exact absurd rfl ho
  | accepted => exact absurd hb (by decide)
  | disconnected => exact absurd hb (by decide)
  | connected => rfl
  | management b =>
    show (management s b).client = _
    unfold management
    split
    · split <;> rfl
    · rfl
  | interval n =>
    show (interval s n).client = _
    unfold interval
    split
    · rfl
    · split <;> rfl
  | newV2g => show (newV2g s).client = _; unfold newV2g; split <;> rfl
  | days c v => rfl

theorem v2g_kept (s : State) (o : Op) (hb : setsV2g o = false) (ho : o ≠ .tick) : (step s o).1.v2g = s.v2g := by
  cases o with
  | tick => exact absurd rfl ho
  | accepted => exact absurd hb (by decide)
  | disconnected => exact absurd hb (by decide)
  | management b => exact absurd hb (by simp [setsV2g])
  | connected => rfl
  | interval n =>
    show (interval s n).v2g = _
    unfold interval
    split
    · rfl
    · split <;> rfl
  | newV2g => show (newV2g s).v2g = _; unfold newV2g; split <;> rfl
  | days c v => rfl

theorem ocsp_kept (s : State) (o : Op) (hb : setsOcsp o = false) (ho : o ≠ .tick) : (step s o).1.ocsp = s.ocsp := by
  cases o with
  | tick => exact absurd rfl ho
  | accepted => exact absurd hb (by decide)
  | disconnected => exact absurd hb (by decide)
  | management b => exact absurd hb (by simp [setsOcsp])
  | interval n => exact absurd hb (by simp [setsOcsp])
  | newV2g => exact absurd hb (by simp [setsOcsp])
  | connected => rfl
  | days c v => rfl

/-! ## C198 -/

/-- C198 (partial: while the connection lasts): after the CSMS accepted a station with security profile 3, the client certificate is
checked after 60 seconds and then every 12 hours, whatever else happens; a new one is requested exactly if it expires in less than 30
days.  Missing: what happens after the connection was lost (`C198_violated`). -/
theorem C198_client_partial (s : State) (hp : s.profile = 3) (ops : List Op) (h : ∀ o ∈ ops, o ≠ .accepted ∧ o ≠ .disconnected) :
    (step (run s (.accepted :: ops)).1 .tick).2.filter isClient =
      if Due 60 (seconds ops + 1) then [.client (s.now + seconds ops + 1) (decide (clientDays s.clientDays ops < 30))] else [] := by
  have hb : ∀ o ∈ ops, setsClient o = false := by
    intro o ho
    have := h o ho
    cases o <;> first | rfl | exact absurd rfl this.1 | exact absurd rfl this.2
  have h0 : (accepted s).client = .once (s.now + 60) ∧ (accepted s).now = s.now := by
    unfold accepted
    dsimp only
    by_cases hm : s.managed = true
    · rw [if_pos hm, if_pos hp]; exact ⟨rfl, rfl⟩
    · rw [if_neg hm, if_pos hp]; exact ⟨rfl, rfl⟩
  have key := follow (fun s => s.client) setsClient client_kept (fun s => by rw [tick_eq]) (t0 := s.now) (first := 60) (by decide) ops hb
    (accepted s) 0 h0.2 (Or.inl ⟨by decide, Or.inl h0.1⟩)
  rw [Nat.zero_add] at key
  have hd := (run_days s (.accepted :: ops)).1
  show (tick (run (accepted s) ops).1).2.filter isClient = _
  rw [tick_client, key.1]
  rw [show (run (accepted s) ops).1.clientDays = clientDays s.clientDays ops from hd]
  by_cases hdue : Due 60 (seconds ops + 1)
  · rw [if_pos ((follows_due (by decide) key.2).2 hdue), if_pos hdue]
  · rw [if_neg (fun hx => hdue ((follows_due (by decide) key.2).1 hx)), if_neg hdue]

/-- C198 (partial, likewise): the V2G certificate of a station that manages ISO 15118 certificates. -/
theorem C198_v2g_partial (s : State) (hp : s.pnc = true) (hm : s.mgmt = true) (ops : List Op)
    (h : ∀ o ∈ ops, o ≠ .accepted ∧ o ≠ .disconnected ∧ ∀ b, o ≠ .management b) :
    (step (run s (.accepted :: ops)).1 .tick).2.filter isV2g =
      if Due 60 (seconds ops + 1) then [.v2g (s.now + seconds ops + 1) (decide (v2gDays s.v2gDays ops < 30))] else [] := by
  have hb : ∀ o ∈ ops, setsV2g o = false := by
    intro o ho
    have := h o ho
    cases o <;> first | rfl | exact absurd rfl this.1 | exact absurd rfl this.2.1 | exact absurd rfl (this.2.2 _)
  have h0 : (accepted s).v2g = .once (s.now + 60) ∧ (accepted s).now = s.now := by
    unfold accepted
    dsimp only
    have hmg : s.managed = true := by simp [State.managed, hp, hm]
    rw [if_pos hmg]
    split <;> exact ⟨rfl, rfl⟩
  have key := follow (fun s => s.v2g) setsV2g v2g_kept (fun s => by rw [tick_eq]) (t0 := s.now) (first := 60) (by decide) ops hb
    (accepted s) 0 h0.2 (Or.inl ⟨by decide, Or.inl h0.1⟩)
  rw [Nat.zero_add] at key
  have hd := (run_days s (.accepted :: ops)).2
  show (tick (run (accepted s) ops).1).2.filter isV2g = _
  rw [tick_v2g, key.1]
  rw [show (run (accepted s) ops).1.v2gDays = v2gDays s.v2gDays ops from hd]
  by_cases hdue : Due 60 (seconds ops + 1)
  · rw [if_pos ((follows_due (by decide) key.2).2 hdue), if_pos hdue]
  · rw [if_neg (fun hx => hdue ((follows_due (by decide) key.2).1 hx)), if_neg hdue]

/-- A timer that is off stays off. -/
theorem stays_off (get : State → Timer) (bad : Op → Bool) (hg : ∀ s o, bad o = false → o ≠ .tick → get (step s o).1 = get s)
    (ht : ∀ s, get (tick s).1 = (get s).after (s.now + 1)) (ops : List Op) (hb : ∀ o ∈ ops, bad o = false) (s : State)
    (h : get s = .off) : get (run s ops).1 = .off := by
  induction ops generalizing s with
  | nil => exact h
  | cons o os ih =>
    refine ih (fun x hx => hb x (List.mem_cons_of_mem _ hx)) (step s o).1 ?_
    by_cases ho : o = .tick
    · subst ho
      show get (tick s).1 = _
      rw [ht, h]; rfl
    · rw [hg s o (hb o (List.mem_cons_self ..)) ho]; exact h

theorem run_append (s : State) (a b : List Op) : run s (a ++ b) = ((run (run s a).1 b).1, (run s a).2 ++ (run (run s a).1 b).2) := by
  induction a generalizing s with
  | nil => rfl
  | cons o os ih =>
    show ((run (step s o).1 (os ++ b)).1, (step s o).2 ++ (run (step s o).1 (os ++ b)).2) = _
    rw [ih]
    show _ = ((run (run (step s o).1 os).1 b).1, (step s o).2 ++ (run (step s o).1 os).2 ++ _)
    rw [List.append_assoc]
    rfl

/-- No check can come from a history in which none comes from any of its seconds. -/
theorem no_events (p : Ev → Bool) (s : State) (ops : List Op) (h : ∀ a b, ops = a ++ .tick :: b → (tick (run s a).1).2.filter p = []) :
    (run s ops).2.filter p = [] := by
  induction ops generalizing s with
  | nil => rfl
  | cons o os ih =>
    rw [show (run s (o :: os)).2 = (step s o).2 ++ (run (step s o).1 os).2 from rfl, List.filter_append,
      ih (step s o).1 (fun a b hab => h (o :: a) b (by rw [hab]; rfl)), List.append_nil]
    cases o with
    | tick => exact h [] os rfl
    | accepted => rfl
    | connected => rfl
    | disconnected => rfl
    | management b => rfl
    | interval n => rfl
    | newV2g => rfl
    | days c v => rfl

/-- C198: a station without PnC, or one whose CSMS has switched off the management of ISO 15118 certificates (and does not switch it on, and installs no V2G certificate),
checks no V2G certificate and asks for no OCSP responses; a station with a security profile other than 3 checks no client certificate. -/
theorem C198_none (s : State) (ops : List Op) :
    (s.ocsp = .off → s.v2g = .off → s.pnc = false ∨ (s.mgmt = false ∧ ∀ o ∈ ops, o ≠ .management true ∧ o ≠ .newV2g) →
      (run s ops).2.filter isV2g = [] ∧ (run s ops).2.filter isOcsp = []) ∧
    (s.client = .off → s.profile ≠ 3 → (run s ops).2.filter isClient = []) := by
  constructor
  · intro h1 h2 h3
    induction ops generalizing s with
    | nil => exact ⟨rfl, rfl⟩
    | cons o os ih =>
      have hstep : (step s o).1.ocsp = .off ∧ (step s o).1.v2g = .off ∧ (step s o).1.pnc = s.pnc ∧ (s.mgmt = false → (s.pnc = false ∨ o ≠ .management true) → (step s o).1.mgmt = false) ∧
          (step s o).2.filter isV2g = [] ∧ (step s o).2.filter isOcsp = [] := by
        have hm : s.managed = false := by
          rcases h3 with h | ⟨h, _⟩ <;> simp [State.managed, h]
        cases o with
        | tick =>
          show (tick s).1.ocsp = _ ∧ (tick s).1.v2g = _ ∧ (tick s).1.pnc = _ ∧ (_ → _ → (tick s).1.mgmt = _) ∧ (tick s).2.filter isV2g = [] ∧ (tick s).2.filter isOcsp = []
          rw [tick_v2g, tick_ocsp, tick_eq]
          simp [h1, h2, Timer.due, Timer.after]
        | accepted =>
          simp only [step, accepted, hm, Bool.false_eq_true, if_false]
          split <;> simp [h1, h2]
        | connected => simp [step, h1, h2]
        | disconnected => simp [step, disconnected]
        | management b =>
          simp only [step, management]
          cases b with
          | false => split <;> simp [h1, h2]
          | true =>
            rcases h3 with h | ⟨_, h⟩
            · simp [h, h1, h2]
            · exact absurd rfl (h _ (List.mem_cons_self ..)).1
        | interval n =>
          simp only [step, interval, hm, Bool.false_eq_true, if_false, ite_self]
          simp [h1, h2]
        | newV2g =>
          rcases h3 with h | ⟨_, h⟩
          · simp [step, newV2g, h, h1, h2]
          · exact absurd rfl (h _ (List.mem_cons_self ..)).2
        | days c v => simp [step, h1, h2]
      obtain ⟨a1, a2, a3, a4, a5, a6⟩ := hstep
      have := ih (step s o).1 a1 a2 (by
        rcases h3 with h | ⟨h, h'⟩
        · exact Or.inl (a3.trans h)
        · exact Or.inr ⟨a4 h (Or.inr (h' o (List.mem_cons_self ..)).1), fun x hx => h' x (List.mem_cons_of_mem _ hx)⟩)
      show ((step s o).2 ++ (run (step s o).1 os).2).filter isV2g = [] ∧ ((step s o).2 ++ (run (step s o).1 os).2).filter isOcsp = []
      rw [List.filter_append, List.filter_append, a5, a6, this.1, this.2]
      exact ⟨rfl, rfl⟩
  · intro h1 h2
    induction ops generalizing s with
    | nil => rfl
    | cons o os ih =>
      have hstep : (step s o).1.client = .off ∧ (step s o).1.profile = s.profile ∧ (step s o).2.filter isClient = [] := by
        cases o with
        | tick =>
          show (tick s).1.client = _ ∧ (tick s).1.profile = _ ∧ (tick s).2.filter isClient = []
          rw [tick_client, tick_eq]
          simp [h1, Timer.due, Timer.after]
        | accepted =>
          simp only [step, accepted]
          split <;> simp [h1, h2]
        | connected => simp [step, h1]
        | disconnected => simp [step, disconnected]
        | management b =>
          simp only [step, management]
          repeat' split
          all_goals simp [h1]
        | interval n =>
          simp only [step, interval]
          repeat' split
          all_goals simp [h1]
        | newV2g =>
          simp only [step, newV2g]
          split <;> simp [h1]
        | days c v => simp [step, h1]
      have := ih (step s o).1 hstep.1 (by rw [hstep.2.1]; exact h2)
      show ((step s o).2 ++ (run (step s o).1 os).2).filter isClient = []
      rw [List.filter_append, hstep.2.2, this]
      rfl

/-- Stations without PnC, with the management switched off, with security profile 2. -/
example : ({ pnc := false } : State).ocsp = .off ∧ ({ mgmt := false } : State).v2g = .off ∧ ({ profile := 2 } : State).client = .off := ⟨rfl, rfl, rfl⟩

/-- C198 violated: once the connection was lost, the station never checks its client certificate again, however long it runs, reconnected
and whatever else happens, unless the CSMS accepts it anew; nor does it check its V2G certificate. -/
theorem C198_violated (s : State) (ops : List Op) (h : ∀ o ∈ ops, o ≠ .accepted) :
    (run s (.disconnected :: .connected :: ops)).2.filter isClient = [] ∧
    ((∀ o ∈ ops, ∀ b, o ≠ .management b) → (run s (.disconnected :: .connected :: ops)).2.filter isV2g = []) := by
  -- a further loss of the connection changes nothing
  have keyc : ∀ ops, (∀ o ∈ ops, o ≠ .accepted) → ∀ s : State, s.client = .off → (run s ops).1.client = .off := by
    intro ops
    induction ops with
    | nil => intro _ s hs; exact hs
    | cons o os ih =>
      intro h s hs
      refine ih (fun x hx => h x (List.mem_cons_of_mem _ hx)) (step s o).1 ?_
      by_cases ho : setsClient o = true
      · cases o with
        | accepted => exact absurd rfl (h .accepted (List.mem_cons_self ..))
        | disconnected => rfl
        | tick => exact absurd ho (by decide)
        | connected => exact absurd ho (by decide)
        | management b => exact absurd ho (by simp [setsClient])
        | interval n => exact absurd ho (by simp [setsClient])
        | newV2g => exact absurd ho (by decide)
        | days c v => exact absurd ho (by simp [setsClient])
      · exact stays_off (fun s => s.client) setsClient client_kept (fun s => by rw [tick_eq]) [o]
          (fun x hx => by rw [List.mem_singleton.1 hx]; simpa using ho) s hs
  have keyv : ∀ ops, (∀ o ∈ ops, o ≠ .accepted) → (∀ o ∈ ops, ∀ b, o ≠ .management b) → ∀ s : State, s.v2g = .off → (run s ops).1.v2g = .off := by
    intro ops
    induction ops with
    | nil => intro _ _ s hs; exact hs
    | cons o os ih =>
      intro h hm s hs
      refine ih (fun x hx => h x (List.mem_cons_of_mem _ hx)) (fun x hx => hm x (List.mem_cons_of_mem _ hx)) (step s o).1 ?_
      by_cases ho : setsV2g o = true
      · cases o with
        | accepted => exact absurd rfl (h .accepted (List.mem_cons_self ..))
        | management b => exact absurd rfl (hm (.management b) (List.mem_cons_self ..) b)
        | disconnected => rfl
        | tick => exact absurd ho (by decide)
        | connected => exact absurd ho (by decide)
        | interval n => exact absurd ho (by simp [setsV2g])
        | newV2g => exact absurd ho (by decide)
        | days c v => exact absurd ho (by simp [setsV2g])
      · exact stays_off (fun s => s.v2g) setsV2g v2g_kept (fun s => by rw [tick_eq]) [o]
          (fun x hx => by rw [List.mem_singleton.1 hx]; simpa using ho) s hs
  have sub : ∀ a b, ops = a ++ Op.tick :: b → ∀ o ∈ a, o ∈ ops := fun a b hab o ho => by rw [hab]; exact List.mem_append_left _ ho
  refine ⟨?_, fun hm => ?_⟩
  · show (run (disconnected s) ops).2.filter isClient = []
    refine no_events isClient _ ops (fun a b hab => ?_)
    rw [tick_client, keyc a (fun o ho => h o (sub a b hab o ho)) (disconnected s) rfl]
    rfl
  · show (run (disconnected s) ops).2.filter isV2g = []
    refine no_events isV2g _ ops (fun a b hab => ?_)
    rw [tick_v2g, keyv a (fun o ho => h o (sub a b hab o ho)) (fun o ho => hm o (sub a b hab o ho)) (disconnected s) rfl]
    rfl

example : Due 60 60 ∧ ¬ Due 60 61 ∧ Due 60 43260 := by decide

example : ∀ o ∈ [Op.tick, .days 10 40, .connected, .management false], o ≠ .accepted ∧ o ≠ .disconnected := by decide

example : ∃ s : State, s.profile = 3 ∧ s.pnc = true ∧ s.mgmt = true := ⟨{}, rfl, rfl, rfl⟩

/-! ## C199 -/

/-- C199 (partial: the first update): after the CSMS set OcspRequestInterval to `n` (a day or more), the OCSP cache is updated after `n`
seconds; but then every 12 hours.  Missing: the further updates (`C199_violated`). -/
theorem C199_partial (s : State) (hp : s.pnc = true) (hm : s.mgmt = true) (n : Nat) (hn : 86400 ≤ n) (ops : List Op)
    (h : ∀ o ∈ ops, setsOcsp o = false) :
    (step (run s (.interval n :: ops)).1 .tick).2.filter isOcsp = if Due n (seconds ops + 1) then [.ocsp (s.now + seconds ops + 1)] else [] := by
  have h0 : (interval s n).ocsp = .every (s.now + n) n ∧ (interval s n).now = s.now := by
    unfold interval
    rw [if_neg (by omega), if_pos (by simp [State.managed, hp, hm])]
    exact ⟨rfl, rfl⟩
  have key := follow (fun s => s.ocsp) setsOcsp ocsp_kept (fun s => by rw [tick_eq]) (t0 := s.now) (first := n) (by omega) ops h
    (interval s n) 0 h0.2 (Or.inl ⟨by omega, Or.inr ⟨n, h0.1⟩⟩)
  rw [Nat.zero_add] at key
  show (tick (run (interval s n) ops).1).2.filter isOcsp = _
  rw [tick_ocsp, key.1]
  by_cases hdue : Due n (seconds ops + 1)
  · rw [if_pos ((follows_due (by omega) key.2).2 hdue), if_pos hdue]
  · rw [if_neg (fun hx => hdue ((follows_due (by omega) key.2).1 hx)), if_neg hdue]

theorem seconds_replicate (k : Nat) : seconds (List.replicate k .tick) = k := by
  induction k with
  | zero => rfl
  | succ k ih => rw [List.replicate_succ, seconds_cons, if_pos rfl, ih, Nat.add_comm]

/-- C199 violated: whatever interval the CSMS sets, the second update comes 12 hours after the first one; so an interval, which must be a
day at least, never has effect but once. -/
theorem C199_violated (s : State) (hp : s.pnc = true) (hm : s.mgmt = true) (n : Nat) (hn : 86400 ≤ n) :
    (step (run s (.interval n :: List.replicate (n + 43200 - 1) .tick)).1 .tick).2.filter isOcsp = [.ocsp (s.now + n + 43200)] ∧
    (∀ k, n ≤ k → k < n + 43199 → (step (run s (.interval n :: List.replicate k .tick)).1 .tick).2.filter isOcsp = []) := by
  have hrep : ∀ k, ∀ o ∈ List.replicate k Op.tick, setsOcsp o = false := by
    intro k o ho
    rw [(List.mem_replicate.1 ho).2]; rfl
  refine ⟨?_, fun k h1 h2 => ?_⟩
  · rw [C199_partial s hp hm n hn _ (hrep _), seconds_replicate, if_pos ⟨by omega, by omega⟩]
    rw [show s.now + (n + 43200 - 1) + 1 = s.now + n + 43200 by omega]
  · rw [C199_partial s hp hm n hn _ (hrep _), seconds_replicate, if_neg]
    intro hd
    have := hd.2
    omega

/-- C199 violated: after the CSMS accepted the station, the interval that is configured has no effect at all: the OCSP cache is updated
after 60 seconds and then every 12 hours. -/
theorem C199_accepted_violated (s : State) (hp : s.pnc = true) (hm : s.mgmt = true) (ops : List Op) (h : ∀ o ∈ ops, setsOcsp o = false) :
    (step (run s (.accepted :: ops)).1 .tick).2.filter isOcsp = if Due 60 (seconds ops + 1) then [.ocsp (s.now + seconds ops + 1)] else [] := by
  have h0 : (accepted s).ocsp = .once (s.now + 60) ∧ (accepted s).now = s.now := by
    unfold accepted
    dsimp only
    have hmg : s.managed = true := by simp [State.managed, hp, hm]
    rw [if_pos hmg]
    split <;> exact ⟨rfl, rfl⟩
  have key := follow (fun s => s.ocsp) setsOcsp ocsp_kept (fun s => by rw [tick_eq]) (t0 := s.now) (first := 60) (by decide) ops h
    (accepted s) 0 h0.2 (Or.inl ⟨by decide, Or.inl h0.1⟩)
  rw [Nat.zero_add] at key
  show (tick (run (accepted s) ops).1).2.filter isOcsp = _
  rw [tick_ocsp, key.1]
  by_cases hdue : Due 60 (seconds ops + 1)
  · rw [if_pos ((follows_due (by decide) key.2).2 hdue), if_pos hdue]
  · rw [if_neg (fun hx => hdue ((follows_due (by decide) key.2).1 hx)), if_neg hdue]

/-- C199: a new V2G certificate has its OCSP result updated within a second. -/
theorem C199_new (s : State) (hp : s.pnc = true) : (run s [.newV2g, .tick]).2.filter isOcsp = [.ocsp (s.now + 1)] := by
  show ((tick (newV2g s)).2 ++ []).filter isOcsp = _
  rw [List.append_nil, tick_ocsp]
  unfold newV2g
  rw [if_pos hp]
  dsimp only
  rw [if_pos (by show decide (s.now ≤ s.now + 1) = true; simp)]

example : (86400 : Nat) ≤ 604800 ∧ ∀ o ∈ [Op.tick, .days 1 1, .connected], setsOcsp o = false := by decide

end Verif.Cert16
