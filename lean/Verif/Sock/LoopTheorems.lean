import Verif.Sock.Loop

/-!
# Theorems about the connection loop

Specification: `streak` counts the passes since the last established connection (the pass with that connection is
number one), and `shortest` and `longest` are the limits of the waiting time after that many.
-/

namespace Verif.Sock

/-! ## Specification -/

/-- How many passes in a row, the last one included, have ended without a connection, or since one was lost. -/
def streak : List Pass → Nat
  | [] => 0
  | ps => ps.foldl (fun n p => if p.established then 1 else n + 1) 0

/-- How often the waiting time has been doubled. -/
def doublings (o : LoopOptions) (n : Nat) : Nat := min (n - 1) o.repeatTimes.toNat

def shortest (o : LoopOptions) (n : Nat) : Int := o.waitMinimum * 1000 * 2 ^ doublings o n

def longest (o : LoopOptions) (n : Nat) : Int :=
  (o.waitMinimum + o.randomRange) * 1000 * 2 ^ doublings o n + o.randomRange * 1000 * (2 ^ doublings o n - 1)

/-- The numbers drawn are in the range of the distribution. -/
def Drawn (o : LoopOptions) (ps : List Pass) : Prop := ∀ p ∈ ps, 0 ≤ p.random ∧ p.random ≤ o.randomRange

def Sane (o : LoopOptions) : Prop := 0 ≤ o.repeatTimes ∧ 0 ≤ o.waitMinimum ∧ 0 ≤ o.randomRange

/-- The longest waiting time of all fits into an `int`. -/
def Fits (o : LoopOptions) : Prop :=
  o.repeatTimes < 2147483647 ∧ longest o (o.repeatTimes.toNat + 1) ≤ 2147483647

/-! ## Lemmas -/

theorem streak_snoc (ps : List Pass) (p : Pass) :
    streak (ps ++ [p]) = if p.established then 1 else streak ps + 1 := by
  have h : streak (ps ++ [p]) = (ps ++ [p]).foldl (fun n p => if p.established then 1 else n + 1) 0 := by
    cases ps <;> rfl
  have h2 : streak ps = ps.foldl (fun n p => if p.established then 1 else n + 1) 0 := by
    cases ps <;> rfl
  rw [h, h2, List.foldl_append]
  rfl

theorem passes_snoc (o : LoopOptions) (s : LoopState) (ps : List Pass) (p : Pass) :
    passes o s (ps ++ [p]) = (pass o (passes o s ps) p).1 := by
  simp [passes, List.foldl_append]

theorem observed_append (o : LoopOptions) (s : LoopState) (ps qs : List Pass) :
    observed o s (ps ++ qs) = observed o s ps ++ observed o (passes o s ps) qs := by
  induction ps generalizing s with
  | nil => rfl
  | cons p ps ih => simp [observed, ih, passes]

theorem stopped_stays (o : LoopOptions) (s : LoopState) (h : s.running = false) (p : Pass) :
    pass o s p = (s, []) := by
  simp [pass, h]

theorem snocInd {α : Type} {P : List α → Prop} (nil : P []) (snoc : ∀ l a, P l → P (l ++ [a])) (l : List α) : P l := by
  have h : ∀ r : List α, P r.reverse := by
    intro r
    induction r with
    | nil => exact nil
    | cons a r ih => rw [List.reverse_cons]; exact snoc _ _ ih
  have := h l.reverse
  rwa [List.reverse_reverse] at this

theorem doublings_one (o : LoopOptions) : doublings o 1 = 0 := by simp [doublings]

theorem doublings_succ (o : LoopOptions) (hs : Sane o) (n : Nat) (hn : 1 ≤ n) (h : ¬ (n : Int) + 1 > o.repeatTimes + 1) :
    doublings o (n + 1) = doublings o n + 1 := by
  have := hs.1
  unfold doublings
  omega

theorem doublings_stop (o : LoopOptions) (hs : Sane o) (n : Nat) (hn : 1 ≤ n) (h : (n : Int) + 1 > o.repeatTimes + 1) :
    doublings o (n + 1) = doublings o n := by
  have := hs.1
  unfold doublings
  omega

theorem two_pow_pos (k : Nat) : (1 : Int) ≤ 2 ^ k := by
  have : (0 : Int) < 2 ^ k := Int.pow_pos (by decide)
  omega

/-- The longest waiting times grow, and so do those that the program computes on the way. -/
theorem longest_le (o : LoopOptions) (hs : Sane o) (n : Nat) : longest o n ≤ longest o (o.repeatTimes.toNat + 1) := by
  obtain ⟨h0, h1, h2⟩ := hs
  unfold longest
  have hk : doublings o n ≤ doublings o (o.repeatTimes.toNat + 1) := by unfold doublings; omega
  generalize doublings o n = k at hk
  generalize doublings o (o.repeatTimes.toNat + 1) = m at hk
  obtain ⟨j, rfl⟩ := Nat.exists_eq_add_of_le hk
  have e : (2 : Int) ^ (k + j) = 2 ^ k * 2 ^ j := Int.pow_add 2 k j
  have hle : (2 : Int) ^ k ≤ 2 ^ (k + j) := by
    rw [e]
    have a := two_pow_pos k
    have b := two_pow_pos j
    calc (2 : Int) ^ k = 2 ^ k * 1 := by omega
      _ ≤ 2 ^ k * 2 ^ j := Int.mul_le_mul_of_nonneg_left b (by omega)
  have a1 : (o.waitMinimum + o.randomRange) * 1000 * 2 ^ k ≤ (o.waitMinimum + o.randomRange) * 1000 * 2 ^ (k + j) :=
    Int.mul_le_mul_of_nonneg_left hle (by omega)
  have a2 : o.randomRange * 1000 * (2 ^ k - 1) ≤ o.randomRange * 1000 * (2 ^ (k + j) - 1) :=
    Int.mul_le_mul_of_nonneg_left (by omega) (by omega)
  omega

theorem longest_one (o : LoopOptions) : longest o 1 = (o.waitMinimum + o.randomRange) * 1000 := by
  simp [longest, doublings_one]

theorem shortest_one (o : LoopOptions) : shortest o 1 = o.waitMinimum * 1000 := by
  simp [shortest, doublings_one]

theorem shortest_nonneg (o : LoopOptions) (hs : Sane o) (n : Nat) : 0 ≤ shortest o n := by
  obtain ⟨h0, h1, h2⟩ := hs
  unfold shortest
  have := two_pow_pos (doublings o n)
  exact Int.mul_nonneg (by omega) (by omega)

theorem step_bounds (o : LoopOptions) (hs : Sane o) (n : Nat) (hn : 1 ≤ n) (h : ¬ (n : Int) + 1 > o.repeatTimes + 1) :
    shortest o (n + 1) = shortest o n * 2 ∧ longest o (n + 1) = longest o n * 2 + o.randomRange * 1000 := by
  unfold shortest longest
  rw [doublings_succ o hs n hn h, Int.pow_succ]
  generalize (2 : Int) ^ doublings o n = q
  constructor
  · rw [Int.mul_assoc (o.waitMinimum * 1000)]
  · generalize hA : (o.waitMinimum + o.randomRange) * 1000 = A
    generalize hB : o.randomRange * 1000 = B
    have e1 : A * (q * 2) = A * q * 2 := by rw [Int.mul_assoc]
    have e2 : B * (q * 2 - 1) = B * q * 2 - B := by
      rw [Int.mul_sub, ← Int.mul_assoc]; omega
    have e3 : B * (q - 1) = B * q - B := by rw [Int.mul_sub]; omega
    rw [e1, e2, e3]; omega

/-- The waiting time that is computed, from the number of passes in a row. -/
theorem interval_ok (o : LoopOptions) (hs : Sane o) (hf : Fits o) (s : LoopState) (n : Nat) (r : Int)
    (hr : 0 ≤ r ∧ r ≤ o.randomRange) (ha : s.attempts = n + 1)
    (hb : 1 ≤ n → shortest o n ≤ s.backoff ∧ s.backoff ≤ longest o n) :
    ∃ d, reconnectInterval o s r = some d ∧ shortest o (n + 1) ≤ d ∧ d ≤ longest o (n + 1) ∧
      ((n : Int) + 1 > o.repeatTimes + 1 → d = s.backoff) := by
  obtain ⟨f1, f2⟩ := hf
  obtain ⟨h0, h1, h2⟩ := hs
  unfold reconnectInterval
  have hi : inInt (o.repeatTimes + 1) = true := by
    simp only [inInt, Bool.and_eq_true, decide_eq_true_eq]; omega
  rw [hi]
  simp only [Bool.not_true, Bool.false_eq_true, if_false]
  by_cases hc : s.attempts > o.repeatTimes + 1
  · rw [if_pos hc]
    have hn : 1 ≤ n := by omega
    obtain ⟨b1, b2⟩ := hb hn
    have hd := doublings_stop o ⟨h0, h1, h2⟩ n hn (by omega)
    refine ⟨s.backoff, rfl, ?_, ?_, fun _ => rfl⟩
    · unfold shortest at b1 ⊢; rw [hd]; exact b1
    · unfold longest at b2 ⊢; rw [hd]; exact b2
  · rw [if_neg hc]
    by_cases h1' : s.attempts = 1
    · rw [if_pos h1']
      have hn : n = 0 := by omega
      subst hn
      have hl := longest_le o ⟨h0, h1, h2⟩ 1
      rw [longest_one] at hl
      rw [if_pos (by simp only [inInt, Bool.and_eq_true, decide_eq_true_eq]; omega)]
      refine ⟨_, rfl, ?_, ?_, ?_⟩
      · rw [shortest_one]; omega
      · rw [longest_one]; omega
      · intro hh; omega
    · rw [if_neg h1']
      have hn : 1 ≤ n := by omega
      obtain ⟨b1, b2⟩ := hb hn
      obtain ⟨e1, e2⟩ := step_bounds o ⟨h0, h1, h2⟩ n hn (by omega)
      have hl := longest_le o ⟨h0, h1, h2⟩ (n + 1)
      have hnn := shortest_nonneg o ⟨h0, h1, h2⟩ n
      rw [if_pos (by simp only [inInt, Bool.and_eq_true, decide_eq_true_eq]; omega)]
      refine ⟨_, rfl, ?_, ?_, ?_⟩
      · rw [e1]; omega
      · rw [e2]; omega
      · intro hh; omega

/-- What one pass does, if it is not interrupted in the attempt. -/
theorem pass_retry (o : LoopOptions) (hs : Sane o) (hf : Fits o) (s : LoopState) (n : Nat) (p : Pass)
    (hr : 0 ≤ p.random ∧ p.random ≤ o.randomRange) (hrun : s.running = true) (ha : s.attempts = n + 1)
    (hb : 1 ≤ n → shortest o n ≤ s.backoff ∧ s.backoff ≤ longest o n) (hi : p.interrupt ≠ .during) :
    let m := if p.established then 1 else n + 1
    let pre : List LoopOut := .attempt :: (if p.established then [.connected, .disconnected] else [])
    (¬ (o.maxAttempts = -1 ∨ (m : Int) ≤ o.maxAttempts) ∧ (pass o s p).1.running = false ∧
      (pass o s p).2 = pre ++ [.stopped, .disconnected]) ∨
    ((o.maxAttempts = -1 ∨ (m : Int) ≤ o.maxAttempts) ∧ ∃ d, shortest o m ≤ d ∧ d ≤ longest o m ∧
      ((m : Int) > o.repeatTimes + 1 → d = s.backoff) ∧
      (pass o s p).1 = ⟨m + 1, d, decide (p.interrupt ≠ .waiting)⟩ ∧
      (pass o s p).2 = pre ++ (.delay d :: if p.interrupt = .waiting then [.stopped, .disconnected] else [])) := by
  intro m pre
  have hm : (if p.established then 1 else s.attempts) = (m : Int) := by
    show _ = ((if p.established then 1 else n + 1 : Nat) : Int)
    cases p.established
    · simp [ha]
    · simp
  have hint := interval_ok o hs hf ⟨(m : Int), s.backoff, true⟩ (m - 1) p.random hr (by
      have : 1 ≤ m := by show 1 ≤ (if p.established then 1 else n + 1); split <;> omega
      simp only; omega) (by
      intro h
      have he : p.established = false := by
        cases he : p.established
        · rfl
        · exfalso; simp only [m, he, if_true] at h; omega
      have : m = n + 1 := by simp [m, he]
      rw [this] at h ⊢
      simp only [Nat.add_sub_cancel]
      exact hb (by omega))
  have hm1 : m - 1 + 1 = m := by
    have : 1 ≤ m := by show 1 ≤ (if p.established then 1 else n + 1); split <;> omega
    omega
  rw [hm1] at hint
  obtain ⟨d, hd, d1, d2, d3⟩ := hint
  unfold pass
  rw [hrun]
  simp only [Bool.not_true, Bool.false_eq_true, if_false, if_neg hi, hm]
  unfold retry
  by_cases hc : o.maxAttempts = -1 ∨ (m : Int) ≤ o.maxAttempts
  · right
    refine ⟨hc, d, d1, d2, fun h => d3 (by omega), ?_⟩
    rw [if_pos hc]
    simp only [hd]
    by_cases hw : p.interrupt = .waiting
    · simp [hw, pre]
    · simp [hw, pre]
  · left
    rw [if_neg hc]
    exact ⟨hc, rfl, rfl⟩

/-- The counters of the thread while it runs. -/
theorem loop_inv (o : LoopOptions) (hs : Sane o) (hf : Fits o) (b : Int) (ps : List Pass) (hd : Drawn o ps) :
    (passes o (loopStart b) ps).running = true →
      (passes o (loopStart b) ps).attempts = streak ps + 1 ∧
      (1 ≤ streak ps → shortest o (streak ps) ≤ (passes o (loopStart b) ps).backoff ∧
        (passes o (loopStart b) ps).backoff ≤ longest o (streak ps)) := by
  induction ps using snocInd with
  | nil => intro _; exact ⟨rfl, by simp [streak]⟩
  | snoc ps p ih =>
    rw [passes_snoc, streak_snoc]
    intro h
    by_cases hr : (passes o (loopStart b) ps).running = true
    · obtain ⟨i1, i2⟩ := ih (fun q hq => hd q (by simp [hq])) hr
      by_cases hi : p.interrupt = .during
      · unfold pass at h
        rw [hr] at h
        simp [hi] at h
      · rcases pass_retry o hs hf _ (streak ps) p (hd p (by simp)) hr i1 i2 hi with ⟨-, h2, -⟩ | ⟨-, d, d1, d2, -, e, -⟩
        · rw [h2] at h; cases h
        · rw [e]
          exact ⟨rfl, fun _ => ⟨d1, d2⟩⟩
    · rw [Bool.not_eq_true] at hr
      rw [stopped_stays o _ hr] at h
      rw [hr] at h
      cases h

/-! ## Property theorems -/

/-- C153.  Whatever happened before: the waiting time after a failed attempt or a lost connection lies between the
minimum, doubled once for each further failure up to the configured number of times, and the same with the largest
random additions; and no computation overflows.  Partial: the longest waiting time fits into 31 bits
(`C153_violated`). -/
theorem C153_delay_partial (o : LoopOptions) (hs : Sane o) (hf : Fits o) (b : Int) (ps : List Pass) (p : Pass)
    (hd : Drawn o (ps ++ [p])) :
    let out := (pass o (passes o (loopStart b) ps) p).2
    (∀ d, .delay d ∈ out → shortest o (streak (ps ++ [p])) ≤ d ∧ d ≤ longest o (streak (ps ++ [p]))) ∧
      .overflow ∉ out := by
  intro out
  by_cases hr : (passes o (loopStart b) ps).running = true
  · obtain ⟨i1, i2⟩ := loop_inv o hs hf b ps (fun q hq => hd q (by simp [hq])) hr
    by_cases hi : p.interrupt = .during
    · have : out = .attempt :: (if p.established then [.connected] else []) ++ [.stopped, .disconnected] := by
        show (pass o _ p).2 = _
        unfold pass
        rw [hr]; simp [hi]
      rw [this]
      cases p.established <;> simp
    · rw [streak_snoc]
      rcases pass_retry o hs hf _ (streak ps) p (hd p (by simp)) hr i1 i2 hi with ⟨-, -, e⟩ | ⟨-, d, d1, d2, -, -, e⟩
      · show (∀ d, .delay d ∈ (pass o _ p).2 → _) ∧ _ ∉ (pass o _ p).2
        rw [e]
        cases p.established <;> simp
      · show (∀ d, .delay d ∈ (pass o _ p).2 → _) ∧ _ ∉ (pass o _ p).2
        rw [e]
        constructor
        · intro d' hd'
          have : d' = d := by
            revert hd'
            cases p.established <;> by_cases hw : p.interrupt = .waiting <;> simp [hw]
          rw [this]; exact ⟨d1, d2⟩
        · cases p.established <;> by_cases hw : p.interrupt = .waiting <;> simp [hw]
  · rw [Bool.not_eq_true] at hr
    have : out = [] := by
      show (pass o _ p).2 = []
      rw [stopped_stays o _ hr]
    rw [this]; simp

/-- C153.  After the configured number of doublings the waiting time stays the same. -/
theorem C153_constant_partial (o : LoopOptions) (hs : Sane o) (hf : Fits o) (b : Int) (ps : List Pass) (p q : Pass)
    (hd : Drawn o (ps ++ [p, q])) (hn : (streak (ps ++ [p]) : Int) > o.repeatTimes) (hq : q.established = false)
    (d d' : Int) (h1 : .delay d ∈ (pass o (passes o (loopStart b) ps) p).2)
    (h2 : .delay d' ∈ (pass o (passes o (loopStart b) (ps ++ [p])) q).2) : d' = d := by
  have hrp : (passes o (loopStart b) ps).running = true := by
    cases hr : (passes o (loopStart b) ps).running
    · rw [stopped_stays o _ hr] at h1; simp at h1
    · rfl
  have hrq : (passes o (loopStart b) (ps ++ [p])).running = true := by
    cases hr : (passes o (loopStart b) (ps ++ [p])).running
    · rw [stopped_stays o _ hr] at h2; simp at h2
    · rfl
  obtain ⟨i1, i2⟩ := loop_inv o hs hf b ps (fun x hx => hd x (by simp [hx])) hrp
  obtain ⟨j1, j2⟩ := loop_inv o hs hf b (ps ++ [p]) (fun x hx => hd x (by
    simp only [List.mem_append, List.mem_singleton] at hx
    simp only [List.mem_append, List.mem_cons]
    rcases hx with hx | hx
    · exact Or.inl hx
    · exact Or.inr (Or.inl hx))) hrq
  have hip : p.interrupt ≠ .during := by
    intro hi
    unfold pass at h1
    rw [hrp] at h1
    cases he : p.established <;> simp [hi, he] at h1
  have hiq : q.interrupt ≠ .during := by
    intro hi
    unfold pass at h2
    rw [hrq] at h2
    cases he : q.established <;> simp [hi, he] at h2
  have hb : (passes o (loopStart b) (ps ++ [p])).backoff = d := by
    rw [passes_snoc]
    rcases pass_retry o hs hf _ (streak ps) p (hd p (by simp)) hrp i1 i2 hip with ⟨-, -, e⟩ | ⟨-, x, -, -, -, e1, e⟩
    · rw [e] at h1
      cases he : p.established <;> simp [he] at h1
    · rw [e] at h1
      rw [e1]
      have : d = x := by
        revert h1
        cases p.established <;> by_cases hw : p.interrupt = .waiting <;> simp [hw]
      exact this.symm
  rcases pass_retry o hs hf _ (streak (ps ++ [p])) q (hd q (by simp)) hrq j1 j2 hiq with ⟨-, -, e⟩ | ⟨-, x, -, -, e2, -, e⟩
  · rw [e] at h2
    simp [hq] at h2
  · rw [e] at h2
    have hx : d' = x := by
      revert h2
      by_cases hw : q.interrupt = .waiting <;> simp [hq, hw]
    rw [hx, e2 (by simp only [hq, Bool.false_eq_true, if_false]; omega), hb]

def exOptions : LoopOptions := ⟨-1, 2, 1, 2⟩

/-- Four failures in a row. -/
def exPasses : List Pass :=
  [⟨false, .never, 1⟩, ⟨false, .never, 0⟩, ⟨false, .never, 2⟩, ⟨false, .never, 1⟩]

example : Sane exOptions ∧ Fits exOptions ∧ Drawn exOptions exPasses ∧
    observed exOptions (loopStart 0) exPasses =
      [.attempt, .delay 2000, .attempt, .delay 4000, .attempt, .delay 10000, .attempt, .delay 10000] ∧
    (shortest exOptions 3, longest exOptions 3) = (4000, 18000) := by
  unfold Sane Fits Drawn
  decide

/-- C153 is violated by settings that the CSMS may choose (the variables have no limits): with a minimum of one minute
and sixteen doublings, the seventeenth failure in a row overflows. -/
theorem C153_violated :
    let o : LoopOptions := ⟨-1, 16, 60, 0⟩
    Sane o ∧ Drawn o (List.replicate 17 ⟨false, .never, 0⟩) ∧
      .overflow ∈ observed o (loopStart 0) (List.replicate 17 ⟨false, .never, 0⟩) := by
  unfold Sane Drawn
  decide +kernel

/-- C154.  The station gives up exactly if the number of attempts is limited and more passes than that, the last one
included, have ended since it last had a connection; otherwise it waits and tries again.  (Under the conditions of
`C153_delay_partial`.) -/
theorem C154_give_up_partial (o : LoopOptions) (hs : Sane o) (hf : Fits o) (b : Int) (ps : List Pass) (p : Pass)
    (hd : Drawn o (ps ++ [p])) (hr : (passes o (loopStart b) ps).running = true) (hi : p.interrupt = .never) :
    ((passes o (loopStart b) (ps ++ [p])).running = false ↔
        o.maxAttempts ≠ -1 ∧ (streak (ps ++ [p]) : Int) > o.maxAttempts) ∧
      ((passes o (loopStart b) (ps ++ [p])).running = false ↔
        .stopped ∈ (pass o (passes o (loopStart b) ps) p).2) := by
  obtain ⟨i1, i2⟩ := loop_inv o hs hf b ps (fun q hq => hd q (by simp [hq])) hr
  rw [passes_snoc, streak_snoc]
  rcases pass_retry o hs hf _ (streak ps) p (hd p (by simp)) hr i1 i2 (by rw [hi]; decide) with
    ⟨h1, h2, e⟩ | ⟨h1, d, -, -, -, h2, e⟩
  · rw [h2, e]
    refine ⟨⟨fun _ => ?_, fun _ => rfl⟩, ⟨fun _ => ?_, fun _ => rfl⟩⟩
    · omega
    · simp
  · rw [h2, e]
    refine ⟨⟨fun h => ?_, fun h => ?_⟩, ⟨fun h => ?_, fun h => ?_⟩⟩
    · simp [hi] at h
    · omega
    · simp [hi] at h
    · cases he : p.established <;> simp [he, hi] at h

/-- C154.  Without a limit the station tries for ever, however often it fails, unless the connection is closed on
request. -/
theorem C154_unlimited_partial (o : LoopOptions) (hs : Sane o) (hf : Fits o) (hm : o.maxAttempts = -1) (b : Int)
    (ps : List Pass) (hd : Drawn o ps) (hi : ∀ p ∈ ps, p.interrupt = .never) :
    (passes o (loopStart b) ps).running = true ∧ (observed o (loopStart b) ps).count .attempt = ps.length := by
  induction ps using snocInd with
  | nil => exact ⟨rfl, rfl⟩
  | snoc ps p ih =>
    obtain ⟨h1, h2⟩ := ih (fun q hq => hd q (by simp [hq])) (fun q hq => hi q (by simp [hq]))
    obtain ⟨g, -⟩ := C154_give_up_partial o hs hf b ps p hd h1 (hi p (by simp))
    refine ⟨?_, ?_⟩
    · cases hh : (passes o (loopStart b) (ps ++ [p])).running
      · exact absurd hm (g.1 hh).1
      · rfl
    · rw [observed_append, List.count_append, h2]
      have hp : (pass o (passes o (loopStart b) ps) p).2.count .attempt = 1 := by
        obtain ⟨i1, i2⟩ := loop_inv o hs hf b ps (fun q hq => hd q (by simp [hq])) h1
        rcases pass_retry o hs hf _ (streak ps) p (hd p (by simp)) h1 i1 i2 (by rw [hi p (by simp)]; decide) with
          ⟨-, -, e⟩ | ⟨-, d, -, -, -, -, e⟩
        · rw [e]; cases p.established <;> simp
        · rw [e]; cases p.established <;> by_cases hw : p.interrupt = .waiting <;> simp [hw]
      simp [observed, hp]

/-- C154.  Started with a limit of `n` attempts, a station that reaches nobody makes `n + 1` attempts and then reports
that it stopped (one more than the setting says: `C154_violated`). -/
theorem C154_count_partial (o : LoopOptions) (hs : Sane o) (hf : Fits o) (n : Nat) (hm : o.maxAttempts = n) (b : Int)
    (ps : List Pass) (hd : Drawn o ps) (hi : ∀ p ∈ ps, p.interrupt = .never ∧ p.established = false) :
    (observed o (loopStart b) ps).count .attempt = min ps.length (n + 1) ∧
      (.stopped ∈ observed o (loopStart b) ps ↔ n < ps.length) := by
  have key : (observed o (loopStart b) ps).count .attempt = min ps.length (n + 1) ∧
      (.stopped ∈ observed o (loopStart b) ps ↔ n < ps.length) ∧
      ((passes o (loopStart b) ps).running = true ↔ ps.length ≤ n) ∧
      streak ps = ps.length := by
    induction ps using snocInd with
    | nil => simp [observed, streak, passes, loopStart]
    | snoc ps p ih =>
      obtain ⟨h1, h2, h3, h4⟩ := ih (fun q hq => hd q (by simp [hq])) (fun q hq => hi q (by simp [hq]))
      have hst : streak (ps ++ [p]) = ps.length + 1 := by
        rw [streak_snoc, (hi p (by simp)).2, h4]; simp
      rw [observed_append, List.count_append, h1]
      simp only [observed, List.append_nil, List.mem_append, h2, List.length_append, List.length_cons, List.length_nil,
        hst]
      by_cases hr : (passes o (loopStart b) ps).running = true
      · have hl := h3.1 hr
        obtain ⟨g1, g2⟩ := C154_give_up_partial o hs hf b ps p hd hr (hi p (by simp)).1
        rw [hst, hm] at g1
        have hp : (pass o (passes o (loopStart b) ps) p).2.count .attempt = 1 := by
          obtain ⟨i1, i2⟩ := loop_inv o hs hf b ps (fun q hq => hd q (by simp [hq])) hr
          rcases pass_retry o hs hf _ (streak ps) p (hd p (by simp)) hr i1 i2 (by rw [(hi p (by simp)).1]; decide) with
            ⟨-, -, e⟩ | ⟨-, d, -, -, -, -, e⟩
          · rw [e]; cases p.established <;> simp
          · rw [e]; cases p.established <;> by_cases hw : p.interrupt = .waiting <;> simp [hw]
        rw [hp]
        refine ⟨by omega, ?_, ?_, trivial⟩
        · rw [← g2, g1]; omega
        · rw [← Bool.not_eq_false, ← Bool.not_eq_true, Bool.not_eq_true, Bool.not_eq_false]
          cases hh : (passes o (loopStart b) (ps ++ [p])).running
          · have := g1.1 hh; simp; omega
          · have : ¬ ((passes o (loopStart b) (ps ++ [p])).running = false) := by rw [hh]; simp
            rw [g1] at this
            simp; omega
      · have hl : ¬ ps.length ≤ n := fun h => hr (h3.2 h)
        rw [Bool.not_eq_true] at hr
        rw [passes_snoc, stopped_stays o _ hr, hr]
        simp
        omega
  exact ⟨key.1, key.2.1⟩

/-- C154 is violated: a limit of three attempts gives four. -/
theorem C154_violated :
    (observed ⟨3, 2, 1, 2⟩ (loopStart 0) (List.replicate 10 ⟨false, .never, 0⟩)).count .attempt = 4 := by
  decide

example : Sane ⟨3, 2, 1, 2⟩ ∧ Fits ⟨3, 2, 1, 2⟩ ∧
    (passes ⟨3, 2, 1, 2⟩ (loopStart 0) (List.replicate 3 ⟨false, .never, 0⟩)).running = true := by
  unfold Sane Fits
  decide

/-! ### C155 -/

/-- What an application may rely on: it is told about a connection only when there is none, it is told that connecting
stopped at most once, with a final report that there is no connection, and after that there is nothing. -/
def orderly : Bool → List LoopOut → Bool
  | _, [] => true
  | up, .connected :: r => !up && orderly true r
  | _, .disconnected :: r => orderly false r
  | _, .stopped :: r => decide (r = [.disconnected])
  | up, .attempt :: r => !up && orderly up r
  | up, .delay _ :: r => !up && orderly up r
  | _, .overflow :: r => decide (r = [])

theorem pass_running (o : LoopOptions) (s : LoopState) (p : Pass) (h : (pass o s p).1.running = true) :
    ∀ r, orderly false r = true → orderly false ((pass o s p).2 ++ r) = true := by
  intro r hr
  unfold pass at h ⊢
  cases hs : s.running
  · simpa [hs] using hr
  · simp only [hs, Bool.not_true, Bool.false_eq_true, if_false] at h ⊢
    by_cases hi : p.interrupt = .during
    · simp [hi] at h
    · simp only [if_neg hi] at h ⊢
      unfold retry at h ⊢
      generalize (if p.established then 1 else s.attempts) = a at h ⊢
      split at h
      · rename_i hc
        rw [if_pos hc]
        split at h
        · simp at h
        · rename_i d hd
          split at h
          · simp at h
          · rename_i hw
            simp only [hd, if_neg hw]
            cases p.established <;> simp [orderly, hr]
      · simp at h

theorem pass_not_stopped (o : LoopOptions) (s : LoopState) (p : Pass) (h : (pass o s p).1.running = true) :
    .stopped ∉ (pass o s p).2 := by
  unfold pass at h ⊢
  cases hs : s.running
  · simp
  · simp only [hs, Bool.not_true, Bool.false_eq_true, if_false] at h ⊢
    by_cases hi : p.interrupt = .during
    · simp [hi] at h
    · simp only [if_neg hi] at h ⊢
      unfold retry at h ⊢
      generalize (if p.established then 1 else s.attempts) = a at h ⊢
      split at h
      · rename_i hc
        rw [if_pos hc]
        split at h
        · simp at h
        · rename_i d hd
          split at h
          · simp at h
          · rename_i hw
            simp only [if_neg hw]
            cases p.established <;> simp
      · simp at h

theorem pass_last (o : LoopOptions) (s : LoopState) (p : Pass) (hs : s.running = true)
    (h : (pass o s p).1.running = false) :
    orderly false (pass o s p).2 = true ∧
      (.overflow ∉ (pass o s p).2 → ∃ q, (pass o s p).2 = q ++ [.stopped, .disconnected] ∧ .stopped ∉ q) := by
  unfold pass at h ⊢
  simp only [hs, Bool.not_true, Bool.false_eq_true, if_false] at h ⊢
  by_cases hi : p.interrupt = .during
  · simp only [if_pos hi]
    cases p.established
    · exact ⟨by decide, fun _ => ⟨[.attempt], rfl, by simp⟩⟩
    · exact ⟨by decide, fun _ => ⟨[.attempt, .connected], rfl, by simp⟩⟩
  · simp only [if_neg hi] at h ⊢
    unfold retry at h ⊢
    generalize (if p.established then 1 else s.attempts) = a at h ⊢
    split at h
    · rename_i hc
      rw [if_pos hc]
      split at h
      · rename_i hd
        simp only [hd]
        cases p.established
        · exact ⟨by decide, fun hn => absurd (by simp) hn⟩
        · exact ⟨by decide, fun hn => absurd (by simp) hn⟩
      · rename_i d hd
        split at h
        · rename_i hw
          simp only [hd, if_pos hw]
          cases p.established
          · exact ⟨by simp [orderly], fun _ => ⟨[.attempt, .delay d], rfl, by simp⟩⟩
          · exact ⟨by simp [orderly], fun _ => ⟨[.attempt, .connected, .disconnected, .delay d], rfl, by simp⟩⟩
        · simp at h
    · rename_i hc
      rw [if_neg hc]
      dsimp only
      cases p.established
      · exact ⟨by decide, fun _ => ⟨[.attempt], rfl, by simp⟩⟩
      · exact ⟨by decide, fun _ => ⟨[.attempt, .connected, .disconnected], rfl, by simp⟩⟩

theorem observed_stopped (o : LoopOptions) (s : LoopState) (hs : s.running = false) (ps : List Pass) :
    observed o s ps = [] ∧ passes o s ps = s := by
  induction ps with
  | nil => exact ⟨rfl, rfl⟩
  | cons p ps ih =>
    have e : passes o s (p :: ps) = passes o (pass o s p).1 ps := rfl
    rw [observed, e, stopped_stays o s hs]
    exact ⟨by simp [ih.1], ih.2⟩

/-- C155.  For every history of attempts, losses and calls of `close`, and every setting: the reports to the application
are in order (`orderly`), and the end of the connection attempts is reported exactly if they have ended, once. -/
theorem C155_reports (o : LoopOptions) (s : LoopState) (hs : s.running = true) (ps : List Pass) :
    orderly false (observed o s ps) = true ∧
      (.overflow ∉ observed o s ps →
        (observed o s ps).count .stopped = if (passes o s ps).running then 0 else 1) := by
  induction ps generalizing s with
  | nil => exact ⟨rfl, fun _ => by simp [observed, passes, hs]⟩
  | cons p ps ih =>
    have e : passes o s (p :: ps) = passes o (pass o s p).1 ps := rfl
    rw [observed, e]
    cases h : (pass o s p).1.running
    · obtain ⟨h1, h2⟩ := observed_stopped o _ h ps
      obtain ⟨l1, l2⟩ := pass_last o s p hs h
      rw [h1, h2, h, List.append_nil]
      refine ⟨l1, fun hn => ?_⟩
      obtain ⟨q, hq, hq'⟩ := l2 hn
      rw [hq, List.count_append, List.count_eq_zero_of_not_mem hq']
      rfl
    · obtain ⟨i1, i2⟩ := ih _ h
      refine ⟨pass_running o s p h _ i1, fun hn => ?_⟩
      simp only [List.mem_append, not_or] at hn
      rw [List.count_append, i2 hn.2]
      have : (pass o s p).2.count .stopped = 0 := by
        exact List.count_eq_zero_of_not_mem (pass_not_stopped o s p h)
      omega

example : observed exOptions (loopStart 0) [⟨true, .never, 1⟩, ⟨true, .during, 0⟩, ⟨true, .never, 0⟩] =
    [.attempt, .connected, .disconnected, .delay 2000, .attempt, .connected, .stopped, .disconnected] := by
  decide

end Verif.Sock
