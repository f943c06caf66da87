import Verif.Tx16.StepsApp
import Verif.Tx16.StepsQueue
import Verif.Tx16.StepsAnswer
import Verif.Tx16.StepsRestart

/-! Properties of the transactions of OCPP 1.6. -/

namespace Verif.Tx16

set_option linter.constructorNameAsVariable false

theorem run_snoc (s : S) (ops : List Op) (op : Op) : run s (ops ++ [op]) = step (run s ops) op := by
  simp [run, List.foldl_append]

theorem snoc_ind {α : Type} {P : List α → Prop} (nil : P []) (snoc : ∀ l a, P l → P (l ++ [a])) (l : List α) : P l := by
  rw [← l.reverse_reverse]
  induction l.reverse with
  | nil => exact nil
  | cons a r ih => rw [List.reverse_cons]; exact snoc _ a ih

theorem inv_run (ops : List Op) : Sane ops → NoRace ops → CrashOk ops → Inv (run {} ops) [] := by
  induction ops using snoc_ind with
  | nil => intro _ _ _; exact inv_init
  | snoc ops op ih =>
    intro h1 h2 h3
    have h := ih (fun pre c k r m post e => h1 pre c k r m (post ++ [op]) (by rw [e]; simp))
      (fun pre n post m e => h2 pre n (post ++ [op]) m (by rw [e]; simp))
      (fun pre l post e => h3 pre l (post ++ [op]) (by rw [e]; simp))
    rw [run_snoc]
    cases op with
    | startInsert c k r m => exact h.startInsert c k r m (h1 ops c k r m [] rfl).1 (h1 ops c k r m [] rfl).2
    | startQueue => exact h.startQueue
    | stopQueue c v => exact h.stopQueue c v
    | stopMark => exact h.stopMark
    | stopStore => exact h.stopStore
    | sample c v => exact h.sample c v
    | drop => exact h.drop
    | retry =>
      simp only [step, retry]
      split
      · exact h
      · rename_i m q hq
        split
        · rename_i hm; exact h.retryStop hq hm
        · rename_i hm; exact h.retryStart hq (by simpa using hm)
    | deliver n =>
      simp only [step, deliver]
      split
      · exact h
      · rename_i m q hq
        split
        · rename_i hm; exact h.deliverStop hq hm
        · rename_i hm
          have hm' : m.stop = false := by simpa using hm
          exact h.deliverStart hq hm' n (h2 ops n [] m rfl (by rw [hq]; rfl) hm')
    | crash l => exact h.restart l (h3 ops l [] rfl).1 (fun p r q e => (h3 ops l [] rfl).2 p r q e)

/-- C114: apart from repetitions of a request that was not answered, the CSMS gets at most one StopTransaction.req for a transaction, whatever is sent, lost,
repeated or given up, and whenever the station crashes.
Partial: the hypotheses `NoRace` and `CrashOk` are needed, see `C114_violated` and `C115_race_violated`. -/
theorem C114_partial (ops : List Op) (h1 : Sane ops) (h2 : NoRace ops) (h3 : CrashOk ops) : (stopsSeen (run {} ops).log).Nodup :=
  (inv_run ops h1 h2 h3).stopOnceL

/-- C115: StopTransaction.req carries the transaction id the CSMS has assigned to the transaction.  Partial: as for C114. -/
theorem C115_partial (ops : List Op) (h1 : Sane ops) (h2 : NoRace ops) (h3 : CrashOk ops) (k : Nat) (x v n : Int)
    (hs : .stopped k x v ∈ (run {} ops).log) (ha : .assigned k n ∈ (run {} ops).log) : x = n :=
  (inv_run ops h1 h2 h3).done k x v n hs ha

/-- A transaction that starts and stops while the station is offline; its messages are then repeated and delivered, a second transaction is interrupted by a
crash and resumed, stopped, and a third one is interrupted by a crash and not resumed. -/
def history : List Op :=
  [.startInsert 1 10 (-5) 100, .startQueue, .sample 1 150, .stopQueue 1 200, .stopMark, .stopStore, .retry, .deliver 77, .retry, .deliver 0,
   .startInsert 1 11 (-6) 200, .startQueue, .deliver 78, .startInsert 2 12 (-7) 5, .startQueue, .deliver 79, .sample 2 9,
   .crash [11], .stopQueue 1 300, .stopMark, .stopStore, .deliver 0, .deliver 0]

theorem mem_split_index {α : Type} {l pre post : List α} {a : α} (h : l = pre ++ a :: post) :
    ∃ i, i < l.length ∧ l[i]? = some a ∧ pre = l.take i ∧ post = l.drop (i + 1) := by
  subst h; exact ⟨pre.length, by simp, by simp, by simp, by simp [List.drop_append]⟩

/-- The hypotheses as checks, for the examples. -/
def saneB (ops : List Op) : Bool :=
  (List.range ops.length).all fun i => match ops[i]? with
    | some (.startInsert c k _ _) => (run {} (ops.take i)).rows.all (fun x => x.session != k) && (run {} (ops.take i)).active.all (fun t => t.conn != c)
    | _ => true

theorem sane_of {ops : List Op} (h : saneB ops = true) : Sane ops := by
  intro pre c k r m post e
  obtain ⟨i, hi, hg, rfl, rfl⟩ := mem_split_index e
  have := List.all_eq_true.mp h i (List.mem_range.mpr hi)
  rw [hg] at this
  simpa using this

def isQueued (k : Nat) : Pc → Bool
  | .queued _ j _ _ => j == k
  | _ => false

def raceFree (s : S) : Bool :=
  match s.queue with
  | [] => true
  | m :: _ => m.stop || !isQueued m.session s.pc

def noRaceB (ops : List Op) : Bool :=
  (List.range ops.length).all fun i => match ops[i]? with
    | some (.deliver _) => raceFree (run {} (ops.take i))
    | _ => true

theorem noRace_of {ops : List Op} (h : noRaceB ops = true) : NoRace ops := by
  intro pre n post m e hm hs c mid v hp
  obtain ⟨i, hi, hg, rfl, rfl⟩ := mem_split_index e
  have := List.all_eq_true.mp h i (List.mem_range.mpr hi)
  rw [hg] at this
  simp only [raceFree] at this
  split at this
  · rename_i hq; rw [hq] at hm; simp at hm
  · rename_i m' q hq
    rw [hq] at hm
    simp only [List.head?_cons, Option.some.injEq] at hm
    subst hm
    rw [hp, hs] at this
    simp [isQueued] at this

def lastB (l : List Nat) : List Row → Bool
  | [] => true
  | r :: b => (!l.contains r.session || b.all (fun x => x.conn != r.conn)) && lastB l b

theorem last_of {l : List Nat} : ∀ {rows : List Row}, lastB l rows = true → ∀ a r b, rows = a ++ r :: b → r.session ∈ l → ∀ x ∈ b, x.conn ≠ r.conn := by
  intro rows
  induction rows with
  | nil => intro _ a r b e; simp at e
  | cons x rows ih =>
    intro h a r b e hr y hy
    simp only [lastB, Bool.and_eq_true, Bool.or_eq_true, Bool.not_eq_true', List.all_eq_true, bne_iff_ne, List.contains_eq_mem, decide_eq_false_iff_not] at h
    cases a with
    | nil =>
      simp only [List.nil_append, List.cons.injEq] at e
      obtain ⟨rfl, rfl⟩ := e
      rcases h.1 with h1 | h1
      · exact absurd hr h1
      · exact h1 y hy
    | cons z a =>
      simp only [List.cons_append, List.cons.injEq] at e
      exact ih h.2 a r b e.2 hr y hy

def crashOkB (ops : List Op) : Bool :=
  (List.range ops.length).all fun i => match ops[i]? with
    | some (.crash l) => (run {} (ops.take i)).queue.all (fun m => !m.stop || (run {} (ops.take i)).log.contains (.assigned m.session m.id)) &&
        lastB l ((run {} (ops.take i)).rows.filter (fun r => !r.acked))
    | _ => true

theorem crashOk_of {ops : List Op} (h : crashOkB ops = true) : CrashOk ops := by
  intro pre l post e
  obtain ⟨i, hi, hg, rfl, rfl⟩ := mem_split_index e
  have := List.all_eq_true.mp h i (List.mem_range.mpr hi)
  rw [hg] at this
  simp only [Bool.and_eq_true, List.all_eq_true, Bool.or_eq_true, Bool.not_eq_true', List.contains_eq_mem, decide_eq_true_eq] at this
  refine ⟨fun m hm hs => ?_, last_of this.2⟩
  rcases this.1 m hm with h' | h'
  · rw [hs] at h'; simp at h'
  · exact h'

example : Sane history ∧ NoRace history ∧ CrashOk history ∧
    (run {} history).log = [.assigned 10 77, .stopped 10 77 200, .assigned 11 78, .assigned 12 79, .stopped 12 79 9, .stopped 11 78 300] :=
  ⟨sane_of (by decide +kernel), noRace_of (by decide +kernel), crashOk_of (by decide +kernel), by decide +kernel⟩

/-- A transaction starts and stops offline; StartTransaction.req is answered, then the station crashes. -/
def crashHistory : List Op :=
  [.startInsert 1 10 (-5) 100, .startQueue, .stopQueue 1 200, .stopMark, .stopStore, .deliver 77, .crash [], .deliver 0, .deliver 0]

/-- C114 is false of the code: the ids registered for queued messages are not persistent, and after a crash StopTransaction.req of a transaction is looked for
by the id of the CSMS.  The station stops one transaction twice. -/
theorem C114_violated : ∃ ops, Sane ops ∧ NoRace ops ∧ ¬ (stopsSeen (run {} ops).log).Nodup :=
  ⟨crashHistory, sane_of (by decide +kernel), noRace_of (by decide +kernel), by decide +kernel⟩

/-- C115 is false of the code: the first of the two StopTransaction.req has the internal id, which the CSMS never gave. -/
theorem C115_violated : ∃ ops k x v n, Sane ops ∧ NoRace ops ∧ Ev.stopped k x v ∈ (run {} ops).log ∧ Ev.assigned k n ∈ (run {} ops).log ∧ x ≠ n :=
  ⟨crashHistory, 10, -5, 200, 77, sane_of (by decide +kernel), noRace_of (by decide +kernel), by decide +kernel⟩

/-- C115 is false of the code even without a crash: if StartTransaction.conf is handled between the queueing of StopTransaction.req and `set_finished`, the id is
not registered and StopTransaction.req is sent with the internal id. -/
theorem C115_race_violated : ∃ ops k x v n, Sane ops ∧ CrashOk ops ∧ Ev.stopped k x v ∈ (run {} ops).log ∧ Ev.assigned k n ∈ (run {} ops).log ∧ x ≠ n :=
  ⟨[.startInsert 1 10 (-5) 100, .startQueue, .stopQueue 1 200, .deliver 77, .stopMark, .stopStore, .deliver 0], 10, -5, 200, 77,
    sane_of (by decide +kernel), crashOk_of (by decide +kernel), by decide +kernel⟩

end Verif.Tx16
