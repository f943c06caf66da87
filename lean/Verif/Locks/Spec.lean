import Verif.Locks.Model

/-!
C251: no calls of the library wait for each other for ever.
-/

namespace Locks

/-- The order of the mutexes: a thread that waits for one has only earlier ones. -/
def rank : Cls → Nat
  | .endCleanup => 0
  | .endOcsp => 1
  | .connection => 2
  | .endRecv => 3
  | .endDeferred => 4
  | .transferCallbacks => 5
  | .stopTx => 6
  | .userPrice => 7
  | .connectorStatus => 8
  | .evseMeter => 9
  | .ocsp => 10
  | .cleanup => 11
  | .states => 12
  | .activeTx => 13
  | .txMeter => 14
  | .measurement => 15
  | .maxProfiles => 16
  | .defaultProfiles => 17
  | .txProfiles => 18
  | .configuration => 19
  | .availability => 20
  | .endQueue => 21
  | .message => 22
  | .nextMessage => 23
  | .averages => 24
  | .sessions => 25
  | .file => 26
  | .endClient => 27
  | .reconnect => 28
  | .connData => 29
  | .queue => 30

/-- A section begins later in the order than all mutexes of the thread, apart from the same recursive mutex. -/
def later (h : List Mx) : Sec → Prop
  | .lock c _ => ∀ m ∈ h, rank m.cls < rank c ∨ (m = ⟨c, 0⟩ ∧ recursive c = true ∧ single c = true)
  | .again _ _ => False
  | .app => True

/-- At the start no two threads have the same mutex (that is, no two threads are the same thread of the library). -/
def Distinct (s : List Thread) : Prop := s.Pairwise fun a b => ∀ m ∈ a.held, m ∉ b.held

/-- All calls have returned and all threads have ended. -/
def Finished (s : List Thread) : Prop := ∀ t ∈ s, t.prog = []

/-- The number of operations still to be done. -/
def size : List Thread → Nat
  | [] => 0
  | t :: s => t.prog.length + size s

/-- Whatever the threads do, and however they are scheduled: as long as not all of them have finished, one of them can go on; and they
have finished after at most as many steps as there are operations. -/
def NoDeadlock (allow : List Mx → Sec → Prop) : Prop :=
  ∀ start : List Thread, (∀ t ∈ start, Proper allow t) → Distinct start →
    ∀ n s, Run start n s → (Finished s ∨ ∃ s', Step s s') ∧ n + size s = size start

end Locks
