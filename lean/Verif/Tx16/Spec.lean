import Verif.Tx16.Model

/-! What the properties say about histories. -/

namespace Verif.Tx16

/-- The sessions whose StopTransaction.req the CSMS has got, as often as it got one. -/
def stopsSeen (l : List Ev) : List Nat := l.filterMap (fun e => match e with | .stopped k _ _ => some k | .assigned _ _ => none)

/-- The application starts transactions with new session ids, and on connectors without a transaction. -/
def Sane (ops : List Op) : Prop :=
  ∀ pre c k r m post, ops = pre ++ .startInsert c k r m :: post →
    (∀ x ∈ (run {} pre).rows, x.session ≠ k) ∧ ∀ t ∈ (run {} pre).active, t.conn ≠ c

/-- The answer to a StartTransaction.req is not handled just while the application is stopping that transaction, between the queueing of StopTransaction.req and
the marking of the transaction. -/
def NoRace (ops : List Op) : Prop :=
  ∀ pre n post m, ops = pre ++ .deliver n :: post → (run {} pre).queue.head? = some m → m.stop = false →
    ∀ c mid v, (run {} pre).pc ≠ .queued c m.session mid v

/-- The station does not crash while there is a StopTransaction.req in the queue that does not have the id assigned by the CSMS; and a session is resumed only if
it is the last one of its connector that is not acknowledged. -/
def CrashOk (ops : List Op) : Prop :=
  ∀ pre l post, ops = pre ++ .crash l :: post →
    (∀ m ∈ (run {} pre).queue, m.stop = true → Ev.assigned m.session m.id ∈ (run {} pre).log) ∧
    ∀ a r b, (run {} pre).rows.filter (fun r => !r.acked) = a ++ r :: b → r.session ∈ l → ∀ x ∈ b, x.conn ≠ r.conn

end Verif.Tx16
