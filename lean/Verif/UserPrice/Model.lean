/-!
# OCPP 1.6: waiting for the user price during an authorization

Model of the part of `ChargePointImpl::authorize_id_token` that runs after the local lists have been consulted
(lib/ocpp/v16/charge_point_impl.cpp l.3549-3611) together with the thread that processes the messages of the CSMS: the answer
to the Authorize.req, and `handle_set_user_price` (l.3230-3319). Both use `user_price_map_mutex`, `user_price_cvs` and
`tariff_messages_by_id_token`. Any number of authorizations run concurrently (one thread each), interleaved arbitrarily
with the processing thread. California pricing (`CustomDisplayCostAndPriceEnabled`) is on; without it the handler
of SetUserPrice is not registered and nobody waits.

Simplifications:
* each authorization has a number of its own, which also stands for the id of its Authorize.req;
* a tariff message is a number; the session lookup and the message contents of `handle_set_user_price` are in Verif.Price;
* the processing thread takes the messages one after the other in the order of their arrival; messages of other kinds are
  left out;
* durations are left out: the waiting times may be over at any moment.
-/

namespace Verif.UserPrice

abbrev Tok := String

/-- What the future of the Authorize.req delivers (l.3558-3611). `none`: 60 s over, offline, CALLERROR, or an answer that
cannot be read. -/
inductive Ans
  | accepted
  | refused
  | none
deriving DecidableEq, Repr

/-- What `authorize_id_token` returns: the status of the CSMS and the tariff message. -/
inductive Res
  | tariff (m : Nat)   -- Accepted, with the tariff message of the CSMS (l.3588)
  | default            -- Accepted, with the default tariff message (l.3592)
  | refused            -- another status of the CSMS
  | noAnswer           -- no answer: Invalid, or Accepted if unknown ids are allowed offline
deriving DecidableEq, Repr

/-- Where an authorization stands. -/
inductive Th
  | fresh
  | want (t : Tok)                        -- before l.3549
  | asked (t : Tok) (fut : Option Ans)    -- l.3556-3566: holds the mutex, the future is empty or set
  | waiting (t : Tok)                     -- l.3576: in `wait_for`, mutex released
  | ended (t : Tok) (r : Res)
deriving DecidableEq, Repr

/-- A message of the CSMS. -/
inductive Net
  | conf (j : Nat) (accepted : Bool)      -- Authorize.conf for authorization `j`
  | price (t : Tok) (m : Nat)             -- DataTransfer SetUserPrice
deriving DecidableEq, Repr

/-- What can be observed. -/
inductive Ev
  | asked (j : Nat) (t : Tok)             -- Authorize.req handed to the dispatcher
  | answered (j : Nat) (accepted : Bool)  -- Authorize.conf processed
  | handled (t : Tok) (m : Nat)           -- SetUserPrice processed
  | ended (j : Nat) (t : Tok) (r : Res)   -- `authorize_id_token` returned
deriving DecidableEq, Repr

structure St where
  owner : Option Nat              -- the authorization that holds `user_price_map_mutex` across steps
  tariffs : Tok → Option Nat      -- `tariff_messages_by_id_token`
  cvs : Tok → Bool                -- the keys of `user_price_cvs`
  th : Nat → Th
  inbox : List Net                -- received, not yet processed
  blocked : Option (Tok × Nat)    -- the processing thread is at l.3310 with this message
  ub : Bool                       -- a condition variable was destroyed while a thread waited on it
  tr : List Ev

def init : St :=
  { owner := none, tariffs := fun _ => none, cvs := fun _ => false, th := fun _ => .fresh, inbox := [], blocked := none,
    ub := false, tr := [] }

/-- Update of a map. -/
def upd [DecidableEq α] (f : α → β) (a : α) (b : β) : α → β := fun x => if x = a then b else f x

/-- Steps; the scheduler chooses among them. -/
inductive Op
  | begin (j : Nat) (t : Tok)     -- the application calls `authorize_id_token`
  | lock (j : Nat)                -- l.3549-3556
  | giveUp (j : Nat)              -- the future is set without an answer (offline, response timeout, CALLERROR)
  | futTimeout (j : Nat)          -- l.3558-3562
  | proceed (j : Nat)             -- l.3564-3583: future set
  | wake (j : Nat) (timeUp : Bool) -- the wait at l.3576 wakes up, for whatever reason; `timeUp`: waiting time over
  | arrive (m : Net)              -- a message of the CSMS arrives
  | recv                          -- the processing thread takes the next message
  | store                         -- the processing thread gets the mutex: l.3310-3318
deriving Repr

def St.finish (s : St) (j : Nat) (t : Tok) (r : Res) : St :=
  { s with
    th := upd s.th j (.ended t r)
    tr := s.tr ++ [.ended j t r] }

/-- l.3549-3556. -/
def St.lock (s : St) (j : Nat) (t : Tok) : St :=
  { s with
    owner := some j
    tariffs := upd s.tariffs t none
    th := upd s.th j (.asked t none)
    tr := s.tr ++ [.asked j t] }

/-- l.3585-3595, with the mutex held; afterwards the mutex is released. Erasing the condition variable while another
authorization waits on it is undefined behaviour; `others` are the authorizations to look at (see `step`). -/
def St.take (s : St) (j : Nat) (t : Tok) : St :=
  let s := { s with cvs := upd s.cvs t false }
  match s.tariffs t with
  | some m => { s with tariffs := upd s.tariffs t none }.finish j t (.tariff m)
  | none => s.finish j t .default

/-- Does another authorization among the first `n` wait on the condition variable of `t`? -/
def St.otherWaits (s : St) (j : Nat) (t : Tok) (n : Nat) : Bool :=
  (List.range n).any fun i => i != j && decide (s.th i = .waiting t)

/-- Numbers of the authorizations that have been begun are below this bound (ghost: computed from the trace). -/
def bound (tr : List Ev) : Nat :=
  tr.foldl (fun n e => match e with | .asked j _ => max n (j + 1) | _ => n) 0

def St.wake (s : St) (j : Nat) (t : Tok) (timeUp : Bool) : St :=
  if s.tariffs t ≠ none ∨ timeUp = true then
    { s.take j t with ub := s.otherWaits j t (bound s.tr) }
  else s

/-- l.3564-3611 up to the wait. -/
def St.proceed (s : St) (j : Nat) (t : Tok) : Ans → St
  | .accepted =>
    let s := { s with owner := none, cvs := upd s.cvs t true }
    -- `wait_for` looks at the predicate first
    if s.tariffs t ≠ none then { s.take j t with ub := s.otherWaits j t (bound s.tr) }
    else { s with th := upd s.th j (.waiting t) }
  | .refused => { s with owner := none }.finish j t .refused
  | .none => { s with owner := none }.finish j t .noAnswer

/-- The processing thread takes a message. Authorize.conf sets the future if it is still empty
(`handle_call_result`); SetUserPrice leads to l.3310. -/
def St.recv (s : St) : St :=
  match s.inbox with
  | [] => s
  | .conf j acc :: rest =>
    let s := { s with inbox := rest }
    match s.th j with
    | .asked t none =>
      { s with
        th := upd s.th j (.asked t (some (if acc then .accepted else .refused)))
        tr := s.tr ++ [.answered j acc] }
    | _ => s
  | .price t m :: rest => { s with inbox := rest, blocked := some (t, m) }

/-- l.3310-3318. -/
def St.store (s : St) (t : Tok) (m : Nat) : St :=
  let s := { s with
    blocked := none
    tr := s.tr ++ [Ev.handled t m] }
  if s.cvs t then { s with tariffs := upd s.tariffs t (some m) } else s

/-- One step; steps that are not possible change nothing, and nothing happens after undefined behaviour. -/
def step (s : St) (op : Op) : St :=
  if s.ub then s
  else
    match op with
    | .begin j t => if s.th j = .fresh then { s with th := upd s.th j (.want t) } else s
    | .lock j =>
      match s.th j, s.owner with
      | .want t, none => s.lock j t
      | _, _ => s
    | .giveUp j =>
      match s.th j with
      | .asked t none => { s with th := upd s.th j (.asked t (some .none)) }
      | _ => s
    | .futTimeout j =>
      match s.th j with
      | .asked t none => { s with owner := none }.finish j t .noAnswer
      | _ => s
    | .proceed j =>
      match s.th j with
      | .asked t (some a) => s.proceed j t a
      | _ => s
    | .wake j timeUp =>
      match s.th j, s.owner with
      | .waiting t, none => s.wake j t timeUp
      | _, _ => s
    | .arrive m => { s with inbox := s.inbox ++ [m] }
    | .recv => if s.blocked = none then s.recv else s
    | .store =>
      match s.blocked, s.owner with
      | some (t, m), none => s.store t m
      | _, _ => s

def run (s : St) (ops : List Op) : St := ops.foldl step s

end Verif.UserPrice
