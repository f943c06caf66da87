import Mathlib.Data.List.Basic
/-
Threads of the websocket that hand received messages and deferred callbacks to the library: `thread_websocket_message_recv_loop`,
`safe_close_threads`, `push_deferred_callback`, `thread_deferred_callback_queue` and the destructor
(lib/ocpp/common/websocket/websocket_libwebsockets.cpp), `SafeQueue` (include/ocpp/common/safe_queue.hpp).  Every operation of a
`SafeQueue` takes its mutex and is one step; the steps of the threads are interleaved in any way.
-/
namespace Verif.Sock

abbrev Text := List Char

/-! ## Received messages -/

/-- Where a receiving thread is, `thread_websocket_message_recv_loop` l.570-604. -/
inductive ReaderAt
  /-- Before `is_interupted()`, l.577. -/
  | outer
  /-- Before `recv_message_queue.empty()`, l.583. -/
  | check
  /-- Before `recv_message_queue.pop()`, l.587. -/
  | take
  /-- With the message, before `message_callback`, l.592. -/
  | holding (m : Text)
  /-- Inside `message_callback`. -/
  | calling (m : Text)
  /-- Before the second `is_interupted()` and the wait of at most a second, l.599-601. -/
  | pause
  /-- The thread has ended. -/
  | ended
deriving DecidableEq, Repr

/-- A receiving thread; `interrupted` belongs to its `ConnectionData`. -/
structure Reader where
  place : ReaderAt := .outer
  interrupted : Bool := false
deriving DecidableEq, Repr

/-- `recv_message_queue` and the receiving threads, the one of the current `conn_data` last; the messages whose callback has
been called, in this order; `undefined`: `pop` of an empty `std::queue`. -/
structure Delivery where
  queue : List Text := []
  readers : List Reader := []
  started : List Text := []
  undefined : Bool := false
deriving DecidableEq, Repr

/-- Events of the receiving side. -/
inductive DlvEvent
  /-- `on_conn_message`, l.1618-1626. -/
  | received (m : Text)
  /-- `clear_all_queues` in `on_conn_connected`, `on_conn_close`, `on_conn_fail`. -/
  | cleared
  /-- The next step of a receiving thread. -/
  | run (i : Nat)
  /-- `safe_close_threads` in another thread, up to the joining of the receiving thread. -/
  | interrupt
  /-- `start_connecting` in another thread: a new receiving thread, after the old one has been joined. -/
  | start
  /-- `start_connecting` inside the callback of the current receiving thread, which is detached. -/
  | restartInside
deriving DecidableEq, Repr

/-- The thread `i` goes to a place. -/
def Delivery.go (d : Delivery) (i : Nat) (r : Reader) (p : ReaderAt) : Delivery :=
  { d with readers := d.readers.set i { r with place := p } }

/-- l.587, `SafeQueue::pop` (safe_queue.hpp l.32-44); the thread is not followed after the undefined behaviour. -/
def takeMessage (d : Delivery) (i : Nat) (r : Reader) : Delivery :=
  match d.queue with
  | [] => { d.go i r .ended with undefined := true }
  | m :: l => { d.go i r (.holding m) with queue := l }

/-- One step of a receiving thread, l.577-604.  The wait l.600 may end at any time. -/
def readerStep (d : Delivery) (i : Nat) (r : Reader) : Delivery :=
  match r.place with
  | .outer => d.go i r (if r.interrupted then .ended else .check)
  | .check => d.go i r (if d.queue.isEmpty then .pause else .take)
  | .take => takeMessage d i r
  | .holding m => { d.go i r (.calling m) with started := d.started ++ [m] }
  | .calling _ => d.go i r .check
  | .pause => d.go i r .outer
  | .ended => d

/-- `do_interrupt_and_exit` for the current thread. -/
def interruptLast : List Reader → List Reader
  | [] => []
  | [r] => [{ r with interrupted := true }]
  | r :: l => r :: interruptLast l

/-- The current thread is where `p` says; `true` without threads. -/
def lastIs (p : ReaderAt → Bool) (l : List Reader) : Bool :=
  match l.getLast? with
  | none => true
  | some r => p r.place

def isEnded : ReaderAt → Bool
  | .ended => true
  | _ => false

def isCalling : ReaderAt → Bool
  | .calling _ => true
  | _ => false

/-- `start_connecting` l.947-1003; `join` (l.927-931) waits until the old thread has ended. -/
def startReader (d : Delivery) : Delivery :=
  if lastIs isEnded d.readers then { d with readers := d.readers ++ [{}] } else d

/-- `start_connecting` in the receiving thread: `detach` (l.921-925) in place of `join`. -/
def restartInside (d : Delivery) : Delivery :=
  if !d.readers.isEmpty && lastIs isCalling d.readers then
    { d with
      queue := []
      readers := interruptLast d.readers ++ [{}] }
  else d

/-- One event; one that is not possible changes nothing. -/
def dlvStep (d : Delivery) : DlvEvent → Delivery
  | .received m => { d with queue := d.queue ++ [m] }
  | .cleared => { d with queue := [] }
  | .run i =>
    match d.readers[i]? with
    | none => d
    | some r => readerStep d i r
  | .interrupt =>
    { d with
      queue := []
      readers := interruptLast d.readers }
  | .start => startReader d
  | .restartInside => restartInside d

def dlvRun (d : Delivery) (es : List DlvEvent) : Delivery := es.foldl dlvStep d

/-! ## Deferred callbacks -/

/-- Where the thread of the deferred callbacks is, `thread_deferred_callback_queue` l.1710-1735. -/
inductive WorkerAt
  /-- Before the predicate of the wait is evaluated (under the mutex), l.1714; safe_queue.hpp l.86-95. -/
  | test
  /-- The predicate was false; the mutex is still held. -/
  | drowsy
  /-- Blocked in `cv.wait`. -/
  | asleep
  /-- Before l.1717. -/
  | check
  /-- Before `pop`, l.1721. -/
  | take
  /-- With the callback, l.1726. -/
  | holding (c : Nat)
  /-- Inside the callback. -/
  | calling (c : Nat)
  | ended
deriving DecidableEq, Repr

/-- The deferred callbacks (by number); `pushed` and `started` record what happened. -/
structure Deferred where
  queue : List Nat := []
  stop : Bool := false
  place : WorkerAt := .test
  pushed : List Nat := []
  started : List Nat := []
  undefined : Bool := false
deriving DecidableEq, Repr

inductive DefEvent
  /-- `push_deferred_callback`, l.1701-1708. -/
  | push (c : Nat)
  /-- The next step of the thread. -/
  | run
  /-- A spurious or late wake-up. -/
  | wake
  /-- `stop_deferred_handler.store(true)` in the destructor, l.372: without the mutex of the queue. -/
  | stop
  /-- `notify_waiting_thread` in the destructor, l.373. -/
  | notify
deriving DecidableEq, Repr

/-- A notification wakes a blocked thread only. -/
def woken : WorkerAt → WorkerAt
  | .asleep => .test
  | p => p

/-- `SafeQueue::push` (safe_queue.hpp l.46-54): not possible while the thread holds the mutex. -/
def pushCallback (d : Deferred) (c : Nat) : Deferred :=
  if d.place = .drowsy then d
  else
    { d with
      queue := d.queue ++ [c]
      pushed := d.pushed ++ [c]
      place := woken d.place }

/-- `pop` l.1721. -/
def takeCallback (d : Deferred) : Deferred :=
  match d.queue with
  | [] =>
    { d with
      undefined := true
      place := .ended }
  | c :: l =>
    { d with
      queue := l
      place := .holding c }

/-- One step of the thread, l.1711-1734. -/
def workerStep (d : Deferred) : Deferred :=
  match d.place with
  | .test => { d with place := if !d.queue.isEmpty || d.stop then .check else .drowsy }
  | .drowsy => { d with place := .asleep }
  | .asleep => d
  | .check => { d with place := if d.stop && d.queue.isEmpty then .ended else .take }
  | .take => takeCallback d
  | .holding c =>
    { d with
      place := .calling c
      started := d.started ++ [c] }
  | .calling _ => { d with place := .test }
  | .ended => d

def defStep (d : Deferred) : DefEvent → Deferred
  | .push c => pushCallback d c
  | .run => workerStep d
  | .wake => { d with place := woken d.place }
  | .stop => { d with stop := true }
  | .notify => { d with place := woken d.place }

def defRun (d : Deferred) (es : List DefEvent) : Deferred := es.foldl defStep d

end Verif.Sock
