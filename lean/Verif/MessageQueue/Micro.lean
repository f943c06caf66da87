import Verif.MessageQueue.Inv

/-!
# Decomposition of the queue operations into micro steps

`St.core` keeps the fields the invariants talk about.  Every operation of the model is a sequence of micro
steps (`micros_baseStep`), so an invariant only has to be checked for micro steps.
-/

namespace Verif.MQ

structure Core where
  txq : List Msg
  nq : List Msg
  inf : Option Msg
  dbN : List Row
  dbT : List Row
  nextId : Nat
  tr : List Ev
  ps : List Nat
  ws : List DbWrite
  acc : Bool
  reg : Bool
  att : Int
  chk : Kind → Bool
  fault : Option Fault

def St.core (s : St) : Core :=
  { txq := s.txq, nq := s.nq, inf := s.inFlight, dbN := s.dbN, dbT := s.dbT, nextId := s.nextId, tr := s.trace,
    ps := s.promiseSet, ws := s.writes, acc := s.accepted, reg := s.reg, att := s.cfg.attempts, chk := s.cfg.checkQueue, fault := s.fault }

/-- Events that are mere observations. -/
def Ev.obs : Ev → Bool
  | .timerFired _ | .errRecv _ | .recv _ | .csmsCall _ | .reply _ => true
  | _ => false

def Core.db (c : Core) (w : DbWrite) : Core :=
  { c with dbN := w.onTable .normal c.dbN, dbT := w.onTable .tx c.dbT, ws := c.ws ++ [w] }

def qOf (m : Msg) : Q := if m.kind.isTx then .tx else .normal

/-- Conditions under which a new message enters a queue with respect to its registration-related flags:
it is held back, or it is a BootNotification, or triggered, or the station is registered, or it came through the
raw interface (`raw`). -/
def Msg.quietOk (m : Msg) (c : Core) (raw : Prop) : Prop :=
  m.stall = true ∨ m.kind = .boot ∨ m.trig = true ∨ c.reg = true ∨ raw

/-- Retry changes. -/
def sameMsg (m' m : Msg) : Prop :=
  m'.iid = m.iid ∧ m'.kind = m.kind ∧ m'.stall = m.stall ∧ m'.trig = m.trig

/-- Features a micro step may use: pushes through the raw interface, a change of the attempts setting, a failing send, and
a failing send of a normal message that is not at the front of its queue. -/
structure Flags where
  raw : Prop
  att : Prop
  fail : Prop
  mid : Prop

structure Flags.Le (a b : Flags) : Prop where
  raw : a.raw → b.raw
  att : a.att → b.att
  fail : a.fail → b.fail
  mid : a.mid → b.mid

def Flags.none : Flags := ⟨False, False, False, False⟩

inductive Micro (fl : Flags) : Core → Core → Prop
  | ev (c : Core) (e : Ev) (h : e.obs = true) : Micro fl c { c with tr := c.tr ++ [e] }
  | failed (c : Core) (m : Msg) (h : c.inf = some m) : Micro fl c { c with tr := c.tr ++ [Ev.failed m.uid m.iid] }
  | accept (c : Core) : Micro fl c { c with acc := true, reg := true, tr := c.tr ++ [Ev.accepted] }
  | unreg (c : Core) : Micro fl c { c with reg := false }
  | att (c : Core) (n : Int) (h : fl.att) : Micro fl c { c with att := n }
  | bump (c : Core) : Micro fl c { c with nextId := c.nextId + 1 }
  | fulfilFresh (c : Core) (off : Bool) :
      Micro fl c { c with nextId := c.nextId + 1, ps := c.nextId :: c.ps,
                           tr := c.tr ++ [Ev.fulfil c.nextId off] }
  | pushTx (c : Core) (m : Msg) (hk : m.kind.isTx = true) (hi : m.iid = c.nextId) (ha : m.attempts = 0)
      (hq : m.quietOk c fl.raw) :
      Micro fl c (Core.db { c with
                            txq := c.txq ++ [m], nextId := c.nextId + 1,
                            tr := c.tr ++ [Ev.push m.iid m.kind] } (.ins .tx m.row))
  | pushN (c : Core) (m : Msg) (nq' : List Msg) (per : Bool) (hk : m.kind.isTx = false) (hi : m.iid = c.nextId)
      (ha : m.attempts = 0) (hq : m.quietOk c fl.raw) (hn : nq' = m :: c.nq ∨ nq' = c.nq ++ [m]) :
      Micro fl c (let c' : Core := { c with nq := nq', nextId := c.nextId + 1, tr := c.tr ++ [Ev.push m.iid m.kind] }
                   if per then c'.db (.ins .normal m.row) else c')
  | evictN (c : Core) (m : Msg) (rest : List Msg) (per : Bool) (hn : c.nq = m :: rest) :
      Micro fl c (let c' : Core := { c with nq := rest, tr := c.tr ++ [Ev.done m.iid .evicted] }
                   if per then c'.db (.del .normal m.iid .evicted) else c')
  | evictT (c : Core) (m : Msg) (hm : m ∈ c.txq) (hu : m.kind.isUpdate = true) :
      Micro fl c (Core.db { c with
                            txq := c.txq.filter (fun x => x.iid != m.iid),
                            tr := c.tr ++ [Ev.done m.iid .evicted] } (.del .tx m.iid .evicted))
  | sendTx (c : Core) (m m1 : Msg) (rest : List Msg) (hi : c.inf = none) (hq : c.txq = m :: rest)
      (hs : sameMsg m1 m) (ha : m1.attempts = m.attempts + 1) (hal : m.stall = true → c.acc = true) :
      Micro fl c { c with txq := rest, inf := some m1, tr := c.tr ++ [Ev.send m1] }
  | sendN (c : Core) (m m1 : Msg) (pre post : List Msg) (hi : c.inf = none) (hq : c.nq = pre ++ m :: post)
      (hs : sameMsg m1 m) (ha : m1.attempts = m.attempts + 1) (hal : m.stall = true → c.acc = true) :
      Micro fl c { c with nq := pre ++ post, inf := some m1, tr := c.tr ++ [Ev.send m1] }
  | failTx (c : Core) (hfl : fl.fail) (m m1 : Msg) (rest : List Msg) (hi : c.inf = none) (hq : c.txq = m :: rest)
      (hs : sameMsg m1 m) (ha : m1.attempts = m.attempts + 1) :
      Micro fl c { c with txq := m1 :: rest }
  | failN (c : Core) (hfl : fl.fail) (m m1 : Msg) (pre post : List Msg) (hi : c.inf = none) (hq : c.nq = pre ++ m :: post)
      (hs : sameMsg m1 m) (ha : m1.attempts = m.attempts + 1) :
      Micro fl c { c with nq := pre ++ m1 :: post }
  | failPop (c : Core) (hfl : fl.fail) (m m1 f : Msg) (pre post rest : List Msg) (hi : c.inf = none) (hq : c.nq = pre ++ m :: post)
      (hs : sameMsg m1 m) (ha : m1.attempts = m.attempts + 1) (hp : m.iid ∉ c.ps) (hr : pre ++ m1 :: post = f :: rest)
      (hmid : pre = [] ∨ fl.mid) :
      Micro fl c { c with nq := rest, ps := m.iid :: c.ps,
                           tr := c.tr ++ [Ev.fulfil m.iid true] ++ [Ev.done f.iid .popped] }
  | answer (c : Core) (m : Msg) (per : Bool) (hi : c.inf = some m) (hp : m.iid ∉ c.ps) (ht : m.kind.isTx = true → per = true) :
      Micro fl c (let c' : Core := { c with
                        inf := none, ps := m.iid :: c.ps,
                        tr := c.tr ++ [Ev.fulfil m.iid false] ++ [Ev.answer m.uid m.iid] ++ [Ev.done m.iid .answered] }
                   if per then c'.db (.del (qOf m) m.iid .answered) else c')
  | giveUp (c : Core) (m : Msg) (off per : Bool) (hi : c.inf = some m) (hp : m.iid ∉ c.ps)
      (ht : m.kind.isTx = true → per = true) (hA : m.kind.isTx = true → c.att ≤ m.attempts) :
      Micro fl c (let c' : Core := { c with
                        inf := none, ps := m.iid :: c.ps,
                        tr := c.tr ++ [Ev.failed m.uid m.iid] ++ [Ev.fulfil m.iid off] ++ [Ev.done m.iid .gaveUp] }
                   if per then c'.db (.del (qOf m) m.iid .gaveUp) else c')
  | retryTx (c : Core) (m m' : Msg) (hi : c.inf = some m) (hk : m.kind.isTx = true) (hs : sameMsg m' m)
      (ha : m'.attempts = m.attempts) (hA : (m.attempts : Int) < c.att) :
      Micro fl c { c with inf := none, txq := m' :: c.txq, nextId := c.nextId + 1, tr := c.tr ++ [Ev.failed m.uid m.iid] }
  | retryN (c : Core) (m m' : Msg) (hi : c.inf = some m) (hk : m.kind.isTx = false) (hs : sameMsg m' m)
      (ha : m'.attempts = m.attempts) (hA : ((m.attempts : Int) < c.att ∧ c.chk m.kind = true) ∨ m.kind = .boot) :
      Micro fl c { c with inf := none, nq := m' :: c.nq, nextId := c.nextId + 1, tr := c.tr ++ [Ev.failed m.uid m.iid] }
  | mapTx (c : Core) (f : Msg → Msg) (hf : ∀ m, sameMsg (f m) m ∧ (f m).attempts = m.attempts) :
      Micro fl c { c with txq := c.txq.map f }
  | faultNull (c : Core) (h : c.inf = none) : Micro fl c { c with fault := some .nullInFlight }
  | faultPromise (c : Core) (m : Msg) (h : m.iid ∈ c.ps) (hm : c.inf = some m ∨ m ∈ c.nq) :
      Micro fl c { c with fault := some .promiseTwice }

inductive Micros (fl : Flags) : Core → Core → Prop
  | refl (c : Core) : Micros fl c c
  | tail {a b c : Core} : Micros fl a b → Micro fl b c → Micros fl a c

namespace Micros

theorem one {fl a b} (h : Micro fl a b) : Micros fl a b := .tail (.refl a) h

theorem trans {fl a b c} (h1 : Micros fl a b) (h2 : Micros fl b c) : Micros fl a c := by
  induction h2 with
  | refl => exact h1
  | tail _ h ih => exact .tail ih h

end Micros

theorem Micro.mono {a b : Flags} (hle : a.Le b) {c c' : Core} (h : Micro a c c') : Micro b c c' := by
  have hq : ∀ {m : Msg}, m.quietOk c a.raw → m.quietOk c b.raw := by
    intro m h
    simp only [Msg.quietOk] at h ⊢
    rcases h with h | h | h | h | h
    · exact Or.inl h
    · exact Or.inr (Or.inl h)
    · exact Or.inr (Or.inr (Or.inl h))
    · exact Or.inr (Or.inr (Or.inr (Or.inl h)))
    · exact Or.inr (Or.inr (Or.inr (Or.inr (hle.raw h))))
  cases h with
  | ev e h => exact .ev c e h
  | failed m h => exact .failed c m h
  | accept => exact .accept c
  | unreg => exact .unreg c
  | att n h => exact .att c n (hle.att h)
  | bump => exact .bump c
  | fulfilFresh off => exact .fulfilFresh c off
  | pushTx m hk hi ha h => exact .pushTx c m hk hi ha (hq h)
  | pushN m nq' per hk hi ha h hn => exact .pushN c m nq' per hk hi ha (hq h) hn
  | evictN m rest per hn => exact .evictN c m rest per hn
  | evictT m hm hu => exact .evictT c m hm hu
  | sendTx m m1 rest hi h hs ha hal => exact .sendTx c m m1 rest hi h hs ha hal
  | sendN m m1 pre post hi h hs ha hal => exact .sendN c m m1 pre post hi h hs ha hal
  | failTx hfl m m1 rest hi h hs ha => exact .failTx c (hle.fail hfl) m m1 rest hi h hs ha
  | failN hfl m m1 pre post hi h hs ha => exact .failN c (hle.fail hfl) m m1 pre post hi h hs ha
  | failPop hfl m m1 f pre post rest hi h hs ha hp hr hmid =>
    exact .failPop c (hle.fail hfl) m m1 f pre post rest hi h hs ha hp hr (hmid.imp id hle.mid)
  | answer m per hi hp ht => exact .answer c m per hi hp ht
  | giveUp m off per hi hp ht hA => exact .giveUp c m off per hi hp ht hA
  | retryTx m m' hi hk hs ha hA => exact .retryTx c m m' hi hk hs ha hA
  | retryN m m' hi hk hs ha hA => exact .retryN c m m' hi hk hs ha hA
  | mapTx f hf => exact .mapTx c f hf
  | faultNull h => exact .faultNull c h
  | faultPromise m h hm => exact .faultPromise c m h hm

theorem Micros.mono {a b : Flags} (hle : a.Le b) {c c' : Core} (h : Micros a c c') : Micros b c c' := by
  induction h with
  | refl => exact .refl _
  | tail _ h2 ih => exact .tail ih (h2.mono hle)

theorem sameMsg_key {m' m : Msg} (h : sameMsg m' m) : m'.key = m.key := by
  simp [Msg.key, h.1, h.2.1]

end Verif.MQ
