import Verif.Sock.Send
import Verif.Sock.LoopTheorems

/-!
# Theorems about sending and receiving
-/

namespace Verif.Sock

/-! ## Specification -/

/-- The payloads of the calls of `send`, in order. -/
def calls (es : List SendEvent) : List (List Char) :=
  es.filterMap (fun e => match e with | .send p => some p | _ => none)

/-- A message of the peer: its frames, each given by the pieces in which it arrives (all but the last, and the last). -/
abbrev Frame := List (List Char) × List Char

def Frame.events (f : Frame) : List RecvEvent := f.1.map (fun b => .piece b false) ++ [.piece f.2 true]

def Frame.bytes (f : Frame) : List Char := f.1.flatten ++ f.2

/-- The events and the text of a message, given by its frames. -/
def messageEvents (m : List Frame) : List RecvEvent := m.flatMap Frame.events

def messageText (m : List Frame) : List Char := m.flatMap Frame.bytes

/-! ## Lemmas -/

theorem sendRun_snoc (s : Sender) (es : List SendEvent) (e : SendEvent) :
    sendRun s (es ++ [e]) = sendStep (sendRun s es) e := by
  simp [sendRun, List.foldl_append]

theorem calls_snoc (es : List SendEvent) (e : SendEvent) :
    calls (es ++ [e]) = calls es ++ (match e with | .send p => [p] | _ => []) := by
  cases e <;> simp [calls, List.filterMap_append]

/-- The invariant: identifiers grow along wire and queue (a message that is written is last on the wire), and everything
is what the calls said. -/
structure SendInv (s : Sender) (es : List SendEvent) : Prop where
  next : s.next = (calls es).length
  wireOrder : (s.wire.map (·.1)).Pairwise (· < ·)
  queueOrder : (s.queue.map (·.id)).Pairwise (· < ·)
  apart : ∀ w ∈ s.wire, ∀ m ∈ s.queue, w.1 < m.id ∨ (w.1 = m.id ∧ m.written = true)
  below : ∀ m ∈ s.queue, m.id < s.next
  belowWire : ∀ w ∈ s.wire, w.1 < s.next
  wireCall : ∀ w ∈ s.wire, (calls es)[w.1]? = some w.2
  queueCall : ∀ m ∈ s.queue, (calls es)[m.id]? = some m.payload
  writtenWire : ∀ m ∈ s.queue, m.written = true → m.payload = [] ∨ (m.id, m.payload) ∈ s.wire
  sentWire : ∀ i ∈ s.sent, ∃ p, (calls es)[i]? = some p ∧ (p = [] ∨ (i, p) ∈ s.wire)

theorem get_append {α : Type} {l : List α} {i : Nat} {x : α} (h : l[i]? = some x) (r : List α) :
    (l ++ r)[i]? = some x := by
  have : i < l.length := (List.getElem?_eq_some_iff.1 h).1
  rw [List.getElem?_append_left this]; exact h

theorem inv_popWritten (s : Sender) (es : List SendEvent) (h : SendInv s es) : SendInv (popWritten s) es := by
  have hsub : ∀ m ∈ s.queue.dropWhile (·.written), m ∈ s.queue := fun m hm => (List.dropWhile_suffix _).subset hm
  have htak : ∀ m ∈ s.queue.takeWhile (·.written), m ∈ s.queue := fun m hm => (List.takeWhile_prefix _).subset hm
  refine ⟨h.next, h.wireOrder, ?_, fun w hw m hm => h.apart w hw m (hsub m hm), fun m hm => h.below m (hsub m hm),
    h.belowWire, h.wireCall, fun m hm => h.queueCall m (hsub m hm), fun m hm => h.writtenWire m (hsub m hm), ?_⟩
  · exact List.Pairwise.sublist ((List.dropWhile_sublist _).map _) h.queueOrder
  · intro i hi
    simp only [popWritten, List.mem_append, List.mem_map] at hi
    rcases hi with hi | ⟨m, hm, rfl⟩
    · exact h.sentWire i hi
    · refine ⟨m.payload, h.queueCall m (htak m hm), h.writtenWire m (htak m hm) ?_⟩
      have := List.all_takeWhile (l := s.queue) (p := (·.written))
      rw [List.all_eq_true] at this
      exact this m hm

theorem pop_head (s : Sender) (m : OutMsg) (q : List OutMsg) (h : (popWritten s).queue = m :: q) : m.written = false := by
  have := List.head?_dropWhile_not (p := (·.written)) s.queue
  have hq : s.queue.dropWhile (·.written) = m :: q := h
  rw [hq] at this
  simpa using this

theorem inv_write (s : Sender) (es : List SendEvent) (ok : Bool) (h : SendInv s es)
    (hh : ∀ m q, s.queue = m :: q → m.written = false) : SendInv (writeFirst s ok) es := by
  unfold writeFirst
  cases hq : s.queue with
  | nil => exact h
  | cons m q =>
    dsimp only
    cases ok with
    | false => simpa using h
    | true =>
      have hm : m ∈ s.queue := by rw [hq]; simp
      have hlt : ∀ w ∈ s.wire, w.1 < m.id := by
        intro w hw
        rcases h.apart w hw m hm with h1 | ⟨-, h2⟩
        · exact h1
        · rw [hh m q hq] at h2; cases h2
      have hqo := h.queueOrder
      rw [hq, List.map_cons, List.pairwise_cons] at hqo
      simp only [if_true]
      refine ⟨h.next, ?_, ?_, ?_, ?_, ?_, ?_, ?_, ?_, ?_⟩
      · simp only [List.map_append, List.map_cons, List.map_nil]
        rw [List.pairwise_append]
        refine ⟨h.wireOrder, by simp, ?_⟩
        intro a ha b hb
        simp only [List.mem_map] at ha
        obtain ⟨w, hw, rfl⟩ := ha
        simp only [List.mem_singleton] at hb
        subst hb
        exact hlt w hw
      · simp only [List.map_cons, List.pairwise_cons]; exact hqo
      · intro w hw x hx
        simp only [List.mem_append, List.mem_singleton] at hw
        simp only [List.mem_cons] at hx
        rcases hw with hw | rfl <;> rcases hx with rfl | hx
        · exact Or.inl (hlt w hw)
        · exact h.apart w hw x (by rw [hq]; simp [hx])
        · exact Or.inr ⟨rfl, rfl⟩
        · exact Or.inl (hqo.1 x.id (by simp only [List.mem_map]; exact ⟨x, hx, rfl⟩))
      · intro x hx
        simp only [List.mem_cons] at hx
        rcases hx with rfl | hx
        · exact h.below m hm
        · exact h.below x (by rw [hq]; simp [hx])
      · intro w hw
        simp only [List.mem_append, List.mem_singleton] at hw
        rcases hw with hw | rfl
        · exact h.belowWire w hw
        · exact h.below m hm
      · intro w hw
        simp only [List.mem_append, List.mem_singleton] at hw
        rcases hw with hw | rfl
        · exact h.wireCall w hw
        · exact h.queueCall m hm
      · intro x hx
        simp only [List.mem_cons] at hx
        rcases hx with rfl | hx
        · exact h.queueCall m hm
        · exact h.queueCall x (by rw [hq]; simp [hx])
      · intro x hx hw
        simp only [List.mem_cons] at hx
        rcases hx with rfl | hx
        · right; simp
        · rcases h.writtenWire x (by rw [hq]; simp [hx]) hw with h1 | h1
          · exact Or.inl h1
          · right; simp [h1]
      · intro i hi
        obtain ⟨p, h1, h2⟩ := h.sentWire i hi
        refine ⟨p, h1, ?_⟩
        rcases h2 with h2 | h2
        · exact Or.inl h2
        · right; simp [h2]

theorem inv_send (s : Sender) (es : List SendEvent) (e : SendEvent) (h : SendInv s es) :
    SendInv (sendStep s e) (es ++ [e]) := by
  have hcalls : ∀ (i : Nat) (p : List Char), (calls es)[i]? = some p → (calls (es ++ [e]))[i]? = some p := by
    intro i p hp
    rw [calls_snoc]
    exact get_append hp _
  have lift : ∀ t : Sender, SendInv t es → (match e with | .send _ => False | _ => True) → SendInv t (es ++ [e]) := by
    intro t ht he
    have : calls (es ++ [e]) = calls es := by
      rw [calls_snoc]; cases e <;> simp at he ⊢
    exact ⟨by rw [this]; exact ht.next, ht.wireOrder, ht.queueOrder, ht.apart, ht.below, ht.belowWire,
      by rw [this]; exact ht.wireCall, by rw [this]; exact ht.queueCall, ht.writtenWire,
      by rw [this]; exact ht.sentWire⟩
  cases e with
  | send p =>
    have hlen : calls (es ++ [.send p]) = calls es ++ [p] := by rw [calls_snoc]
    have hnew : (calls (es ++ [.send p]))[s.next]? = some p := by
      rw [hlen, h.next]; simp
    have hsent : ∀ i ∈ s.sent, ∃ p', (calls (es ++ [.send p]))[i]? = some p' ∧ (p' = [] ∨ (i, p') ∈ s.wire) := by
      intro i hi
      obtain ⟨p', h1, h2⟩ := h.sentWire i hi
      exact ⟨p', hcalls i p' h1, h2⟩
    unfold sendStep
    dsimp only
    split
    · refine ⟨by rw [hlen]; simp [h.next], h.wireOrder, ?_, ?_, ?_, ?_, fun w hw => hcalls _ _ (h.wireCall w hw), ?_, ?_, hsent⟩
      · simp only [List.map_append, List.map_cons, List.map_nil]
        rw [List.pairwise_append]
        refine ⟨h.queueOrder, by simp, ?_⟩
        intro a ha b hb
        simp only [List.mem_map] at ha
        obtain ⟨m, hm, rfl⟩ := ha
        simp only [List.mem_singleton] at hb
        subst hb
        exact h.below m hm
      · intro w hw m hm
        simp only [List.mem_append, List.mem_singleton] at hm
        rcases hm with hm | rfl
        · exact h.apart w hw m hm
        · exact Or.inl (h.belowWire w hw)
      · intro m hm
        simp only [List.mem_append, List.mem_singleton] at hm
        rcases hm with hm | rfl
        · exact Nat.lt_succ_of_lt (h.below m hm)
        · exact Nat.lt_succ_self _
      · intro w hw; exact Nat.lt_succ_of_lt (h.belowWire w hw)
      · intro m hm
        simp only [List.mem_append, List.mem_singleton] at hm
        rcases hm with hm | rfl
        · exact hcalls _ _ (h.queueCall m hm)
        · exact hnew
      · intro m hm hw
        simp only [List.mem_append, List.mem_singleton] at hm
        rcases hm with hm | rfl
        · exact h.writtenWire m hm hw
        · left; simpa using hw
    · exact ⟨by rw [hlen]; simp [h.next], h.wireOrder, h.queueOrder, h.apart,
        fun m hm => Nat.lt_succ_of_lt (h.below m hm), fun w hw => Nat.lt_succ_of_lt (h.belowWire w hw),
        fun w hw => hcalls _ _ (h.wireCall w hw), fun m hm => hcalls _ _ (h.queueCall m hm), h.writtenWire, hsent⟩
  | writable ok =>
    unfold sendStep
    dsimp only
    split
    · exact lift _ (inv_write _ es ok (inv_popWritten s es h) (pop_head s)) trivial
    · exact lift _ h trivial
  | lost =>
    exact lift _ ⟨h.next, h.wireOrder, by simp [sendStep], by simp [sendStep], by simp [sendStep], h.belowWire,
      h.wireCall, by simp [sendStep], by simp [sendStep], h.sentWire⟩ trivial
  | connect =>
    exact lift _ ⟨h.next, h.wireOrder, by simp [sendStep], by simp [sendStep], by simp [sendStep], h.belowWire,
      h.wireCall, by simp [sendStep], by simp [sendStep], h.sentWire⟩ trivial

theorem inv_sendRun (es : List SendEvent) : SendInv (sendRun {} es) es := by
  induction es using snocInd with
  | nil => exact ⟨rfl, by simp [sendRun], by simp [sendRun], by simp [sendRun], by simp [sendRun], by simp [sendRun],
      by simp [sendRun], by simp [sendRun], by simp [sendRun], by simp [sendRun]⟩
  | snoc es e ih => rw [sendRun_snoc]; exact inv_send _ es e ih

/-! ## Property theorems -/

/-- C160.  Whatever happens to the connection: what is transmitted are messages that were given to `send`, unchanged, each
at most once per call, and in the order of the calls. -/
theorem C160_order (es : List SendEvent) :
    ((sendRun {} es).wire.map (·.1)).Pairwise (· < ·) ∧
      ∀ w ∈ (sendRun {} es).wire, (calls es)[w.1]? = some w.2 :=
  ⟨(inv_sendRun es).wireOrder, (inv_sendRun es).wireCall⟩

/-- Three messages, one of them on a second connection. -/
def exSend : List SendEvent :=
  [.connect, .send ['a'], .send ['b'], .writable true, .writable false, .lost, .send ['c'], .connect, .send ['d'],
    .writable true, .writable true]

example : (sendRun {} exSend).wire = [(0, ['a']), (3, ['d'])] ∧ (sendRun {} exSend).sent = [0, 3] := by decide

/-- C161.  If `send` returns true, the message has been transmitted.  Partial: it is not empty (`C161_empty_violated`). -/
theorem C161_true_partial (es : List SendEvent) (i : Nat) (p : List Char) (hi : i ∈ (sendRun {} es).sent)
    (hp : (calls es)[i]? = some p) (hne : p ≠ []) : (i, p) ∈ (sendRun {} es).wire := by
  obtain ⟨p', h1, h2⟩ := (inv_sendRun es).sentWire i hi
  rw [hp] at h1
  cases h1
  rcases h2 with h2 | h2
  · exact absurd h2 hne
  · exact h2

theorem write_pending (s : Sender) (m : OutMsg) (q : List OutMsg) (h : (popWritten s).queue = m :: q)
    (hc : s.connected = true) :
    sendStep s (.writable true) =
      { popWritten s with
        queue := { m with written := true } :: q
        wire := s.wire ++ [(m.id, m.payload)] } := by
  simp only [sendStep, hc, if_true, writeFirst, h]
  rfl

theorem sent_mono (es : List SendEvent) : ∀ (t : Sender) (i : Nat), i ∈ t.sent → i ∈ (sendRun t es).sent := by
  induction es with
  | nil => intro t i h; exact h
  | cons e es ihm =>
    intro t i h
    apply ihm
    cases e with
    | send p => unfold sendStep; dsimp only; split <;> exact h
    | lost => exact h
    | connect => exact h
    | writable ok =>
      unfold sendStep writeFirst
      dsimp only
      split
      · split
        · simp [popWritten, h]
        · split <;> simp [popWritten, h]
      · exact h

theorem popped_sent (s : Sender) (hc : s.connected = true) (m : OutMsg) (hm : m ∈ s.queue.takeWhile (·.written))
    (ok : Bool) : m.id ∈ (sendStep s (.writable ok)).sent := by
  have : m.id ∈ (popWritten s).sent := by
    simp only [popWritten, List.mem_append, List.mem_map]
    exact Or.inr ⟨m, hm, rfl⟩
  simp only [sendStep, hc, if_true, writeFirst]
  split
  · exact this
  · split <;> exact this

theorem flush (n : Nat) (s : Sender) (hc : s.connected = true) (hn : s.queue.countP (fun m => !m.written) ≤ n) :
    ∀ m ∈ s.queue, m.id ∈ (sendRun s (List.replicate (n + 1) (.writable true))).sent := by
  induction n generalizing s with
  | zero =>
    intro m hm
    have hall : ∀ x ∈ s.queue, x.written = true := by
      have : s.queue.countP (fun m => !m.written) = 0 := by omega
      rw [List.countP_eq_zero] at this
      intro x hx
      simpa using this x hx
    show m.id ∈ (sendStep s (.writable true)).sent
    apply popped_sent s hc
    have hself : ∀ l : List OutMsg, (∀ x ∈ l, x.written = true) → l.takeWhile (·.written) = l := by
      intro l
      induction l with
      | nil => intro _; rfl
      | cons x l il =>
        intro h
        rw [List.takeWhile_cons_of_pos (h x (by simp)), il (fun y hy => h y (List.mem_cons_of_mem x hy))]
    rw [hself s.queue hall]
    exact hm
  | succ n ih =>
    intro m hm
    show m.id ∈ (sendRun (sendStep s (.writable true)) (List.replicate (n + 1) (.writable true))).sent
    have hcount : s.queue.countP (fun m => !m.written) =
        (s.queue.takeWhile (·.written)).countP (fun m => !m.written) +
        (s.queue.dropWhile (·.written)).countP (fun m => !m.written) := by
      rw [← List.countP_append, List.takeWhile_append_dropWhile]
    have hsplit : m ∈ s.queue.takeWhile (·.written) ∨ m ∈ s.queue.dropWhile (·.written) := by
      rw [← List.takeWhile_append_dropWhile (p := (·.written)) (l := s.queue), List.mem_append] at hm
      exact hm
    rcases hsplit with hm' | hm'
    · exact sent_mono _ _ _ (popped_sent s hc m hm' true)
    · obtain ⟨x, q, hq⟩ : ∃ x q, (popWritten s).queue = x :: q := by
        cases hd : s.queue.dropWhile (·.written) with
        | nil => rw [hd] at hm'; simp at hm'
        | cons x q => exact ⟨x, q, hd⟩
      have hq' : s.queue.dropWhile (·.written) = x :: q := hq
      have hx := pop_head s x q hq
      rw [hq', List.countP_cons_of_pos (by simp [hx])] at hcount
      rw [write_pending s x q hq hc]
      have := ih { popWritten s with
        queue := { x with written := true } :: q
        wire := s.wire ++ [(x.id, x.payload)] } hc (by
          dsimp only
          rw [List.countP_cons_of_neg (by simp)]
          omega)
      rw [hq'] at hm'
      simp only [List.mem_cons] at hm'
      rcases hm' with rfl | hm'
      · exact this { m with written := true } (by simp)
      · exact this m (by simp [hm'])

/-- C161.  On a connection that stays up and can be written to, every message that is waiting is transmitted, and its
`send` can return true, after one more writable event than messages are waiting. -/
theorem C161_progress_partial (es : List SendEvent) (hc : (sendRun {} es).connected = true) :
    let s := sendRun {} es
    ∀ m ∈ s.queue, m.payload ≠ [] →
      m.id ∈ (sendRun s (List.replicate (s.queue.length + 1) (.writable true))).sent ∧
      (m.id, m.payload) ∈ (sendRun s (List.replicate (s.queue.length + 1) (.writable true))).wire := by
  intro s m hm hne
  have hs := flush s.queue.length s hc List.countP_le_length m hm
  refine ⟨hs, ?_⟩
  have hrun : sendRun s (List.replicate (s.queue.length + 1) (.writable true)) =
      sendRun {} (es ++ List.replicate (s.queue.length + 1) (.writable true)) := by
    simp [s, sendRun, List.foldl_append]
  rw [hrun] at hs ⊢
  have hcall : (calls (es ++ List.replicate (s.queue.length + 1) (.writable true)))[m.id]? = some m.payload := by
    have := (inv_sendRun es).queueCall m hm
    rw [show calls (es ++ List.replicate (s.queue.length + 1) (.writable true)) =
      calls es ++ calls (List.replicate (s.queue.length + 1) (.writable true)) from List.filterMap_append]
    exact get_append this _
  exact C161_true_partial _ m.id m.payload hs hcall hne

example : (sendRun {} [.connect, .send ['a'], .send ['b']]).queue.length = 2 ∧
    (sendRun {} [.connect, .send ['a'], .send ['b'], .writable true, .writable true, .writable true]).sent = [0, 1] := by
  decide

/-- C161 is violated for the answer false: `send` gives up after a second (or finds the connection lost), but the message
stays in the queue and is transmitted afterwards, or has been transmitted already.  The caller, who sends it again, sends it
twice. -/
theorem C161_violated :
    0 ∉ (sendRun {} [.connect, .send ['a']]).sent ∧
    (sendRun {} [.connect, .send ['a'], .send ['a'], .writable true, .writable true]).wire = [(0, ['a']), (1, ['a'])] ∧
    0 ∉ (sendRun {} [.connect, .send ['a'], .writable true, .lost]).sent ∧
    (sendRun {} [.connect, .send ['a'], .writable true, .lost]).wire = [(0, ['a'])] := by
  decide

/-- C161 is violated by an empty message: `send` returns true, but nothing is transmitted. -/
theorem C161_empty_violated :
    0 ∈ (sendRun {} [.connect, .send [], .writable true]).sent ∧ (sendRun {} [.connect, .send [], .writable true]).wire = [] := by
  decide

/-! ### Receiving -/

theorem recv_pieces (r : Receiver) (bs : List (List Char)) :
    recvRun r (bs.map (fun b => .piece b false)) = { r with buffer := r.buffer ++ bs.flatten } := by
  induction bs generalizing r with
  | nil => simp [recvRun]
  | cons b bs ih =>
    show recvRun (recvStep r (.piece b false)) _ = _
    rw [ih]
    simp [recvStep]

theorem recv_frame (r : Receiver) (f : Frame) (hb : r.buffer = []) :
    recvRun r f.events = ⟨[], r.messages ++ [f.bytes]⟩ := by
  unfold Frame.events
  have : recvRun r (f.1.map (fun b => .piece b false) ++ [.piece f.2 true]) =
      recvStep (recvRun r (f.1.map (fun b => .piece b false))) (.piece f.2 true) := by
    simp [recvRun, List.foldl_append]
  rw [this, recv_pieces]
  simp [recvStep, hb, Frame.bytes]

/-- C162.  In whatever pieces they arrive, the messages of the peer are passed on complete, in order, once each, and a
message that is cut off by the loss of the connection leaves no trace in later ones.  Partial: each message is sent in
one frame (`C162_violated`). -/
theorem C162_messages_partial (before after : List (List Frame)) (cut : List (List Char))
    (h1 : ∀ m ∈ before, m.length = 1) (h2 : ∀ m ∈ after, m.length = 1) :
    (recvRun {} (before.flatMap messageEvents ++ cut.map (fun b => .piece b false) ++ [.lost] ++
      after.flatMap messageEvents)).messages = before.map messageText ++ after.map messageText := by
  have key : ∀ (ms : List (List Frame)) (r : Receiver), (∀ m ∈ ms, m.length = 1) → r.buffer = [] →
      recvRun r (ms.flatMap messageEvents) = ⟨[], r.messages ++ ms.map messageText⟩ := by
    intro ms
    induction ms with
    | nil => intro r _ hb; cases r; simp at hb; simp [recvRun, hb]
    | cons m ms ih =>
      intro r hm hb
      obtain ⟨f, hf⟩ := List.length_eq_one_iff.1 (hm m (by simp))
      have : recvRun r ((m :: ms).flatMap messageEvents) =
          recvRun (recvRun r (messageEvents m)) (ms.flatMap messageEvents) := by
        simp [recvRun, List.foldl_append]
      rw [this, hf]
      have e : messageEvents [f] = f.events := by simp [messageEvents]
      rw [e, recv_frame r f hb, ih _ (fun x hx => hm x (List.mem_cons_of_mem m hx)) rfl]
      simp [messageText]
  have hsplit : recvRun {} (before.flatMap messageEvents ++ cut.map (fun b => .piece b false) ++ [.lost] ++
      after.flatMap messageEvents) =
      recvRun (recvStep (recvRun (recvRun {} (before.flatMap messageEvents)) (cut.map (fun b => .piece b false))) .lost)
        (after.flatMap messageEvents) := by
    simp [recvRun, List.foldl_append]
  rw [hsplit, key before {} h1 rfl, recv_pieces, key after _ h2 rfl]
  simp [recvStep]

example : (recvRun {} (messageEvents [([['[', '2'], [',']], ['x', ']'])])).messages = [['[', '2', ',', 'x', ']']] := by decide

/-- C162 is violated by a message that the peer sends in two frames, as the WebSocket protocol allows: each frame is passed
on as a message of its own. -/
theorem C162_violated :
    (recvRun {} (messageEvents [([], ['[', '2']), ([], [',', 'x', ']'])])).messages = [['[', '2'], [',', 'x', ']']] ∧
    messageText [([], ['[', '2']), ([], [',', 'x', ']'])] = ['[', '2', ',', 'x', ']'] := by
  decide

end Verif.Sock
