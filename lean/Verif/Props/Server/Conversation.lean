import Verif.Proofs.Server.Conversation
/-!
# Property C92: what the server sends is what a STOMP server may send

`k.hist` are the frames the connection has processed, `k.out` what it has written.
-/
namespace Stomp.Server
open Stomp

/-- **C92** (part). In every execution, what the server has written to a client is a conversation as the specifications describe it. Missing: the header `ack`
that version 1.2 requires in messages from topics that have to be acknowledged (`C92_ack_false`). -/
theorem C92_conversation_partial (cfg : Config) (es : List Sys.Ev) (s : Sys) (h : Sys.init.run cfg es = some s) (hc : s.crashed = false)
    (c : Nat) (k : Conn) (hk : s.conns[c]? = some k) : Spec.Conversation k.hist (k.out.map (·.frame)) :=
  (shape_run h hc c k hk).conv

/-- **C92** (part). As long as the connection is served and no write has failed, the conversation is open: nothing has been written if the client has sent nothing,
and otherwise there is the CONNECTED frame and no ERROR frame. -/
theorem C92_open_partial (cfg : Config) (es : List Sys.Ev) (s : Sys) (h : Sys.init.run cfg es = some s) (hc : s.crashed = false)
    (c : Nat) (k : Conn) (hk : s.conns[c]? = some k) (hrun : k.stage = .run) (hw : k.wfail = false) :
    (k.hist = [] ∧ k.out = []) ∨
    ∃ f rest g middle, k.hist = f :: rest ∧ k.out.map (·.frame) = some g :: middle ∧ Spec.Greets f g ∧ ∀ x ∈ middle, Spec.During k.hist f g x := by
  obtain ⟨ces, hr, _⟩ := conn_run h hc hk
  have hg := gate_run cfg c ces k hr
  obtain ⟨h1, h2⟩ := (shape_run h hc c k hk).live hrun hw
  cases h0 : k.connected with
  | false =>
    left
    have h3 := h1 h0
    unfold outs at h3
    refine ⟨?_, List.map_eq_nil_iff.1 h3⟩
    rcases (hg.closed h0).2.2.2.2.2.2.2 with h4 | ⟨_, h4⟩
    · exact h4
    · exact absurd hrun h4
  | true =>
    right
    obtain ⟨f, rest, v, cx, cy, middle, u1, u2, u3, u4⟩ := h2 h0
    exact ⟨f, rest, _, middle, u1, u3, connected_greets u2 _ _, u4⟩

/-- **C92** (part). A message from a queue has the header `ack` if and only if the subscription is not in mode `auto`; its value is the message's id. -/
theorem C92_ack_partial (cfg : Config) (es : List Sys.Ev) (s : Sys) (h : Sys.init.run cfg es = some s) (hc : s.crashed = false)
    (c : Nat) (k : Conn) (hk : s.conns[c]? = some k) (w : Wr) (hw : w ∈ k.out) (g : Frame) (hg : w.frame = some g) (hm : g.command = b!"MESSAGE")
    (hq : ∃ d, Spec.hdr g b!"destination" = some d ∧ Spec.IsQueue d) :
    ∃ q ∈ k.hist, q.command = b!"SUBSCRIBE" ∧ Spec.hdr q b!"id" = Spec.hdr g b!"subscription" ∧ Spec.hdr q b!"destination" = Spec.hdr g b!"destination" ∧
      Spec.hdr g b!"ack" = (if Spec.hdr q b!"ack" = none ∨ Spec.hdr q b!"ack" = some b!"auto" then none else Spec.hdr g b!"message-id") ∧
      (Spec.hdr g b!"message-id").isSome := by
  obtain ⟨_, f, q, _, _, _, hq1, hqc, hd⟩ := C44_delivered_partial cfg es s h hc c k hk w hw g hg hm
  obtain ⟨d, _, d2, d3⟩ := hd.destination
  obtain ⟨i, i1, i2⟩ := hd.subscription
  refine ⟨q, hq1, hqc, i1.trans i2.symm, d3.trans d2.symm, ?_, hd.messageId⟩
  split
  · rename_i ha; exact hd.noAck (Or.inr ha)
  · rename_i ha
    obtain ⟨d', e1, e2⟩ := hq
    rw [d2] at e1; injection e1 with e1; subst e1
    exact hd.ack ⟨d, d3, e2⟩ (fun e => ha (Or.inl e)) (fun e => ha (Or.inr e))

/-- The first client connects with version 1.2 and heart-beats and subscribes in mode `client`; the second one sends a message. -/
def talkRun (d : Bytes) : List Sys.Ev :=
  [.accept, .conn 0 (.recv ⟨b!"CONNECT", [(b!"accept-version", b!"1.2"), (b!"login", b!"u"), (b!"passcode", b!"p"), (b!"heart-beat", b!"0,1000")], []⟩), .conn 0 (.frame true true), .flush 0, .proc,
   .accept, .conn 1 (.recv ⟨b!"CONNECT", [(b!"accept-version", b!"1.2"), (b!"login", b!"u"), (b!"passcode", b!"p")], []⟩), .conn 1 (.frame true true), .flush 1, .proc,
   .conn 0 (.recv ⟨b!"SUBSCRIBE", [(b!"id", b!"1"), (b!"destination", d), (b!"ack", b!"client")], []⟩), .conn 0 (.frame true true), .flush 0, .proc,
   .conn 1 (.recv ⟨b!"SEND", [(b!"destination", d)], [1]⟩), .conn 1 (.frame true true), .flush 1, .proc, .push]

/-- **C92** fails: the session has version 1.2, the subscription asks for acknowledgements, and the message from the topic has no header `ack`. -/
theorem C92_ack_false : ∃ es s k g, Sys.init.run sampleCfg es = some s ∧ s.crashed = false ∧ s.conns[0]? = some k ∧ k.version = b!"1.2" ∧
    (⟨some g, some ⟨1, 0⟩⟩ : Wr) ∈ k.out ∧ g.command = b!"MESSAGE" ∧ Spec.hdr g b!"subscription" = some b!"1" ∧ Spec.hdr g b!"ack" = none ∧
    ∀ q ∈ k.hist, q.command = b!"SUBSCRIBE" → Spec.hdr q b!"id" = some b!"1" ∧ Spec.hdr q b!"ack" = some b!"client" := by
  refine ⟨talkRun b!"/topic/a" ++ [.conn 0 (.wr true)], _, _,
    ⟨b!"MESSAGE", [(b!"destination", b!"/topic/a"), (b!"subscription", b!"1"), (b!"message-id", b!"1"), (b!"id", b!"1")], [1]⟩, rfl, ?_, rfl, ?_, ?_, ?_, ?_, ?_, ?_⟩ <;> decide +kernel

-- C92: a session with a heart-beat, a message, a receipt and an error.
example : ∃ s k, Sys.init.run sampleCfg (talkRun b!"/queue/a" ++ [.conn 0 (.timer true), .conn 0 (.sub true),
      .conn 0 (.recv ⟨b!"BEGIN", [(b!"transaction", b!"t"), (b!"receipt", b!"r")], []⟩), .conn 0 (.frame true true),
      .conn 0 (.recv ⟨b!"COMMIT", [], []⟩), .conn 0 (.frame true true)]) = some s ∧ s.crashed = false ∧ s.conns[0]? = some k ∧
    k.out.map (fun w => w.frame.map (fun g => (g.command, Spec.hdr g b!"ack"))) =
      [some (b!"CONNECTED", none), none, some (b!"MESSAGE", some b!"1"), some (b!"RECEIPT", none), some (b!"ERROR", none)] := by
  refine ⟨_, _, rfl, ?_, rfl, ?_⟩ <;> decide +kernel

-- C92: a session that is open, and one that has not begun.
example : ∃ s k k', Sys.init.run sampleCfg (talkRun b!"/queue/a" ++ [.accept]) = some s ∧ s.crashed = false ∧ s.conns[0]? = some k ∧ k.stage = .run ∧ k.wfail = false ∧
    k.hist ≠ [] ∧ s.conns[2]? = some k' ∧ k'.stage = .run ∧ k'.wfail = false ∧ k'.hist = [] := by
  refine ⟨_, _, _, rfl, ?_, rfl, ?_, ?_, ?_, rfl, ?_, ?_, ?_⟩ <;> decide +kernel

-- C92: a heart-beat before the CONNECTED frame is no conversation, nor is a RECEIPT nobody has asked for, nor anything after an ERROR frame.
example : ¬Spec.Conversation [] [none] ∧ ¬Spec.Conversation [] [some ⟨b!"RECEIPT", [(b!"receipt-id", b!"r")], []⟩] ∧
    ¬Spec.Conversation [] [some ⟨b!"ERROR", [(b!"message", b!"m")], []⟩, none] := by
  refine ⟨?_, ?_, ?_⟩ <;> rintro (h | ⟨e, he, h⟩ | ⟨f, rest, g, m, l, h, _⟩)
  all_goals cases h
  exact absurd he.command (by decide)

end Stomp.Server
