import Verif.Proofs.Joint.Asked
/-! # C65: the library's client with the library's server -/
namespace Stomp.Joint
open Stomp

/-- **C65** (the streams). In every execution of server and clients together, what the server has received from a client is what can be read of the bytes the client has written, and vice versa: the
hypotheses of C57 and C62 to C64 hold. -/
theorem C65_streams {cfg : Server.Config} {s : State} (h : Spec.Reached cfg s) {c : Nat} {k : Server.Conn} (hk : s.server.conns[c]? = some k) :
    ∃ p, s.peers[c]? = some p ∧ (Spec.Peer.view p).Ok ∧ Stomp.Spec.Carries (some p.hello :: Client.Spec.stream p.client) (Server.Spec.receivedBy c s.events) ∧
      ∀ w, p.welcome = some w → Stomp.Spec.Carries (k.out.map (·.frame)) (w :: Stomp.Spec.framesRead p.client) := by
  have hi := inv_reached h
  obtain ⟨p, hp⟩ := hi.both hk
  have hpi := hi.peer c p k hp hk
  refine ⟨p, hp, ⟨hpi.run, hpi.sound, hpi.hello⟩, ⟨_, List.prefix_refl _, ?_⟩, ?_⟩
  · have e := C02_stream (some p.hello :: Client.Spec.stream p.client) hpi.up_wf
    unfold writeAll at e
    rw [e, ← Server.received_run hi.run hi.alive hk]
    have h1 := hpi.up
    rw [← up_frames] at h1
    exact h1
  · intro w hw
    refine ⟨_, List.prefix_refl _, ?_⟩
    have e := C02_stream (down k) (hi.down_wf hk)
    unfold writeAll down at e
    rw [e]
    have h1 := hpi.down.filterMap id
    rw [hw, List.filterMap_append] at h1
    have h2 : (Client.readIn p.client.trace).filterMap id = Stomp.Spec.framesRead p.client := by
      unfold Client.readIn Stomp.Spec.framesRead
      rw [List.filterMap_filterMap]
      congr 1
      funext o
      cases o <;> rfl
    rw [h2] at h1
    exact h1

/-- **C65** (receipts). In every execution of server and clients together: when a call that asked for a receipt has returned nil, the frame of the call was written, then the RECEIPT for it was read,
then the call returned; and the server has processed the frame. (C22 needs a server that does not confirm too early; this one does not.) -/
theorem C65_receipt {cfg : Server.Config} {s : State} (h : Spec.Reached cfg s) {c : Nat} {p : Peer} {k : Server.Conn} (hp : s.peers[c]? = some p) (hk : s.server.conns[c]? = some k)
    (hd : Client.Spec.Distinct p.client) {t : Nat} {call : Client.Call} (hret : Client.Spec.Returned p.client t call .ok) (hcall : Client.Spec.Reports call)
    {r : Client.Req} (hr : .accepted t r ∈ p.client.trace) {v : Bytes} (hv : r.frame.header.contains Hdr.receipt = some v) :
    r.frame ∈ k.hist ∧ ∃ g, Client.Spec.ReceiptFor g v ∧ Client.Spec.Logged p.client [.sent r.frame, .read (some g), .took (some g), .ret t .ok] := by
  have hi := inv_reached h
  have hpi := hi.peer c p k hp hk
  have hall := Client.all_run hpi.run
  have hr' : (t, r) ∈ Client.acceptedIn p.client.trace := List.mem_filterMap.2 ⟨_, hr, rfl⟩
  have same : ∀ {t' : Nat} {r' : Client.Req}, (t', r') ∈ Client.acceptedIn p.client.trace → r'.frame.header.contains Hdr.receipt = some v → r' = r := by
    intro t' r' h1 h2
    have e := hd.uniq t' r' t r v (Client.mem_acceptedIn h1) hr (Client.registers_chan hall.origin h1 (.inl h2)) (Client.registers_chan hall.origin hr' (.inl hv)) (.inl h2) (.inl hv)
    subst e
    exact hall.origin.one h1 hr'
  have hm := Client.C22_honest_partial hpi.run hret hcall (List.singleton_sublist.2 hr) hv (fun a b g e hg => by
    obtain ⟨t', r', h1, h2, h3, _⟩ := receipt_cause h hp e hg
    rw [← same h1 h3]; exact h2)
  refine ⟨?_, hm⟩
  obtain ⟨g, hg, hl⟩ := hm
  have hgr : some g ∈ Client.readIn p.client.trace := List.mem_filterMap.2 ⟨.read (some g), hl.subset (by simp), rfl⟩
  obtain ⟨w, hw, hwg⟩ := List.mem_map.1 (hpi.down.subset (List.mem_append_right _ hgr))
  obtain ⟨ces, hrun, henv⟩ := Server.conn_run hi.run hi.alive hk
  obtain ⟨f, hf, v', h1, h2, h3⟩ := Server.answered_run hrun henv w hw g hwg hg.1
  have hvv : v' = v := by
    have h5 := hg.2
    rw [contains_eq_firstValue] at h5
    have h6 : Stomp.Spec.firstValue g.header Hdr.receiptId = some v' := h1
    rw [h5] at h6; injection h6 with h6; exact h6.symm
  subst hvv
  obtain ⟨t', r', h5, h6, _⟩ := Client.sent_accepted hpi.run (List.append_nil _).symm (hpi.mem_hist hf (fun e => h3 (by rw [e]; decide))) (fun e => h3 (by rw [e]; decide))
  subst h6
  rw [← same h5 (by rw [contains_eq_firstValue]; exact h2)]
  exact hf

/-- With this server no RECEIPT ever ends a subscription: it does not answer UNSUBSCRIBE frames. -/
theorem unanswered_sub {cfg : Server.Config} {s : State} (h : Spec.Reached cfg s) {c : Nat} {p : Peer} (hp : s.peers[c]? = some p) (hd : Client.Spec.Distinct p.client)
    {i : Nat} {b : Client.Sub} (hb : p.client.subs[i]? = some b) {t : Nat} {r : Client.Req} (hr : .accepted t r ∈ p.client.trace) (hrc : r.chan = some b.chan) {g : Frame}
    (hg : .took (some g) ∈ p.client.trace) (hgr : g.command = Cmd.receipt) : g.header.contains Hdr.receiptId ≠ some b.id := by
  intro hgi
  have hi := inv_reached h
  obtain ⟨k, hk⟩ := hi.conn hp
  have hpi := hi.peer c p k hp hk
  have hall := Client.all_run hpi.run
  have hr' : (t, r) ∈ Client.acceptedIn p.client.trace := List.mem_filterMap.2 ⟨_, hr, rfl⟩
  have own := Client.own_sub hd hall.origin (Client.iso_run hpi.run).all.sub hb
  obtain ⟨a, q, e⟩ := List.append_of_mem hg
  obtain ⟨a1, a2, e2⟩ := List.append_of_mem (Client.took_read (Client.read_run hpi.run) e)
  subst e2
  obtain ⟨t', r', h1, _, h3, h4⟩ := receipt_cause h hp (pre := a1) (g := g) (post := a2 ++ .took (some g) :: q) (by rw [e]; simp) ⟨hgr, hgi⟩
  have h5 := own.key t r t' r' hr' h1 hrc (Client.registers_chan hall.origin h1 (.inl h3)) (.inl h3)
  have h6 := (own.sub t' r' h1 h5).1
  exact h4 (by rw [h6]; decide)

/-- **C65** (messages). In every execution of server and clients together in which the ids of a client are distinct: what has been put on `C` of a subscription are the first of the MESSAGE frames
with its id among those the server has written to this client, in this order, each once; and all of them, if the client has nothing left to do. So none is lost, whatever the interleaving of
`processLoop`, of the calls and of the server, and however early the first message arrives: the subscription is registered before the SUBSCRIBE frame is written. (C23 has this for the frames taken
while the subscription is registered.) -/
theorem C65_messages {cfg : Server.Config} {s : State} (h : Spec.Reached cfg s) {c : Nat} {p : Peer} {k : Server.Conn} (hp : s.peers[c]? = some p) (hk : s.server.conns[c]? = some k)
    (hd : Client.Spec.Distinct p.client) {i : Nat} {b : Client.Sub} (hb : p.client.subs[i]? = some b) {t : Nat} {r : Client.Req} (hr : .accepted t r ∈ p.client.trace) (hrc : r.chan = some b.chan)
    (hq : ∀ t r, .accepted t r ∈ p.client.trace → r.frame.command = b!"UNSUBSCRIBE" → r.frame.header.contains Hdr.replyTo ≠ some b.id) :
    Stomp.Spec.messagesOn b <+: Spec.forSub b.id (Spec.writtenTo k) ∧
      (Spec.Idle p k → b.rl = .recv → Stomp.Spec.messagesOn b = Spec.forSub b.id (Spec.writtenTo k)) := by
  have hi := inv_reached h
  have hpi := hi.peer c p k hp hk
  have hall := Client.all_run hpi.run
  have hrd := Client.read_run hpi.run
  have hr' : (t, r) ∈ Client.acceptedIn p.client.trace := List.mem_filterMap.2 ⟨_, hr, rfl⟩
  have own := Client.own_sub hd hall.origin (Client.iso_run hpi.run).all.sub hb
  obtain ⟨rest, h1, _, h3⟩ := Client.C23_exact_partial hpi.run hd hb
  have hdue := (Client.due_all (n := b.chan) (k := b.id) p.client.trace (fun a g q e hm hs => by
      obtain ⟨a1, a2, e2⟩ := List.append_of_mem (Client.took_read hrd e)
      subst e2
      obtain ⟨t', r', h1, h2, h3, h4⟩ := message_cause h hp (pre := a1) (g := g) (post := a2 ++ .took (some g) :: q) (by rw [e]; simp) hm hs
      exact ⟨r', List.mem_append_left _ h2, own.key t r t' r' hr' h1 hrc h4 h3⟩)
    (fun g hg hgr => unanswered_sub h hp hd hb hr hrc hg hgr)
    (fun r' hr' _ hc => by
      obtain ⟨t', ht'⟩ := Client.taken_accepted hpi.run hr'
      exact hq t' r' (Client.mem_acceptedIn ht') hc.1 hc.2)).1
  have hfor : ∀ l, Spec.forSub b.id l = l.filter (fun g => decide (g.command = Cmd.message ∧ g.header.contains Hdr.subscription = some b.id)) := by
    intro l
    unfold Spec.forSub
    congr 1
    funext g
    rw [contains_eq_firstValue]
    rfl
  have hmsg : Client.Spec.messages b = Stomp.Spec.messagesOn b := rfl
  rw [hdue, ← hfor, hmsg] at h1
  -- what was taken is the first part of what was read, and this of what was written
  have hw : ∀ l : List Server.Wr, (l.map Server.Wr.frame).filterMap id = l.filterMap Server.Wr.frame := by
    intro l; rw [List.filterMap_map]; rfl
  have hdown := hpi.down.filterMap id
  rw [show (down k).filterMap id = Spec.writtenTo k from hw k.out, List.filterMap_append, hrd.queue, List.filterMap_append] at hdown
  have hwel : Spec.forSub b.id ((p.welcome.toList.map some).filterMap id) = [] := by
    cases hwc : p.welcome with
    | none => rfl
    | some w =>
      have hcw := hpi.greeted w hwc
      show List.filter _ [w] = []
      simp [hcw]
  have happ : ∀ a b', Spec.forSub b.id (a ++ b') = Spec.forSub b.id a ++ Spec.forSub b.id b' := fun _ _ => List.filter_append ..
  have hpre : Spec.forSub b.id (Client.tookFrames p.client.trace) <+: Spec.forSub b.id (Spec.writtenTo k) := by
    obtain ⟨z, hz⟩ := hdown
    rw [← hz, happ, happ, happ, hwel, List.nil_append, List.append_assoc]
    exact List.prefix_append ..
  refine ⟨(show Stomp.Spec.messagesOn b <+: _ from ⟨rest, h1.symm⟩).trans hpre, ?_⟩
  rintro ⟨e1, e2, e3⟩ e4
  rw [h3 e4 e3, List.append_nil] at h1
  rw [← h1]
  have hwsome : ∃ w, p.welcome = some w := by
    cases hwc : p.welcome with
    | some w => exact ⟨w, rfl⟩
    | none =>
      have hev := hpi.fresh hwc
      have hrun := hpi.run
      rw [hev] at hrun
      simp only [Client.Sys.run, Option.some.injEq] at hrun
      rw [← hrun] at hr
      simp [Client.Sys.init] at hr
  obtain ⟨w, hwc⟩ := hwsome
  have hfull : p.welcome.toList.map some ++ Client.readIn p.client.trace = down k := by
    refine hpi.down.eq_of_length ?_
    rw [hwc]
    rw [reads_eq] at e1
    simp [down, ← e1, Nat.add_comm]
  rw [show Spec.writtenTo k = (down k).filterMap id from (hw k.out).symm, ← hfull, List.filterMap_append, happ, hwel, List.nil_append, hrd.queue, e2, List.append_nil]
  rfl

/-! ## A run: client 0 sends and asks for a receipt; client 1 subscribes, the message is there before the SUBSCRIBE -/

namespace Ex

def hello : Frame := EndToEndEx.hello
def sendFrame : Frame := ⟨b!"SEND", [(b!"content-length", b!"2"), (b!"destination", b!"/queue/a"), (b!"receipt", b!"1")], [0, 10]⟩
def receipt : Frame := ⟨b!"RECEIPT", [(b!"receipt-id", b!"1")], []⟩
def subFrame : Frame := ⟨b!"SUBSCRIBE", [(b!"destination", b!"/queue/a"), (b!"ack", b!"auto"), (b!"id", b!"1")], []⟩
def message : Frame := ⟨b!"MESSAGE", [(b!"content-length", b!"2"), (b!"destination", b!"/queue/a"), (b!"subscription", b!"1"), (b!"message-id", b!"1"), (b!"id", b!"1")], [0, 10]⟩

/-- A client dials and is welcome. -/
def joins (c : Nat) : List Ev :=
  [.dial Client.Ex.cfg 0 hello, .server 999 (.conn c (.recv hello)), .server 0 (.conn c (.frame true true)), .server 0 (.flush c), .server 0 .proc, .welcome c 999]

def sends : List Ev :=
  [.client 0 0 (.call (.send b!"/queue/a" [] [0, 10] [.receipt])), .client 0 0 (.thread 0), .client 0 0 (.thread 0), .client 0 0 (.loopWrite true []),
   .server 999 (.conn 0 (.recv sendFrame)), .server 0 (.conn 0 (.frame true true)), .server 0 (.flush 0), .server 0 .proc,
   .client 0 999 (.net (some receipt)), .client 0 0 (.loopRead []), .client 0 0 (.deliver true)]

def subscribes : List Ev :=
  [.client 1 0 (.call (.subscribe b!"/queue/a" .auto [])), .client 1 0 (.thread 0), .client 1 0 (.thread 0), .client 1 0 (.loopWrite true []),
   .server 999 (.conn 1 (.recv subFrame)), .server 0 (.conn 1 (.frame true true)), .server 0 (.flush 1), .server 0 .proc, .server 0 .push, .server 0 (.conn 1 (.sub true)),
   .client 1 999 (.net (some message)), .client 1 0 (.loopRead []), .client 1 0 (.deliver true), .client 1 0 (.sub 0)]

def events : List Ev := joins 0 ++ sends ++ joins 1 ++ subscribes
def state : State := (State.init.run Server.sampleCfg events).getD State.init
def sender : Peer := (state.peers[0]?).getD ⟨Client.Ex.cfg, 0, hello, none, Client.Sys.init 0, []⟩
def receiver : Peer := (state.peers[1]?).getD ⟨Client.Ex.cfg, 0, hello, none, Client.Sys.init 0, []⟩
def conn (c : Nat) : Server.Conn := (state.server.conns[c]?).getD (Server.Conn.init c)

theorem events_run : State.init.run Server.sampleCfg events = some state := by
  have h : (State.init.run Server.sampleCfg events).isSome = true := by decide +kernel
  unfold state
  cases e : State.init.run Server.sampleCfg events with
  | none => rw [e] at h; cases h
  | some _ => rfl

theorem sane : ∀ e ∈ events, Spec.Sane e := by
  intro e he
  simp only [events, joins, sends, subscribes, List.mem_append, List.mem_cons, List.not_mem_nil, or_false] at he
  have hh : hello.command = b!"CONNECT" ∧ Stomp.Spec.WellFormed hello := ⟨by decide +kernel, EndToEndEx.hello_wf⟩
  rcases he with ((he | he) | he) | he
  · rcases he with rfl | rfl | rfl | rfl | rfl | rfl <;> first | exact hh | exact trivial
  · rcases he with rfl | rfl | rfl | rfl | rfl | rfl | rfl | rfl | rfl | rfl | rfl <;> first | exact trivial | exact ⟨by simp, by decide, by simp⟩
  · rcases he with rfl | rfl | rfl | rfl | rfl | rfl <;> first | exact hh | exact trivial
  · rcases he with rfl | rfl | rfl | rfl | rfl | rfl | rfl | rfl | rfl | rfl | rfl | rfl | rfl | rfl <;> first | exact trivial | (intro k v hv; simp at hv)

theorem reached : Spec.Reached Server.sampleCfg state :=
  ⟨⟨events, events_run, sane⟩, by decide +kernel⟩

end Ex

open Ex in
-- C65_streams and C65_receipt: the call has returned nil.
example : Spec.Reached Server.sampleCfg state ∧ state.peers[0]? = some sender ∧ state.server.conns[0]? = some (conn 0) ∧ sender.welcome.isSome = true ∧ Client.Spec.Distinct sender.client ∧
    Client.Spec.Returned sender.client 0 (.send b!"/queue/a" [] [0, 10] [.receipt]) .ok ∧ Client.Spec.Reports (.send b!"/queue/a" [] [0, 10] [.receipt]) ∧
    .accepted 0 ⟨sendFrame, some 0⟩ ∈ sender.client.trace ∧ sendFrame.header.contains Hdr.receipt = some b!"1" := by
  refine ⟨reached, by decide +kernel, by decide +kernel, by decide +kernel, Client.distinct_of (by decide +kernel), ?_, trivial, by decide +kernel, by decide +kernel⟩
  exact ⟨(sender.client.threads[0]?).getD ⟨.disconnect, .start, .none⟩, by decide +kernel, by decide +kernel, by decide +kernel⟩

open Ex in
-- C65_messages: the message has arrived, and the client is idle.
example : Spec.Reached Server.sampleCfg state ∧ state.peers[1]? = some receiver ∧ state.server.conns[1]? = some (conn 1) ∧ Client.Spec.Distinct receiver.client ∧
    ∃ b, receiver.client.subs[0]? = some b ∧ .accepted 0 ⟨subFrame, some b.chan⟩ ∈ receiver.client.trace ∧ Spec.Idle receiver (conn 1) ∧ b.rl = .recv ∧
      Spec.forSub b.id (Spec.writtenTo (conn 1)) = [message] ∧ Stomp.Spec.messagesOn b = [message] := by
  refine ⟨reached, by decide +kernel, by decide +kernel, Client.distinct_of (by decide +kernel), (receiver.client.subs[0]?).getD (.new [] false 0), ?_, ?_, ?_, ?_, ?_, ?_⟩ <;> decide +kernel

end Stomp.Joint
