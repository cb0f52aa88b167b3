import Verif.Props.Joint
import Verif.Proofs.Server.TopicKeep
/-! # C68: when nothing is left to do, every message has arrived or is stored -/
namespace Stomp.Server
open Stomp

theorem messages_later (me : Nat) (fs : List Frame) (i : Nat) : ∀ m ∈ Spec.messages me i fs, i ≤ m.tag.seq := by
  induction fs generalizing i with
  | nil => intro m hm; cases hm
  | cons f fs ih =>
    intro m hm
    unfold Spec.messages at hm
    split at hm
    · rcases List.mem_cons.1 hm with rfl | hm
      · exact Nat.le_refl _
      · exact Nat.le_of_succ_le (ih _ m hm)
    · exact ih _ m hm

/-- No two messages of a client have the same tag. -/
theorem messages_nodup (me : Nat) (fs : List Frame) (i : Nat) : ((Spec.messages me i fs).map (·.tag)).Nodup := by
  induction fs generalizing i with
  | nil => exact List.nodup_nil
  | cons f fs ih =>
    unfold Spec.messages
    split
    · rw [List.map_cons, List.nodup_cons]
      refine ⟨fun hm => ?_, ih _⟩
      obtain ⟨m, hm, he⟩ := List.mem_map.1 hm
      have := messages_later me fs (i + 1) m hm
      rw [he] at this
      exact absurd this (Nat.not_succ_le_self i)
    · exact ih _

end Stomp.Server

namespace Stomp.Joint
open Stomp

/-- A MESSAGE written to a client is for a subscription the client has. -/
theorem message_sub {cfg : Server.Config} {s : State} (h : Spec.Reached cfg s) {c : Nat} {p : Peer} {k : Server.Conn} (hp : s.peers[c]? = some p) (hk : s.server.conns[c]? = some k) {g : Frame}
    (hg : some g ∈ down k) (hc : g.command = b!"MESSAGE") :
    ∃ (i : Nat) (b : Client.Sub) (t : Nat) (r : Client.Req), p.client.subs[i]? = some b ∧ .accepted t r ∈ p.client.trace ∧ r.chan = some b.chan ∧ Stomp.Spec.firstValue g.header b!"subscription" = some b.id := by
  have hinv := inv_reached h
  have hi := hinv.peer c p k hp hk
  obtain ⟨f, i', h1, h2, h3, h4⟩ := (down_caused hinv hp hk hg).2 hc
  obtain ⟨t, r, h5, rfl, _, hrt⟩ := Client.sent_accepted hi.run (List.append_nil _).symm h1 (by rw [h2]; decide)
  obtain ⟨th, ht, hq⟩ := (Client.all_run hi.run).origin.acc t r h5
  have hreg : Client.Spec.Registers r.frame i' := by
    right
    refine ⟨h2, ?_⟩
    have h7 : r.frame.header.contains Hdr.id = some i' := by rw [contains_eq_firstValue]; exact h3
    rw [hrt h2, h7]; rfl
  by_cases hs : ∀ d a o, th.call ≠ .subscribe d a o
  · obtain ⟨hf, _⟩ := (Client.reqOf_caller hs).1 hq
    obtain ⟨d, a, o, e, _⟩ := Client.subscribe_call hf h2
    exact absurd e (hs d a o)
  · generalize th.call = cl at hq hs
    cases cl with
    | subscribe d a o =>
      obtain ⟨n, i, last, last', b, _, h6, _, _, h7, h8, h9⟩ := hq
      refine ⟨i, b, t, r, h7, Client.mem_acceptedIn h5, by rw [h6, h8], ?_⟩
      have h10 := (Client.subscribe_key h9).2
      have h7 : r.frame.header.contains Hdr.id = some i' := by rw [contains_eq_firstValue]; exact h3
      rw [hrt h2, h7] at h10
      have h10 : i' = b.id := h10
      rw [← h10]; exact h4
    | _ => exact absurd (fun _ _ _ => by simp) hs

/-- What is written to a client with nothing left to do, has arrived. -/
theorem arrived_sub {cfg : Server.Config} {s : State} (h : Spec.Reached cfg s) {c : Nat} {p : Peer} {k : Server.Conn} (hp : s.peers[c]? = some p) (hk : s.server.conns[c]? = some k)
    (hs : Spec.Settled p k) (hd : Client.Spec.Distinct p.client) (hu : Spec.Stays p) {w : Server.Wr} (hw : w ∈ k.out) {t : Server.Tag} (ht : w.tag = some t) :
    ∃ (i : Nat) (b : Client.Sub) (g : Frame), p.client.subs[i]? = some b ∧ w.frame = some g ∧ g ∈ Stomp.Spec.messagesOn b ∧ Stomp.Spec.firstValue g.header b!"subscription" = some b.id ∧
      Server.Spec.CopyOf s.server t g := by
  have hinv := inv_reached h
  obtain ⟨g, hg, ⟨q, o, hq, ho, hot, hcmd, hbody, hoth⟩, _⟩ := Server.written_run hinv.run hinv.alive c k hk w hw t ht
  replace hcmd : g.command = b!"MESSAGE" := by
    obtain ⟨_, _, _, heo⟩ := Server.messages_from ho
    rw [show g.command = o.frame.command from hcmd, heo]
  have hgd : some g ∈ down k := List.mem_map.2 ⟨w, hw, hg⟩
  obtain ⟨i, b, t', r, h1, h2, h3, h4⟩ := message_sub h hp hk hgd hcmd
  have hm := (C65_messages h hp hk hd h1 h2 h3 (fun t r ht hr => absurd hr (hu t r ht))).2 hs.idle (hs.subs b (List.mem_of_getElem? h1))
  refine ⟨i, b, g, h1, hg, ?_, h4, hcmd, q, o, hq, ho, hot, hbody, hoth⟩
  rw [hm]
  refine List.mem_filter.2 ⟨List.mem_filterMap.2 ⟨w, hw, hg⟩, ?_⟩
  exact decide_eq_true ⟨hcmd, h4⟩

theorem arrived {cfg : Server.Config} {s : State} (h : Spec.Reached cfg s) {c : Nat} {p : Peer} {k : Server.Conn} (hp : s.peers[c]? = some p) (hk : s.server.conns[c]? = some k)
    (hs : Spec.Settled p k) (hd : Client.Spec.Distinct p.client) (hu : Spec.Stays p) {w : Server.Wr} (hw : w ∈ k.out) {t : Server.Tag} (ht : w.tag = some t) : Spec.Arrived s t := by
  obtain ⟨i, b, g, h1, _, h2, _, h3⟩ := arrived_sub h hp hk hs hd hu hw ht
  exact ⟨c, p, i, b, g, hp, h1, h2, h3⟩

/-- All that the program has handed over is written, and processed. -/
theorem processed_of {cfg : Server.Config} {s : State} (h : Spec.Reached cfg s) {c : Nat} {p : Peer} {k : Server.Conn} (hp : s.peers[c]? = some p)
    (hk : s.server.conns[c]? = some k) (h3 : k.inq = []) (hl : p.client.loop = .select) (hq : p.client.writeCh = []) (hrd : takenIn k = (p.up.filterMap id).length) :
    Stomp.Spec.sentIn p.client.trace = Client.Spec.written p.client ∧ k.hist = p.hello :: Client.Spec.written p.client := by
  have hinv := inv_reached h
  have hi := hinv.peer c p k hp hk
  obtain ⟨out, ho, hw⟩ := Client.C21_all hi.run (by rw [hl]; simp) (by rw [hl]; simp)
  rw [hq, List.append_nil, handedOver_eq] at ho
  refine ⟨by rw [sentIn_eq, ho, hw], ?_⟩
  have hu := hi.up
  rw [h3, List.append_nil] at hu
  refine hu.eq_of_length ?_
  have := hrd
  unfold takenIn at this
  rw [h3, up_frames] at this
  simpa using this

theorem all_processed {cfg : Server.Config} {s : State} (h : Spec.Reached cfg s) (hr : Spec.AtRest s.server) {c : Nat} {p : Peer} {k : Server.Conn} (hp : s.peers[c]? = some p)
    (hk : s.server.conns[c]? = some k) (hs : Spec.Settled p k) : Stomp.Spec.sentIn p.client.trace = Client.Spec.written p.client ∧ k.hist = p.hello :: Client.Spec.written p.client :=
  processed_of h hp hk (hr.conns k (List.mem_of_getElem? hk)).2.2.1 hs.idle.2.2 hs.requests hs.read

/-- The messages of a client all of whose frames are processed. -/
theorem sent_messages {cfg : Server.Config} {s : State} (h : Spec.Reached cfg s) (hr : Spec.AtRest s.server) {c : Nat} {p : Peer} {k : Server.Conn} (hp : s.peers[c]? = some p)
    (hk : s.server.conns[c]? = some k) (hs : Spec.Settled p k) :
    ∃ ms : List Server.Msg, ms.Sublist (Server.Spec.messages c 0 k.effective) ∧ ms.map (·.frame) = ((Stomp.Spec.sentIn p.client.trace).filter Stomp.Spec.lone).map Stomp.Spec.asMessage := by
  have hinv := inv_reached h
  have hi := hinv.peer c p k hp hk
  obtain ⟨h1, h2, h3, h4, _⟩ := hr.conns k (List.mem_of_getElem? hk)
  obtain ⟨hsent, hhist⟩ := all_processed h hr hp hk hs
  obtain ⟨ces, hrun, henv⟩ := Server.conn_run hinv.run hinv.alive hk
  rcases Server.C33_session cfg c ces k hrun with hx | ⟨st, h5, h6, _⟩ | ⟨h5, _⟩
  · rw [h4] at hx; cases hx
  · rw [hhist] at h5
    have hlone := Server.after_lone h5
    have hhello : Stomp.Spec.lone p.hello = false := by
      unfold Stomp.Spec.lone
      rw [hi.hello.1]
      exact decide_eq_false (fun h => absurd h.1 (by decide))
    rw [List.filter_cons, if_neg (by rw [hhello]; decide), ← h6, ← hsent] at hlone
    have hsub : (((Stomp.Spec.sentIn p.client.trace).filter Stomp.Spec.lone).map Stomp.Spec.asMessage).Sublist ((Server.Spec.messages c 0 k.effective).map (·.frame)) := by
      rw [Server.messages_frames]
      have h3 := (hlone.filter (fun f => decide (f.command = b!"SEND"))).map (fun f : Frame => { f with command := b!"MESSAGE" })
      have h4 : (((Stomp.Spec.sentIn p.client.trace).filter Stomp.Spec.lone).map Server.Spec.clean).filter (fun f => decide (f.command = b!"SEND")) =
          ((Stomp.Spec.sentIn p.client.trace).filter Stomp.Spec.lone).map Server.Spec.clean := by
        refine List.filter_eq_self.2 (fun f hf => ?_)
        obtain ⟨g, hg, rfl⟩ := List.mem_map.1 hf
        have := of_decide_eq_true (List.mem_filter.1 hg).2
        exact decide_eq_true this.1
      rw [h4, List.map_map] at h3
      exact h3
    obtain ⟨ms, hms, he⟩ := List.sublist_map_iff.1 hsub
    exact ⟨ms, hms, he.symm⟩
  · exact absurd h1 h5

theorem no_requests {s : Server.Sys} (hr : Spec.AtRest s) : Server.Spec.pendingRequests s = [] := by
  unfold Server.Spec.pendingRequests
  rw [hr.requests, List.append_eq_nil_iff]
  refine ⟨rfl, List.flatMap_eq_nil_iff.2 (fun k hk => ?_)⟩
  unfold Server.Spec.unsent
  rw [(hr.conns k hk).2.2.2.1]
  rfl

/-- A message for a queue that took effect is stored or was written to a connection. -/
theorem queue_written {cfg : Server.Config} {s : State} (h : Spec.Reached cfg s) (hr : Spec.AtRest s.server)
    {c : Nat} {k : Server.Conn} (hk : s.server.conns[c]? = some k) {m : Server.Msg} (hm : m ∈ Server.Spec.messages c 0 k.effective) {d : Bytes} (hd : Server.Spec.target m = some d)
    (hq : Server.Spec.IsQueue d) : (m.tag ∈ Server.Spec.stored s.server d ∧ s.server.queues.list d = []) ∨
      ∃ (c' : Nat) (k' : Server.Conn) (w : Server.Wr), s.server.conns[c']? = some k' ∧ w ∈ k'.out ∧ w.tag = some m.tag := by
  have hinv := inv_reached h
  have hone := Server.C37_one_place_partial cfg s.events s.server hinv.run hinv.alive d m ⟨hq, hd, c, k, hk, hm⟩
  have hmem := List.count_pos_iff.1 (by rw [hone]; decide)
  have hreq := no_requests hr
  have hfail : Server.Spec.failed s.server = [] := by
    unfold Server.Spec.failed
    rw [List.flatMap_eq_nil_iff]
    intro k' hk'
    obtain ⟨c', hck⟩ := List.getElem?_of_mem hk'
    obtain ⟨ces, hrun, _⟩ := Server.conn_run hinv.run hinv.alive hck
    obtain ⟨_, e2, _, e4, _⟩ := hr.conns k' hk'
    refine Classical.byContradiction fun hl => ?_
    rcases Server.lostOk_run hrun hl with h3 | h3
    · rw [e2] at h3; cases h3
    · rw [e4] at h3; cases h3
  have gone : ∀ k' ∈ s.server.conns, m.tag ∈ Server.Spec.allocatedTo k' k'.subList ++ k'.acked ++ k'.autoDone →
      ∃ (c' : Nat) (k' : Server.Conn) (w : Server.Wr), s.server.conns[c']? = some k' ∧ w ∈ k'.out ∧ w.tag = some m.tag := by
    intro k' hk' ht
    obtain ⟨c', hck⟩ := List.getElem?_of_mem hk'
    obtain ⟨w, hw, hwt⟩ := Server.C37_written cfg s.events s.server hinv.run hinv.alive c' k' hck m.tag ht
    exact ⟨c', k', w, hck, hw, hwt⟩
  rw [hreq, hfail, List.nil_append, List.append_nil] at hmem
  rcases List.mem_append.1 hmem with hmem | hmem
  · rcases List.mem_append.1 hmem with hmem | hmem
    · refine .inl ⟨hmem, ?_⟩
      rcases Server.C36_work_conserving cfg s.events s.server hinv.run hinv.alive d hq with h3 | h3
      · unfold Server.Spec.stored at hmem
        rw [h3] at hmem; cases hmem
      · exact h3
    · right
      unfold Server.Spec.allocated Server.Spec.onTheWay at hmem
      rw [hr.deliveries, List.filterMap_nil, List.nil_append] at hmem
      obtain ⟨k', hk', ht⟩ := List.mem_flatMap.1 hmem
      rw [(hr.conns k' hk').2.2.2.2.1, List.nil_append] at ht
      exact gone k' hk' (List.mem_append_left _ (List.mem_append_left _ ht))
  · right
    obtain ⟨k', hk', ht⟩ := List.mem_flatMap.1 hmem
    refine gone k' hk' ?_
    rw [List.append_assoc]
    exact List.mem_append_right _ ht

/-- A message for a queue that took effect is stored or has arrived. -/
theorem queue_place {cfg : Server.Config} {s : State} (h : Spec.Reached cfg s) (hr : Spec.AtRest s.server)
    (hall : ∀ (c : Nat) (p : Peer) (k : Server.Conn), s.peers[c]? = some p → s.server.conns[c]? = some k → Spec.Settled p k ∧ Client.Spec.Distinct p.client ∧ Spec.Stays p)
    {c : Nat} {k : Server.Conn} (hk : s.server.conns[c]? = some k) {m : Server.Msg} (hm : m ∈ Server.Spec.messages c 0 k.effective) {d : Bytes} (hd : Server.Spec.target m = some d)
    (hq : Server.Spec.IsQueue d) : (m.tag ∈ Server.Spec.stored s.server d ∧ s.server.queues.list d = []) ∨ Spec.Arrived s m.tag := by
  rcases queue_written h hr hk hm hd hq with h1 | ⟨c', k', w, hck, hw, hwt⟩
  · exact .inl h1
  · obtain ⟨p', hp'⟩ := (inv_reached h).both hck
    obtain ⟨hs', hd', hu'⟩ := hall c' p' k' hp' hck
    exact .inr (arrived h hp' hck hs' hd' hu' hw hwt)

/-- **C68.** Server and any number of clients, in any execution, when nothing is left to do, all connections are open, and no program has given up a subscription: every message which a program has
sent to a queue outside transactions is stored in the queue, and then no subscription waits for it, or has arrived at a program: on `C` of one of its subscriptions. Each SEND counts as a message of
its own (`ms`). -/
theorem C68_queue {cfg : Server.Config} {s : State} (h : Spec.Reached cfg s) (hr : Spec.AtRest s.server)
    (hall : ∀ (c : Nat) (p : Peer) (k : Server.Conn), s.peers[c]? = some p → s.server.conns[c]? = some k → Spec.Settled p k ∧ Client.Spec.Distinct p.client ∧ Spec.Stays p)
    {c : Nat} {p : Peer} {k : Server.Conn} (hp : s.peers[c]? = some p) (hk : s.server.conns[c]? = some k) :
    ∃ ms : List Server.Msg, ms.Sublist (Server.Spec.messages c 0 k.effective) ∧ ms.map (·.frame) = ((Stomp.Spec.sentIn p.client.trace).filter Stomp.Spec.lone).map Stomp.Spec.asMessage ∧
      (ms.map (·.tag)).Nodup ∧
      ∀ m ∈ ms, ∀ d, Server.Spec.target m = some d → Server.Spec.IsQueue d →
        (m.tag ∈ Server.Spec.stored s.server d ∧ s.server.queues.list d = []) ∨ Spec.Arrived s m.tag := by
  obtain ⟨ms, h1, h2⟩ := sent_messages h hr hp hk (hall c p k hp hk).1
  refine ⟨ms, h1, h2, (h1.map _).nodup (Server.messages_nodup ..), ?_⟩
  exact fun m hm d hd hq => queue_place h hr hall hk (h1.subset hm) hd hq

/-- **C68**, topics. When nothing is left to do, every message which a program has sent to a topic outside transactions, was sent on by the topic; and has arrived at each of the subscriptions which
the topic had at that time: on their `C`. -/
theorem C68_topic {cfg : Server.Config} {s : State} (h : Spec.Reached cfg s) (hr : Spec.AtRest s.server)
    (hall : ∀ (c : Nat) (p : Peer) (k : Server.Conn), s.peers[c]? = some p → s.server.conns[c]? = some k → Spec.Settled p k ∧ Client.Spec.Distinct p.client ∧ Spec.Stays p)
    {d : Bytes} (hq : ¬Server.Spec.IsQueue d) :
    (∀ (c : Nat) (p : Peer) (k : Server.Conn), s.peers[c]? = some p → s.server.conns[c]? = some k →
      ∃ ms : List Server.Msg, ms.Sublist (Server.Spec.messages c 0 k.effective) ∧ ms.map (·.frame) = ((Stomp.Spec.sentIn p.client.trace).filter Stomp.Spec.lone).map Stomp.Spec.asMessage ∧
        (ms.map (·.tag)).Nodup ∧ ∀ m ∈ ms, Server.Spec.target m = some d → m.tag ∈ Server.Spec.broadcast d cfg s.events) ∧
    ∀ m r, Server.Spec.SentTo d cfg s.events m r → Spec.ArrivedAt s r m.tag := by
  have hinv := inv_reached h
  constructor
  · intro c p k hp hk
    obtain ⟨ms, h1, h2⟩ := sent_messages h hr hp hk (hall c p k hp hk).1
    refine ⟨ms, h1, h2, (h1.map _).nodup (Server.messages_nodup ..), fun m hm hd => ?_⟩
    rcases Server.taken_or_pending hinv.run hinv.alive hk (h1.subset hm) hd with h3 | h3
    · exact h3
    · rw [no_requests hr] at h3; cases h3
  · rintro m r ⟨a, b, h1, h2, h3⟩
    have hd := Server.notQueue hq
    obtain ⟨k, hk, hlt, hc⟩ := Server.keep_run hd hinv.run hinv.alive a m b r h1 h2 h3
    obtain ⟨e1, e2, _, _, _, e6⟩ := hr.conns k (List.mem_of_getElem? hk)
    have hc := hc e1 e2
    unfold Server.course at hc
    rw [e6, hr.deliveries, List.filterMap_nil, List.filterMap_nil, List.append_nil, List.append_nil] at hc
    obtain ⟨w, hw, hwt⟩ := List.mem_filterMap.1 hc
    obtain ⟨p, hp⟩ := hinv.both hk
    obtain ⟨hs', hd', hu'⟩ := hall r.conn p k hp hk
    unfold Server.Spec.writtenFor at hwt
    split at hwt
    · rename_i f hf
      split at hwt
      · rename_i hif
        obtain ⟨i, b, g, h4, h5, h6, h7, h8⟩ := arrived_sub h hp hk hs' hd' hu' hw hwt
        rw [hf] at h5; injection h5 with h5; subst h5
        refine ⟨p, i, b, Server.deref k.heap r.idx, f, hp, h4, Server.look_of hk hlt, ?_, h6, h8⟩
        have h9 : Stomp.Spec.firstValue f.header b!"subscription" = some (Server.deref k.heap r.idx).id := hif.2
        rw [h7] at h9
        injection h9
      · cases hwt
    · cases hwt

end Stomp.Joint

namespace Stomp.Joint.RestEx
open Stomp Ex

def stayed (p : Peer) : Bool := p.client.trace.all (fun e => match e with | .accepted _ r => decide (r.frame.command ≠ b!"UNSUBSCRIBE") | _ => true)

theorem stays {p : Peer} (h : stayed p = true) : Spec.Stays p := by
  intro t r hm
  exact of_decide_eq_true (List.all_eq_true.1 h _ hm)

def rested (s : Server.Sys) : Bool :=
  decide (s.reqCh = []) && decide (s.todo = []) && s.conns.all (fun k => decide (k.stage = .run ∧ k.wfail = false ∧ k.inq = [] ∧ k.outbox = [] ∧ k.subCh = [] ∧ k.writeCh = []))

theorem atRest {s : Server.Sys} (h : rested s = true) : Spec.AtRest s := by
  simp only [rested, Bool.and_eq_true] at h
  exact ⟨of_decide_eq_true h.1.1, of_decide_eq_true h.1.2, fun k hk => of_decide_eq_true (List.all_eq_true.1 h.2 k hk)⟩

def settled (p : Peer) (k : Server.Conn) : Bool :=
  decide (Spec.Idle p k ∧ p.client.writeCh = [] ∧ takenIn k = (p.up.filterMap id).length ∧ ∀ b ∈ p.client.subs, b.rl = .recv)

theorem settled_of {p : Peer} {k : Server.Conn} (h : settled p k = true) : Spec.Settled p k := by
  obtain ⟨h1, h2, h3, h4⟩ := of_decide_eq_true h
  exact ⟨h1, h2, h3, h4⟩

/-- The conditions of C68, decided. -/
def quiet (s : State) : Bool :=
  rested s.server && (List.range s.server.conns.length).all (fun c =>
    match s.peers[c]?, s.server.conns[c]? with
    | some p, some k => settled p k && Client.Spec.distinct p.client && stayed p
    | _, _ => false)

theorem quiet_of {s : State} (h : quiet s = true) : Spec.AtRest s.server ∧
    ∀ (c : Nat) (p : Peer) (k : Server.Conn), s.peers[c]? = some p → s.server.conns[c]? = some k → Spec.Settled p k ∧ Client.Spec.Distinct p.client ∧ Spec.Stays p := by
  simp only [quiet, Bool.and_eq_true] at h
  refine ⟨atRest h.1, fun c p k hp hk => ?_⟩
  have := List.all_eq_true.1 h.2 c (List.mem_range.2 (List.getElem?_eq_some_iff.1 hk).1)
  rw [hp, hk] at this
  simp only [Bool.and_eq_true] at this
  exact ⟨settled_of this.1.1, Client.distinct_of this.1.2, stays this.2⟩

def after (es : List Ev) : State := (State.init.run Server.sampleCfg es).getD State.init

theorem run_after {es : List Ev} (h : (State.init.run Server.sampleCfg es).isSome = true) : State.init.run Server.sampleCfg es = some (after es) := by
  unfold after
  cases e : State.init.run Server.sampleCfg es with
  | none => rw [e] at h; cases h
  | some _ => rfl

/-- Somebody sends to a queue, nobody subscribes. -/
def stored : List Ev := joins 0 ++ sends
/-- Somebody else subscribes, and gets the message. -/
def delivered : List Ev := events ++ [.server 0 (.flush 1), .server 0 .proc]

theorem sane_stored : ∀ e ∈ stored, Spec.Sane e := fun e he => sane e (by
  unfold events stored at *
  exact List.mem_append_left _ (List.mem_append_left _ he))

theorem sane_delivered : ∀ e ∈ delivered, Spec.Sane e := by
  intro e he
  rcases List.mem_append.1 he with he | he
  · exact sane e he
  · simp only [List.mem_cons, List.not_mem_nil, or_false] at he
    rcases he with rfl | rfl <;> exact trivial

theorem reached_stored : Spec.Reached Server.sampleCfg (after stored) := ⟨⟨stored, run_after (by decide +kernel), sane_stored⟩, by decide +kernel⟩
theorem reached_delivered : Spec.Reached Server.sampleCfg (after delivered) := ⟨⟨delivered, run_after (by decide +kernel), sane_delivered⟩, by decide +kernel⟩

-- C68_queue: the message is stored.
example : Spec.Reached Server.sampleCfg (after stored) ∧ quiet (after stored) = true ∧ Server.Spec.stored (after stored).server b!"/queue/a" = [⟨0, 0⟩] :=
  ⟨reached_stored, by decide +kernel, by decide +kernel⟩

-- C68_queue: the message has arrived.
example : Spec.Reached Server.sampleCfg (after delivered) ∧ quiet (after delivered) = true ∧ Server.Spec.stored (after delivered).server b!"/queue/a" = [] ∧
    (((after delivered).peers[1]?).map (fun p => p.client.subs.map Stomp.Spec.messagesOn)) = some [[message]] :=
  ⟨reached_delivered, by decide +kernel, by decide +kernel, by decide +kernel⟩

def topicFrame : Frame := ⟨b!"SEND", [(b!"content-length", b!"2"), (b!"destination", b!"/topic/a")], [0, 10]⟩
def topicSub : Frame := ⟨b!"SUBSCRIBE", [(b!"destination", b!"/topic/a"), (b!"ack", b!"auto"), (b!"id", b!"1")], []⟩
def topicMessage : Frame := ⟨b!"MESSAGE", [(b!"content-length", b!"2"), (b!"destination", b!"/topic/a"), (b!"subscription", b!"1"), (b!"message-id", b!"1"), (b!"id", b!"1")], [0, 10]⟩

/-- One subscribes to a topic, the other sends to it. -/
def subscribesTopic : List Ev :=
  [.client 1 0 (.call (.subscribe b!"/topic/a" .auto [])), .client 1 0 (.thread 0), .client 1 0 (.thread 0), .client 1 0 (.loopWrite true []),
   .server 999 (.conn 1 (.recv topicSub)), .server 0 (.conn 1 (.frame true true)), .server 0 (.flush 1), .server 0 .proc]
def sendsTopic : List Ev :=
  [.client 0 0 (.call (.send b!"/topic/a" [] [0, 10] [])), .client 0 0 (.thread 0), .client 0 0 (.thread 0), .client 0 0 (.loopWrite true []),
   .server 999 (.conn 0 (.recv topicFrame)), .server 0 (.conn 0 (.frame true true)), .server 0 (.flush 0), .server 0 .proc, .server 0 .push, .server 0 (.conn 1 (.wr true)),
   .client 1 999 (.net (some topicMessage)), .client 1 0 (.loopRead []), .client 1 0 (.deliver true), .client 1 0 (.sub 0)]
def topic : List Ev := joins 0 ++ joins 1 ++ subscribesTopic ++ sendsTopic

theorem sane_topic : ∀ e ∈ topic, Spec.Sane e := by
  intro e he
  simp only [topic, joins, subscribesTopic, sendsTopic, List.mem_append, List.mem_cons, List.not_mem_nil, or_false] at he
  have hh : hello.command = b!"CONNECT" ∧ Stomp.Spec.WellFormed hello := ⟨by decide +kernel, EndToEndEx.hello_wf⟩
  rcases he with ((he | he) | he) | he
  · rcases he with rfl | rfl | rfl | rfl | rfl | rfl <;> first | exact hh | exact trivial
  · rcases he with rfl | rfl | rfl | rfl | rfl | rfl <;> first | exact hh | exact trivial
  · rcases he with rfl | rfl | rfl | rfl | rfl | rfl | rfl | rfl <;> first | exact trivial | (intro k v hv; simp at hv)
  · rcases he with rfl | rfl | rfl | rfl | rfl | rfl | rfl | rfl | rfl | rfl | rfl | rfl | rfl | rfl <;> first | exact trivial | exact ⟨by simp, by decide, by simp⟩

theorem reached_topic : Spec.Reached Server.sampleCfg (after topic) := ⟨⟨topic, run_after (by decide +kernel), sane_topic⟩, by decide +kernel⟩

-- C68_topic: the message has arrived.
example : Spec.Reached Server.sampleCfg (after topic) ∧ quiet (after topic) = true ∧ ¬Server.Spec.IsQueue b!"/topic/a" ∧ Server.Spec.broadcast b!"/topic/a" Server.sampleCfg (after topic).events = [⟨0, 0⟩] ∧
    (((after topic).peers[1]?).map (fun p => p.client.subs.map Stomp.Spec.messagesOn)) = some [[topicMessage]] :=
  ⟨reached_topic, by decide +kernel, by unfold Server.Spec.IsQueue; decide +kernel, by decide +kernel, by decide +kernel⟩

-- C68_topic: the topic is asked to send the message when the other client is subscribed.
example : Server.Spec.SentTo b!"/topic/a" Server.sampleCfg (after topic).events ⟨⟨0, 0⟩, { topicFrame with command := b!"MESSAGE" }⟩ ⟨1, 0⟩ :=
  ⟨[.subscribe ⟨1, 0⟩], [], by decide +kernel, by simp, by simp⟩

end Stomp.Joint.RestEx
