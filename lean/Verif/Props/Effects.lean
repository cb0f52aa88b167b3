import Verif.Props.Rest
import Verif.Proofs.Server.Effects
/-! # C70: transactions take effect as a whole -/
namespace Stomp.Server
open Stomp

/-- **C70**, a connection. What has taken effect of the frames processed is told by the positions of the frames alone: the frames outside transactions, each with itself, and the frames of the
transactions that ended with a COMMIT, all of them with it; in this order. Nothing takes effect twice. (Of the frames processed the last one may be left out: it was an error, and the connection is
being closed.) The exception is a server about to panic (C42). -/
theorem C70_effects (cfg : Config) (me : Nat) (es : List Conn.Ev) (c : Conn) (h : (Conn.init me).run cfg es = some c) (hn : .panic ∉ c.outbox) :
    ∃ (fs last : List Frame) (ps : List (Nat × Nat)), c.hist = fs ++ last ∧ (last = [] ∨ last.length = 1 ∧ c.stage ≠ .run) ∧ Spec.Effects fs ps ∧ (ps.map (·.1)).Nodup ∧
      c.effective = (Spec.pick fs ps).map Spec.clean := by
  rcases C33_session cfg me es c h with h1 | ⟨st, h1, h2, _⟩ | ⟨h1, fs, f, st, h2, h3, h4, _⟩
  · exact absurd h1 hn
  · obtain ⟨ps, h3, h4⟩ := (eff_after h1).done
    exact ⟨c.hist, [], ps, (List.append_nil _).symm, Or.inl rfl, h3, effects_nodup h3, h2.trans h4⟩
  · obtain ⟨ps, h5, h6⟩ := (eff_after h3).done
    exact ⟨fs, [f], ps, h2, Or.inr ⟨rfl, h1⟩, h5, effects_nodup h5, h4.trans h6⟩

theorem takes_cut {h l : List Frame} (hp : h <+: l) {i j : Nat} (ht : Spec.TakesEffect l i j) (hj : j < h.length) : Spec.TakesEffect h i j := by
  obtain ⟨z, rfl⟩ := hp
  have e : ∀ {x : Nat}, x < h.length → (h ++ z)[x]? = h[x]? := fun hx => List.getElem?_append_left hx
  obtain ⟨g, h1, h2, ⟨h3, rfl⟩ | ⟨t, k, h3, h4, h5, h6, h7, h8⟩⟩ := ht
  · rw [e hj] at h1
    exact ⟨g, h1, h2, Or.inl ⟨h3, rfl⟩⟩
  · rw [e (by omega)] at h1
    rw [e hj] at h5
    exact ⟨g, h1, h2, Or.inr ⟨t, k, h3, h4, h5, h6, h7, fun x y hx hy hz => h8 x y hx hy (by rw [e (by omega)]; exact hz)⟩⟩

theorem picked_messages {me : Nat} {fs eff : List Frame} {ps : List (Nat × Nat)} (h : eff = (Spec.pick fs ps).map Spec.clean) :
    (Spec.messages me 0 eff).map (·.frame) = ((Spec.pick fs ps).filter (fun f => decide (f.command = b!"SEND"))).map Stomp.Spec.asMessage := by
  rw [messages_frames, h, List.filter_map, List.map_map]
  rfl

end Stomp.Server

namespace Stomp.Joint
open Stomp

/-- **C70**, the server and its clients. The messages of a program are the SEND frames which the program has put on the wire outside transactions, and those of its transactions that it has
committed, in the order of the specification, each once; up to some place in what the program has put on the wire. So of a transaction either all takes effect, or nothing does. -/
theorem C70_sender {cfg : Server.Config} {s : State} (h : Spec.Reached cfg s) {c : Nat} {p : Peer} {k : Server.Conn} (hp : s.peers[c]? = some p) (hk : s.server.conns[c]? = some k)
    (hn : .panic ∉ k.outbox) :
    ∃ (fs : List Frame) (ps : List (Nat × Nat)), fs <+: p.hello :: Client.Spec.written p.client ∧ (k.stage = .run → fs = k.hist) ∧ Server.Spec.Effects fs ps ∧ (ps.map (·.1)).Nodup ∧
      (Server.Spec.messages c 0 k.effective).map (·.frame) = ((Server.Spec.pick fs ps).filter (fun f => decide (f.command = b!"SEND"))).map Stomp.Spec.asMessage ∧
      (∀ i j, (i, j) ∈ ps → Server.Spec.TakesEffect (p.hello :: Client.Spec.written p.client) i j) ∧
      ∀ i i' j, (i, j) ∈ ps → Server.Spec.TakesEffect (p.hello :: Client.Spec.written p.client) i' j → (i', j) ∈ ps := by
  have hinv := inv_reached h
  have hi := hinv.peer c p k hp hk
  obtain ⟨ces, hrun, _⟩ := Server.conn_run hinv.run hinv.alive hk
  obtain ⟨fs, last, ps, h1, h2, h3, h4, h5⟩ := Server.C70_effects cfg c ces k hrun hn
  have hpre : fs <+: p.hello :: Client.Spec.written p.client := by
    refine List.IsPrefix.trans ?_ hi.up
    rw [h1, List.append_assoc]
    exact List.prefix_append ..
  refine ⟨fs, ps, hpre, fun hr => ?_, h3, h4, Server.picked_messages h5, fun i j hm => Server.takes_prefix hpre ((h3.mem i j).1 hm), fun i i' j hm ht => ?_⟩
  · rcases h2 with rfl | ⟨_, h6⟩
    · rw [h1, List.append_nil]
    · exact absurd hr h6
  · exact (h3.mem _ _).2 (Server.takes_cut hpre ht (Server.takes_le ((h3.mem i j).1 hm)).2)

/-- **C70**, end to end. A message that arrives at any program, on any of its subscriptions, was sent by some program outside transactions, or in a transaction which that program has committed: the
COMMIT is on the wire, and no BEGIN, COMMIT or ABORT of the same transaction is between the message and it. -/
theorem C70_arrived {cfg : Server.Config} {s : State} (h : Spec.Reached cfg s) (hn : ∀ k ∈ s.server.conns, .panic ∉ k.outbox) {c : Nat} {p : Peer} (hp : s.peers[c]? = some p)
    {i : Nat} {b : Client.Sub} (hb : p.client.subs[i]? = some b) {g : Frame} (hg : g ∈ Stomp.Spec.messagesOn b) :
    ∃ (c' : Nat) (p' : Peer) (n j : Nat) (f : Frame), s.peers[c']? = some p' ∧ Server.Spec.TakesEffect (p'.hello :: Client.Spec.written p'.client) n j ∧
      (p'.hello :: Client.Spec.written p'.client)[n]? = some f ∧ f.command = b!"SEND" ∧ g.body = f.body ∧ Server.Spec.others g.header = Server.Spec.others (Server.Spec.clean f).header := by
  have hinv := inv_reached h
  obtain ⟨k, hk⟩ := hinv.conn hp
  have hi := hinv.peer c p k hp hk
  obtain ⟨hiso, hsub, hpre⟩ := Client.C23_isolation hi.run hb
  have hg' : g ∈ Client.Spec.messages b := by
    obtain ⟨x, hx, he⟩ := List.mem_filterMap.1 hg
    refine List.mem_filterMap.2 ⟨x, hx, ?_⟩
    cases x <;> first | exact he | cases he
  have hcmd : g.command = b!"MESSAGE" := (hiso g hg').1
  have hd : some g ∈ down k := by
    have h1 : g ∈ Client.Spec.framesRead p.client := hpre.subset (hsub.subset hg')
    refine hi.down.subset (List.mem_append_right _ ?_)
    obtain ⟨o, ho, he⟩ := List.mem_filterMap.1 h1
    refine List.mem_filterMap.2 ⟨o, ho, ?_⟩
    cases o <;> first | (cases he; done) | skip
    rename_i x
    have he : x = some g := he
    subst he
    rfl
  obtain ⟨w, hw, hwg⟩ := List.mem_map.1 hd
  obtain ⟨t, _, _, k', o, hk', ho, _, hbody, hoth⟩ := Server.written_copy hinv.run hinv.alive hk hw hwg hcmd
  obtain ⟨p', hp'⟩ := hinv.both hk'
  obtain ⟨fs, ps, h1, _, h3, _, h5, h6, _⟩ := C70_sender h hp' hk' (hn k' (List.mem_of_getElem? hk'))
  have ho' : o.frame ∈ (Server.Spec.messages t.src 0 k'.effective).map (·.frame) := List.mem_map.2 ⟨o, ho, rfl⟩
  rw [h5] at ho'
  obtain ⟨f, hf, hfo⟩ := List.mem_map.1 ho'
  obtain ⟨hf, hfc⟩ := List.mem_filter.1 hf
  obtain ⟨⟨n, j⟩, hnj, hfn⟩ := List.mem_filterMap.1 hf
  refine ⟨t.src, p', n, j, f, hp', h6 n j hnj, ?_, of_decide_eq_true hfc, ?_, ?_⟩
  · obtain ⟨z, hz⟩ := h1
    rw [← hz, List.getElem?_append_left (Server.get_lt hfn)]
    exact hfn
  · rw [hbody, ← hfo]; rfl
  · rw [hoth, ← hfo]; rfl

/-- **C70**, when nothing is left to do: the messages of a program are exactly those SEND frames it has handed over outside transactions or in transactions it has committed; each message for a
queue is stored there or has arrived, each message for a topic was sent on by the topic (and has arrived at the subscriptions which the topic had at that time, `C68_topic`). -/
theorem C70_rest {cfg : Server.Config} {s : State} (h : Spec.Reached cfg s) (hr : Spec.AtRest s.server)
    (hall : ∀ (c : Nat) (p : Peer) (k : Server.Conn), s.peers[c]? = some p → s.server.conns[c]? = some k → Spec.Settled p k ∧ Client.Spec.Distinct p.client ∧ Spec.Stays p)
    {c : Nat} {p : Peer} {k : Server.Conn} (hp : s.peers[c]? = some p) (hk : s.server.conns[c]? = some k) :
    ∃ (ms : List Server.Msg) (ps : List (Nat × Nat)), Server.Spec.Effects (p.hello :: Stomp.Spec.sentIn p.client.trace) ps ∧
      ms.map (·.frame) = ((Server.Spec.pick (p.hello :: Stomp.Spec.sentIn p.client.trace) ps).filter (fun f => decide (f.command = b!"SEND"))).map Stomp.Spec.asMessage ∧
      (ms.map (·.tag)).Nodup ∧
      ∀ m ∈ ms, ∀ d, Server.Spec.target m = some d →
        (Server.Spec.IsQueue d → (m.tag ∈ Server.Spec.stored s.server d ∧ s.server.queues.list d = []) ∨ Spec.Arrived s m.tag) ∧
        (¬Server.Spec.IsQueue d → m.tag ∈ Server.Spec.broadcast d cfg s.events) := by
  have hinv := inv_reached h
  have hi := hinv.peer c p k hp hk
  have hs := (hall c p k hp hk).1
  obtain ⟨e1, e2, e3, e4, _⟩ := hr.conns k (List.mem_of_getElem? hk)
  obtain ⟨hsent, hhist⟩ := all_processed h hr hp hk hs
  obtain ⟨fs, ps, _, h2, h3, _, h5, _⟩ := C70_sender h hp hk (by rw [e4]; simp)
  rw [h2 e1, hhist, ← hsent] at h3 h5
  refine ⟨Server.Spec.messages c 0 k.effective, ps, h3, h5, Server.messages_nodup .., fun m hm d hd => ⟨queue_place h hr hall hk hm hd, fun _ => ?_⟩⟩
  rcases Server.taken_or_pending hinv.run hinv.alive hk hm hd with h3 | h3
  · exact h3
  · rw [no_requests hr] at h3; cases h3

end Stomp.Joint

namespace Stomp.Joint.TxEx
open Stomp Ex RestEx

def begin_ : Frame := ⟨b!"BEGIN", [(b!"transaction", b!"t")], []⟩
def send (x : UInt8) : Frame := ⟨b!"SEND", [(b!"content-length", b!"1"), (b!"destination", b!"/queue/a"), (b!"transaction", b!"t")], [x]⟩
def commit : Frame := ⟨b!"COMMIT", [(b!"transaction", b!"t")], []⟩
def abort : Frame := ⟨b!"ABORT", [(b!"transaction", b!"t")], []⟩

/-- Client 0 sends a frame, its call number `n`; the server processes it, and then has `r` requests. -/
def puts (n : Nat) (f : Frame) (r : Nat) : List Ev :=
  [.client 0 0 (.call (.frame f)), .client 0 0 (.thread n), .client 0 0 (.thread n), .client 0 0 (.loopWrite true []),
   .server 999 (.conn 0 (.recv f)), .server 0 (.conn 0 (.frame true true))] ++ (List.replicate r [.server 0 (.flush 0), .server 0 .proc]).flatten

def open_ : List Ev := joins 0 ++ puts 0 begin_ 0 ++ puts 1 (send 1) 0 ++ puts 2 (send 2) 0
def committed : List Ev := open_ ++ puts 3 commit 2
def aborted : List Ev := open_ ++ puts 3 abort 0

def subFrame1 : Frame := ⟨b!"SUBSCRIBE", [(b!"destination", b!"/queue/a"), (b!"ack", b!"auto"), (b!"id", b!"1")], []⟩
def got : Frame := ⟨b!"MESSAGE", [(b!"content-length", b!"1"), (b!"destination", b!"/queue/a"), (b!"subscription", b!"1"), (b!"message-id", b!"1"), (b!"id", b!"1")], [1]⟩
/-- Client 1 subscribes and gets the first of the two messages. -/
def arrives : List Ev := committed ++ joins 1 ++
  [.client 1 0 (.call (.subscribe b!"/queue/a" .auto [])), .client 1 0 (.thread 0), .client 1 0 (.thread 0), .client 1 0 (.loopWrite true []),
   .server 999 (.conn 1 (.recv subFrame1)), .server 0 (.conn 1 (.frame true true)), .server 0 (.flush 1), .server 0 .proc, .server 0 .push, .server 0 (.conn 1 (.sub true)),
   .client 1 999 (.net (some got)), .client 1 0 (.loopRead []), .client 1 0 (.deliver true), .client 1 0 (.sub 0)]

theorem wf {f : Frame} (h : readFrame (writeFrame (some f)) = .frame f []) : Stomp.Spec.WellFormed f := (C06_sound _ _ _ h).1

theorem sane_joins (c : Nat) : ∀ e ∈ joins c, Spec.Sane e := by
  intro e he
  simp only [joins, List.mem_cons, List.not_mem_nil, or_false] at he
  rcases he with rfl | rfl | rfl | rfl | rfl | rfl <;> first | exact ⟨by decide +kernel, EndToEndEx.hello_wf⟩ | exact trivial

theorem sane_puts {n r : Nat} {f : Frame} (hf : Stomp.Spec.WellFormed f) : ∀ e ∈ puts n f r, Spec.Sane e := by
  intro e he
  rcases List.mem_append.1 he with he | he
  · simp only [List.mem_cons, List.not_mem_nil, or_false] at he
    rcases he with rfl | rfl | rfl | rfl | rfl | rfl <;> first | exact hf | exact trivial
  · obtain ⟨l, hl, he⟩ := List.mem_flatten.1 he
    rw [(List.mem_replicate.1 hl).2] at he
    simp only [List.mem_cons, List.not_mem_nil, or_false] at he
    rcases he with rfl | rfl <;> exact trivial

theorem sane_append {a b : List Ev} (ha : ∀ e ∈ a, Spec.Sane e) (hb : ∀ e ∈ b, Spec.Sane e) : ∀ e ∈ a ++ b, Spec.Sane e :=
  fun e he => (List.mem_append.1 he).elim (ha e) (hb e)

theorem sane_open : ∀ e ∈ open_, Spec.Sane e :=
  sane_append (sane_append (sane_append (sane_joins 0) (sane_puts (wf (by decide +kernel)))) (sane_puts (wf (by decide +kernel)))) (sane_puts (wf (by decide +kernel)))
theorem sane_committed : ∀ e ∈ committed, Spec.Sane e := sane_append sane_open (sane_puts (wf (by decide +kernel)))
theorem sane_aborted : ∀ e ∈ aborted, Spec.Sane e := sane_append sane_open (sane_puts (wf (by decide +kernel)))
theorem sane_arrives : ∀ e ∈ arrives, Spec.Sane e := by
  refine sane_append (sane_append sane_committed (sane_joins 1)) ?_
  intro e he
  simp only [List.mem_cons, List.not_mem_nil, or_false] at he
  rcases he with rfl | rfl | rfl | rfl | rfl | rfl | rfl | rfl | rfl | rfl | rfl | rfl | rfl | rfl <;> first | exact trivial | (intro k v hv; simp at hv)

theorem reached_committed : Spec.Reached Server.sampleCfg (after committed) := ⟨⟨committed, run_after (by decide +kernel), sane_committed⟩, by decide +kernel⟩
theorem reached_aborted : Spec.Reached Server.sampleCfg (after aborted) := ⟨⟨aborted, run_after (by decide +kernel), sane_aborted⟩, by decide +kernel⟩
theorem reached_arrives : Spec.Reached Server.sampleCfg (after arrives) := ⟨⟨arrives, run_after (by decide +kernel), sane_arrives⟩, by decide +kernel⟩

/-- The frames on the wire. -/
def wire (x : Frame) : List Frame := [hello, begin_, send 1, send 2, x]

/-- Both messages take effect with the COMMIT. -/
theorem commits : Server.Spec.TakesEffect (wire commit) 2 4 ∧ Server.Spec.TakesEffect (wire commit) 3 4 := by
  have hb : ∀ x y, 2 < x → x < 4 → (wire commit)[x]? = some y → ¬Server.Spec.boundary b!"t" y := by
    intro x y h1 h2 h3 h4
    have : x = 3 := by omega
    subst this
    injection h3 with h3; subst h3
    rcases h4.1 with h | h | h <;> exact absurd h (by decide)
  exact ⟨⟨send 1, rfl, Or.inl (by decide), Or.inr ⟨b!"t", commit, by decide, by decide, rfl, by decide, by decide, hb⟩⟩,
    ⟨send 2, rfl, Or.inl (by decide), Or.inr ⟨b!"t", commit, by decide, by decide, rfl, by decide, by decide, fun x y h1 h2 => hb x y (by omega) h2⟩⟩⟩

-- With an ABORT nothing does.
example (i j : Nat) : ¬Server.Spec.TakesEffect (wire abort) i j := by
  rintro ⟨f, h1, h2, h3⟩
  have hi := Server.get_lt h1
  have hcase : ∀ n, n < 5 → n = 0 ∨ n = 1 ∨ n = 2 ∨ n = 3 ∨ n = 4 := by omega
  have noc : ∀ (n : Nat) (g : Frame), (wire abort)[n]? = some g → g.command ≠ b!"COMMIT" := by
    intro n g hg
    rcases hcase n (Server.get_lt hg) with rfl | rfl | rfl | rfl | rfl <;> (injection hg with hg; subst hg; decide +kernel)
  rcases h3 with ⟨h3, _⟩ | ⟨_, g, _, _, h4, h5, _⟩
  · rcases hcase i hi with rfl | rfl | rfl | rfl | rfl <;> injection h1 with h1 <;> subst h1
    · rcases h2 with h | h | h <;> exact absurd h (by decide +kernel)
    · rcases h2 with h | h | h <;> exact absurd h (by decide)
    · exact absurd h3 (by decide)
    · exact absurd h3 (by decide)
    · rcases h2 with h | h | h <;> exact absurd h (by decide)
  · exact noc _ _ h4 h5

-- C70_effects, C70_sender, C70_rest: the committed transaction is stored as a whole, the aborted one is not there.
example : Spec.Reached Server.sampleCfg (after committed) ∧ quiet (after committed) = true ∧
    ((after committed).peers[0]?).map (fun p => p.hello :: Client.Spec.written p.client) = some (wire commit) ∧
    ((after committed).server.conns[0]?).map (fun k => (k.hist, k.stage, k.effective)) =
      some (wire commit, .run, [(⟨b!"SEND", [(b!"content-length", b!"1"), (b!"destination", b!"/queue/a")], [1]⟩ : Frame), ⟨b!"SEND", [(b!"content-length", b!"1"), (b!"destination", b!"/queue/a")], [2]⟩]) ∧
    Server.Spec.stored (after committed).server b!"/queue/a" = [⟨0, 0⟩, ⟨0, 1⟩] :=
  ⟨reached_committed, by decide +kernel, by decide +kernel, by decide +kernel, by decide +kernel⟩

example : Spec.Reached Server.sampleCfg (after aborted) ∧ quiet (after aborted) = true ∧
    ((after aborted).peers[0]?).map (fun p => p.hello :: Client.Spec.written p.client) = some (wire abort) ∧
    ((after aborted).server.conns[0]?).map (fun k => (k.hist, k.stage, k.effective)) = some (wire abort, .run, []) ∧
    Server.Spec.stored (after aborted).server b!"/queue/a" = [] :=
  ⟨reached_aborted, by decide +kernel, by decide +kernel, by decide +kernel, by decide +kernel⟩

-- C70_arrived: a message of the committed transaction arrives.
example : Spec.Reached Server.sampleCfg (after arrives) ∧ ((after arrives).server.conns.all (fun k => !k.outbox.contains .panic)) = true ∧
    ((after arrives).peers[1]?).map (fun p => p.client.subs.map Stomp.Spec.messagesOn) = some [[got]] :=
  ⟨reached_arrives, by decide +kernel, by decide +kernel⟩

/-- Another client sends a message of its own. -/
def other : Frame := ⟨b!"SEND", [(b!"content-length", b!"1"), (b!"destination", b!"/queue/a")], [9]⟩
def between : List Ev := open_ ++ joins 1 ++ puts 3 commit 1 ++
  [.client 1 0 (.call (.frame other)), .client 1 0 (.thread 0), .client 1 0 (.thread 0), .client 1 0 (.loopWrite true []),
   .server 999 (.conn 1 (.recv other)), .server 0 (.conn 1 (.frame true true)), .server 0 (.flush 1), .server 0 .proc, .server 0 (.flush 0), .server 0 .proc]

theorem sane_between : ∀ e ∈ between, Spec.Sane e := by
  refine sane_append (sane_append (sane_append sane_open (sane_joins 1)) (sane_puts (wf (by decide +kernel)))) ?_
  intro e he
  simp only [List.mem_cons, List.not_mem_nil, or_false] at he
  rcases he with rfl | rfl | rfl | rfl | rfl | rfl | rfl | rfl | rfl | rfl <;> first | exact trivial | exact wf (by decide +kernel)

/-- All that client 0 does takes effect with the COMMIT. -/
theorem commits_only (i j : Nat) (h : Server.Spec.TakesEffect (wire commit) i j) : j = 4 := by
  obtain ⟨f, h1, h2, h3⟩ := h
  have hcase : ∀ n, n < 5 → n = 0 ∨ n = 1 ∨ n = 2 ∨ n = 3 ∨ n = 4 := by omega
  rcases h3 with ⟨h3, _⟩ | ⟨_, g, _, _, h4, h5, _⟩
  · rcases hcase i (Server.get_lt h1) with rfl | rfl | rfl | rfl | rfl <;> injection h1 with h1 <;> subst h1
    · rcases h2 with h | h | h <;> exact absurd h (by decide +kernel)
    · rcases h2 with h | h | h <;> exact absurd h (by decide)
    · exact absurd h3 (by decide)
    · exact absurd h3 (by decide)
  · rcases hcase j (Server.get_lt h4) with rfl | rfl | rfl | rfl | rfl <;> injection h4 with h4 <;> subst h4
    · exact absurd h5 (by decide +kernel)
    · exact absurd h5 (by decide)
    · exact absurd h5 (by decide)
    · exact absurd h5 (by decide)
    · rfl

/-- **C70**, what is not so: that the messages of a transaction stay together, with no message of another client between them. Here all that client 0 has sent takes effect with one COMMIT, and a
message of another client is stored between two of its messages: the server hands the messages of a transaction over one by one. -/
theorem C70_together_false : ¬∀ (cfg : Server.Config) (s : State), Spec.Reached cfg s → ∀ (c : Nat) (p : Peer) (j : Nat), s.peers[c]? = some p →
    (∀ i j', Server.Spec.TakesEffect (p.hello :: Client.Spec.written p.client) i j' → j' = j) →
      ∀ (d : Bytes) (l l' : List Server.Tag) (a x b : Server.Tag), Server.Spec.stored s.server d = l ++ a :: x :: b :: l' → a.src = c → b.src = c → x.src = c := by
  intro h
  have hr : Spec.Reached Server.sampleCfg (after between) := ⟨⟨between, run_after (by decide +kernel), sane_between⟩, by decide +kernel⟩
  have hw : ((after between).peers[0]?).map (fun p => p.hello :: Client.Spec.written p.client) = some (wire commit) := by decide +kernel
  cases hp : (after between).peers[0]? with
  | none => rw [hp] at hw; cases hw
  | some p =>
    rw [hp] at hw; injection hw with hw
    have hw : p.hello :: Client.Spec.written p.client = wire commit := hw
    have hs : Server.Spec.stored (after between).server b!"/queue/a" = [] ++ ⟨0, 0⟩ :: ⟨1, 0⟩ :: ⟨0, 1⟩ :: [] := by decide +kernel
    exact absurd (h _ _ hr 0 p 4 hp (by rw [hw]; exact commits_only) _ _ _ _ _ _ hs rfl rfl) (by decide)

end Stomp.Joint.TxEx
