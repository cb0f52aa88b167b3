import Verif.Props.EndToEnd
import Verif.Props.Server.TopicOrder
/-! # C62, end to end: all the programs see the messages of a topic in the same order -/
namespace Stomp
open Stomp.Spec (firstValue)

theorem carries_sublist {sent : List (Option Frame)} {received : List Frame} (h : Spec.Carries sent received) (hwf : ∀ f, some f ∈ sent → Spec.WellFormed f) :
    received.Sublist (sent.filterMap id) := by
  obtain ⟨bytes, hb, hr⟩ := h
  have hb : bytes = (writeAll sent).take bytes.length := List.prefix_iff_eq_take.1 hb
  obtain ⟨k, hk, _⟩ := C04_stream_cut sent hwf bytes.length
  rw [hb, hk] at hr
  exact hr.sublist.trans ((List.take_sublist k sent).filterMap id)

/-- Writes and what they carry, in pairs. -/
theorem pair_up {d id : Bytes} {P : Frame → Server.Tag → Prop} : ∀ (ws : List Server.Wr),
    (∀ w ∈ ws, ∀ f, w.frame = some f → ∃ t, Server.Spec.writtenFor d id w = some t ∧ P f t) →
    ∃ ps : List (Frame × Server.Tag), ps.map (·.1) = ws.filterMap (·.frame) ∧ ps.map (·.2) = Server.Spec.writtenTo d id ws ∧ ∀ p ∈ ps, P p.1 p.2
  | [], _ => ⟨[], rfl, rfl, by simp⟩
  | w :: ws, h => by
    obtain ⟨ps, h1, h2, h3⟩ := pair_up ws (fun w' hw' => h w' (List.mem_cons_of_mem _ hw'))
    unfold Server.Spec.writtenTo at h2 ⊢
    cases hf : w.frame with
    | none =>
      refine ⟨ps, ?_, ?_, h3⟩
      · rw [List.filterMap_cons, hf]; exact h1
      · have e : Server.Spec.writtenFor d id w = none := by unfold Server.Spec.writtenFor; rw [hf]
        rw [List.filterMap_cons, e]; exact h2
    | some f =>
      obtain ⟨t, ht, hp⟩ := h w List.mem_cons_self f hf
      refine ⟨(f, t) :: ps, ?_, ?_, ?_⟩
      · rw [List.filterMap_cons, hf, List.map_cons, h1]
      · rw [List.filterMap_cons, ht, List.map_cons, h2]
      · intro p hp'
        rcases List.mem_cons.1 hp' with rfl | hp'
        · exact hp
        · exact h3 p hp'

/-- **C62**, end to end. In every execution of the server and of clients that use the library, connected by byte streams, for every topic: the messages for it on the channel `C` of a
subscription are copies of messages which follow the order in which the topic sends (`C62_topic_order`), none of them twice. This order is the same for all subscriptions of all programs. -/
theorem C62_end_to_end (cfg : Server.Config) (es : List Server.Sys.Ev) (s : Server.Sys) (h : Server.Sys.init.run cfg es = some s) (hc : s.crashed = false)
    (peers : Nat → Spec.Peer) (hp : ∀ c, c < s.conns.length → (peers c).Ok)
    (up : ∀ c, c < s.conns.length → Spec.Carries (some (peers c).hello :: Client.Spec.stream (peers c).state) (Server.Spec.receivedBy c es))
    (c : Nat) (k : Server.Conn) (hk : s.conns[c]? = some k)
    (down : Spec.Carries (k.out.map (·.frame)) ((peers c).welcome :: Spec.framesRead (peers c).state))
    (hd : Client.Spec.Distinct (peers c).state) (i : Nat) (b : Client.Sub) (hb : (peers c).state.subs[i]? = some b)
    (d : Bytes) (hq : ¬Server.Spec.IsQueue d) :
    ∃ ps : List (Frame × Server.Tag), ps.map (·.1) = (Spec.messagesOn b).filter (fun f => decide (firstValue f.header b!"destination" = some d)) ∧
      (ps.map (·.2)).Sublist (Server.Spec.broadcast d cfg es) ∧ ∀ p ∈ ps, Server.Spec.CopyOf s p.2 p.1 := by
  have hlen := (List.getElem?_eq_some_iff.1 hk).1
  have upwf : ∀ j, j < s.conns.length → ∀ g, some g ∈ some (peers j).hello :: Client.Spec.stream (peers j).state → Spec.WellFormed g := by
    intro j hj g hg
    rcases List.mem_cons.1 hg with hg | hg
    · injection hg with hg; rw [hg]; exact (hp j hj).hello.2
    · exact Client.stream_wf (hp j hj).run (hp j hj).sound g hg
  have hin : ∀ j, j < s.conns.length → ∀ g ∈ Server.Spec.receivedBy j es, Spec.WellFormed g :=
    fun j hj g hg => upwf j hj g (carries_mem (up j hj) (upwf j hj) g hg)
  obtain ⟨h1, h2, h3⟩ := Client.C23_isolation (hp c hlen).run hb
  have hsub : ((Spec.messagesOn b).filter (fun f => decide (firstValue f.header b!"destination" = some d))).Sublist (k.out.filterMap (·.frame)) := by
    have h4 := carries_sublist down (Server.out_wf h hc hin hk)
    rw [List.filterMap_map] at h4
    refine (List.filter_sublist ..).trans (List.Sublist.trans ?_ h4)
    exact (h2.trans h3.sublist).trans (List.sublist_cons_self ..)
  obtain ⟨ws, hws, he⟩ := List.sublist_filterMap_iff.1 hsub
  obtain ⟨_, _, hord⟩ := Server.C62_topic_order cfg es s h hc d hq
  obtain ⟨hle, hall⟩ := hord c k hk b.id
  obtain ⟨ps, hp1, hp2, hp3⟩ := pair_up (d := d) (id := b.id) (P := fun f t => Server.Spec.CopyOf s t f) ws (by
    intro w hw f hf
    have hmem : f ∈ (Spec.messagesOn b).filter (fun f => decide (firstValue f.header b!"destination" = some d)) := by
      rw [he]; exact List.mem_filterMap.2 ⟨w, hw, hf⟩
    obtain ⟨hmem, hdst⟩ := List.mem_filter.1 hmem
    obtain ⟨hm, t, r, key, hacc, hch, hs, hkey, hid⟩ := h1 f hmem
    have hk1 : key = b.id := by
      rcases hid with h5 | h5
      · exact h5
      · rw [hd.noReceipt t r (List.singleton_sublist.1 hacc) hs] at h5; cases h5
    subst hk1
    rw [contains_eq_firstValue] at hkey
    exact hall w (hws.subset hw) f hf hm (of_decide_eq_true hdst) hkey)
  exact ⟨ps, hp1.trans he.symm, hp2 ▸ (hws.filterMap _).trans hle, hp3⟩

/-- **C62**, two programs. What two subscriptions of two programs (or of one) get from a topic are copies of messages of which no two are in different orders, and none is there twice. -/
theorem C62_programs (cfg : Server.Config) (es : List Server.Sys.Ev) (s : Server.Sys) (h : Server.Sys.init.run cfg es = some s) (hc : s.crashed = false)
    (peers : Nat → Spec.Peer) (hp : ∀ c, c < s.conns.length → (peers c).Ok)
    (up : ∀ c, c < s.conns.length → Spec.Carries (some (peers c).hello :: Client.Spec.stream (peers c).state) (Server.Spec.receivedBy c es))
    (down : ∀ (c : Nat) (k : Server.Conn), s.conns[c]? = some k → Spec.Carries (k.out.map (·.frame)) ((peers c).welcome :: Spec.framesRead (peers c).state))
    (hd : ∀ c, c < s.conns.length → Client.Spec.Distinct (peers c).state) (d : Bytes) (hq : ¬Server.Spec.IsQueue d)
    (c c' : Nat) (hc1 : c < s.conns.length) (hc2 : c' < s.conns.length) (i i' : Nat) (b b' : Client.Sub)
    (hb : (peers c).state.subs[i]? = some b) (hb' : (peers c').state.subs[i']? = some b') :
    ∃ ps ps' : List (Frame × Server.Tag),
      ps.map (·.1) = (Spec.messagesOn b).filter (fun f => decide (firstValue f.header b!"destination" = some d)) ∧
      ps'.map (·.1) = (Spec.messagesOn b').filter (fun f => decide (firstValue f.header b!"destination" = some d)) ∧
      (∀ p ∈ ps ++ ps', Server.Spec.CopyOf s p.2 p.1) ∧
      Server.Spec.SameOrder (ps.map (·.2)) (ps'.map (·.2)) ∧ (ps.map (·.2)).Nodup := by
  have hk := List.getElem?_eq_getElem hc1
  have hk' := List.getElem?_eq_getElem hc2
  obtain ⟨ps, h1, h2, h3⟩ := C62_end_to_end cfg es s h hc peers hp up c _ hk (down c _ hk) (hd c hc1) i b hb d hq
  obtain ⟨ps', h1', h2', h3'⟩ := C62_end_to_end cfg es s h hc peers hp up c' _ hk' (down c' _ hk') (hd c' hc2) i' b' hb' d hq
  have hn := (Server.C62_topic_order cfg es s h hc d hq).1
  refine ⟨ps, ps', h1, h1', ?_, Server.sameOrder_of hn h2 h2', h2.nodup hn⟩
  intro p hp
  rcases List.mem_append.1 hp with hp | hp
  · exact h3 p hp
  · exact h3' p hp

namespace TopicOrderEx

def hello : Frame := Server.sampleConnect
def welcome : Frame := ⟨b!"CONNECTED", [(b!"version", b!"1.1"), (b!"server", b!"stompd/x.y.z"), (b!"heart-beat", b!"0,0")], []⟩
def sendFrame (n : UInt8) : Frame := ⟨b!"SEND", [(b!"content-length", b!"1"), (b!"destination", b!"/topic/a")], [n]⟩
def subFrame : Frame := ⟨b!"SUBSCRIBE", [(b!"destination", b!"/topic/a"), (b!"ack", b!"auto"), (b!"id", b!"1")], []⟩
def message (i : Bytes) (n : UInt8) : Frame :=
  ⟨b!"MESSAGE", [(b!"content-length", b!"1"), (b!"destination", b!"/topic/a"), (b!"subscription", b!"1"), (b!"message-id", i), (b!"id", i)], [n]⟩

def sendOne (n : UInt8) : List Client.Ev := [.call (.send b!"/topic/a" [] [n] [])]
def sender : List Client.Ev := sendOne 1 ++ [.thread 0, .thread 0, .loopWrite true []] ++ sendOne 2 ++ [.thread 1, .thread 1, .loopWrite true []]
def receiver : List Client.Ev :=
  [.call (.subscribe b!"/topic/a" .auto []), .thread 0, .thread 0, .loopWrite true [],
   .net (some (message b!"1" 1)), .loopRead [], .deliver true, .sub 0, .net (some (message b!"2" 2)), .loopRead [], .deliver true, .sub 0]
def server : List Server.Sys.Ev :=
  [.accept, .accept, .accept] ++
  [0, 1, 2].flatMap (fun c => [.conn c (.recv hello), .conn c (.frame true true), .flush c, .proc]) ++
  [1, 2].flatMap (fun c => [.conn c (.recv subFrame), .conn c (.frame true true), .flush c, .proc]) ++
  [1, 2].flatMap (fun n => [.conn 0 (.recv (sendFrame n)), .conn 0 (.frame true true), .flush 0, .proc, .push, .push]) ++
  [.conn 1 (.wr true), .conn 2 (.wr true), .conn 2 (.wr true), .conn 1 (.wr true)]

def run (es : List Client.Ev) : Client.Sys := ((Client.Sys.init 0).run Client.Ex.cfg es).getD (Client.Sys.init 0)
def peers (c : Nat) : Spec.Peer :=
  if c = 0 then ⟨Client.Ex.cfg, 0, sender, run sender, hello, welcome⟩ else ⟨Client.Ex.cfg, 0, receiver, run receiver, hello, welcome⟩
def serverState : Server.Sys := (Server.Sys.init.run Server.sampleCfg server).getD Server.Sys.init

theorem len : serverState.conns.length = 3 := by decide +kernel

theorem ok : ∀ c, c < serverState.conns.length → (peers c).Ok := by
  have hr : (peers 1).Ok := by
    refine ⟨by decide +kernel, ?_, by decide +kernel, EndToEndEx.hello_wf⟩
    intro x hx
    simp only [peers, Nat.one_ne_zero, if_false, receiver, List.mem_cons, Client.Ev.call.injEq, List.not_mem_nil, or_false, reduceCtorEq, or_self] at hx
    subst hx
    intro k v hv
    simp at hv
  intro c hc
  rw [len] at hc
  match c, hc with
  | 0, _ =>
    refine ⟨by decide +kernel, ?_, by decide +kernel, EndToEndEx.hello_wf⟩
    intro x hx
    simp only [peers, if_true, sender, sendOne, List.cons_append, List.nil_append, List.mem_cons, Client.Ev.call.injEq, List.not_mem_nil, or_false, reduceCtorEq, false_or] at hx
    rcases hx with rfl | rfl
    · exact ⟨by simp, by decide, by simp⟩
    · exact ⟨by simp, by decide, by simp⟩
  | 1, _ => exact hr
  | 2, _ => exact hr

theorem upward : ∀ c, c < serverState.conns.length → Spec.Carries (some (peers c).hello :: Client.Spec.stream (peers c).state) (Server.Spec.receivedBy c server) := by
  intro c hc
  rw [len] at hc
  match c, hc with
  | 0, _ => exact EndToEndEx.carries_all (by decide +kernel)
  | 1, _ => exact EndToEndEx.carries_all (by decide +kernel)
  | 2, _ => exact EndToEndEx.carries_all (by decide +kernel)

theorem downward : ∀ (c : Nat) (k : Server.Conn), serverState.conns[c]? = some k →
    Spec.Carries (k.out.map (·.frame)) ((peers c).welcome :: Spec.framesRead (peers c).state) := by
  intro c k hk
  have hc := (List.getElem?_eq_some_iff.1 hk).1
  rw [len] at hc
  have hk : k = serverState.conns[c]?.getD (.init 0) := by rw [hk]; rfl
  subst hk
  match c, hc with
  | 0, _ => exact EndToEndEx.carries_all (by decide +kernel)
  | 1, _ => exact EndToEndEx.carries_all (by decide +kernel)
  | 2, _ => exact EndToEndEx.carries_all (by decide +kernel)

theorem distinct : ∀ c, c < serverState.conns.length → Client.Spec.Distinct (peers c).state := by
  intro c hc
  rw [len] at hc
  match c, hc with
  | 0, _ => exact Client.distinct_of (by decide +kernel)
  | 1, _ => exact Client.distinct_of (by decide +kernel)
  | 2, _ => exact Client.distinct_of (by decide +kernel)

end TopicOrderEx

open TopicOrderEx in
example : Server.Sys.init.run Server.sampleCfg server = some serverState ∧ serverState.crashed = false ∧
    (∀ c, c < serverState.conns.length → (peers c).Ok) ∧
    (∀ c, c < serverState.conns.length → Spec.Carries (some (peers c).hello :: Client.Spec.stream (peers c).state) (Server.Spec.receivedBy c server)) ∧
    (∀ (c : Nat) (k : Server.Conn), serverState.conns[c]? = some k → Spec.Carries (k.out.map (·.frame)) ((peers c).welcome :: Spec.framesRead (peers c).state)) ∧
    (∀ c, c < serverState.conns.length → Client.Spec.Distinct (peers c).state) ∧
    (∃ b, (peers 1).state.subs[0]? = some b ∧ Spec.messagesOn b = [message b!"1" 1, message b!"2" 2]) ∧
    (∃ b, (peers 2).state.subs[0]? = some b ∧ Spec.messagesOn b = [message b!"1" 1, message b!"2" 2]) :=
  ⟨by decide +kernel, by decide +kernel, ok, upward, downward, distinct,
    ⟨(peers 1).state.subs[0]?.getD (.new [] false 0), by decide +kernel, by decide +kernel⟩,
    ⟨(peers 2).state.subs[0]?.getD (.new [] false 0), by decide +kernel, by decide +kernel⟩⟩

end Stomp
