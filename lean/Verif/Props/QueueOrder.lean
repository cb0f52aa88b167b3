import Verif.Props.TopicOrder
import Verif.Props.Server.QueueOrder
/-! # C63, end to end: programs get the messages of a queue in the order in which they were sent -/
namespace Stomp
open Stomp.Spec (firstValue)

/-- Writes for a queue and what they carry, in pairs. -/
theorem pair_up_queue {d : Bytes} {P : Frame → Server.Tag → Prop} : ∀ (ws : List Server.Wr),
    (∀ w ∈ ws, ∀ f, w.frame = some f → ∃ t, Server.Spec.writtenOf d w = some t ∧ P f t) →
    ∃ ps : List (Frame × Server.Tag), ps.map (·.1) = ws.filterMap (·.frame) ∧ ps.map (·.2) = Server.Spec.writtenOn d ws ∧ ∀ p ∈ ps, P p.1 p.2
  | [], _ => ⟨[], rfl, rfl, by simp⟩
  | w :: ws, h => by
    obtain ⟨ps, h1, h2, h3⟩ := pair_up_queue ws (fun w' hw' => h w' (List.mem_cons_of_mem _ hw'))
    unfold Server.Spec.writtenOn at h2 ⊢
    cases hf : w.frame with
    | none =>
      refine ⟨ps, ?_, ?_, h3⟩
      · rw [List.filterMap_cons, hf]; exact h1
      · have e : Server.Spec.writtenOf d w = none := by unfold Server.Spec.writtenOf; rw [hf]
        rw [List.filterMap_cons, e]; exact h2
    | some f =>
      obtain ⟨t, ht, hp⟩ := h w List.mem_cons_self f hf
      refine ⟨(f, t) :: ps, ?_, ?_, ?_⟩
      · rw [List.filterMap_cons, hf, List.map_cons, h1]
      · rw [List.filterMap_cons, ht, List.map_cons, h2]
      · intro p hp'
        rcases List.mem_cons.1 hp' with rfl | hp'
        · exact hp
        · exact h3 p hp'

/-- **C63**, end to end. In every execution of the server and of clients that use the library, connected by byte streams, in which no message comes back to the queue: the messages of the queue on
the channel `C` of a subscription are copies of messages sent to the queue, in the order in which they were sent, none of them twice (`Spec.sentTo` has no repetitions and follows each sender,
`C63_order`). This holds whatever ids the programs choose. -/
theorem C63_end_to_end (cfg : Server.Config) (es : List Server.Sys.Ev) (s : Server.Sys) (h : Server.Sys.init.run cfg es = some s) (hc : s.crashed = false)
    (peers : Nat → Spec.Peer) (hp : ∀ c, c < s.conns.length → (peers c).Ok)
    (up : ∀ c, c < s.conns.length → Spec.Carries (some (peers c).hello :: Client.Spec.stream (peers c).state) (Server.Spec.receivedBy c es))
    (c : Nat) (k : Server.Conn) (hk : s.conns[c]? = some k)
    (down : Spec.Carries (k.out.map (·.frame)) ((peers c).welcome :: Spec.framesRead (peers c).state))
    (i : Nat) (b : Client.Sub) (hb : (peers c).state.subs[i]? = some b) (d : Bytes) (hq : Server.Spec.IsQueue d)
    (hn : ∀ a ∈ Server.Spec.observe (Server.Spec.asked d) cfg Server.Sys.init es, Server.Spec.isRequeue a = false) :
    ∃ ps : List (Frame × Server.Tag), ps.map (·.1) = (Spec.messagesOn b).filter (fun f => decide (firstValue f.header b!"destination" = some d)) ∧
      (ps.map (·.2)).Sublist (Server.Spec.sentTo d cfg es) ∧ (ps.map (·.2)).Sublist (Server.Spec.writtenOn d k.out) ∧ ∀ p ∈ ps, Server.Spec.CopyOf s p.2 p.1 := by
  have hlen := (List.getElem?_eq_some_iff.1 hk).1
  have upwf : ∀ j, j < s.conns.length → ∀ g, some g ∈ some (peers j).hello :: Client.Spec.stream (peers j).state → Spec.WellFormed g := by
    intro j hj g hg
    rcases List.mem_cons.1 hg with hg | hg
    · injection hg with hg; rw [hg]; exact (hp j hj).hello.2
    · exact Client.stream_wf (hp j hj).run (hp j hj).sound g hg
  have hin : ∀ j, j < s.conns.length → ∀ g ∈ Server.Spec.receivedBy j es, Spec.WellFormed g :=
    fun j hj g hg => upwf j hj g (carries_mem (up j hj) (upwf j hj) g hg)
  obtain ⟨h1, h2, h3⟩ := Client.C23_isolation (hp c hlen).run hb
  have hsub : ((Spec.messagesOn b).filter (fun f => decide (firstValue f.header b!"destination" = some d))).Sublist (k.out.filterMap (·.frame)) := by
    have h4 := carries_sublist down (Server.out_wf h hc hin hk)
    rw [List.filterMap_map] at h4
    refine (List.filter_sublist ..).trans (List.Sublist.trans ?_ h4)
    exact (h2.trans h3.sublist).trans (List.sublist_cons_self ..)
  obtain ⟨ws, hws, he⟩ := List.sublist_filterMap_iff.1 hsub
  have hle := (Server.C63_order cfg es s h hc d hq hn).2.2.1 c k hk
  have hall := (Server.C63_follows cfg es s h hc d hq c k hk).2
  obtain ⟨ps, hp1, hp2, hp3⟩ := pair_up_queue (d := d) (P := fun f t => Server.Spec.CopyOf s t f) ws (by
    intro w hw f hf
    have hmem : f ∈ (Spec.messagesOn b).filter (fun f => decide (firstValue f.header b!"destination" = some d)) := by
      rw [he]; exact List.mem_filterMap.2 ⟨w, hw, hf⟩
    obtain ⟨hmem, hdst⟩ := List.mem_filter.1 hmem
    exact hall w (hws.subset hw) f hf (h1 f hmem).1 (of_decide_eq_true hdst))
  have hw : (ps.map (·.2)).Sublist (Server.Spec.writtenOn d k.out) := hp2 ▸ hws.filterMap _
  exact ⟨ps, hp1.trans he.symm, hw.trans hle, hw, hp3⟩

/-- **C63**, two programs: no message of the queue reaches subscriptions of two programs. -/
theorem C63_programs (cfg : Server.Config) (es : List Server.Sys.Ev) (s : Server.Sys) (h : Server.Sys.init.run cfg es = some s) (hc : s.crashed = false)
    (peers : Nat → Spec.Peer) (hp : ∀ c, c < s.conns.length → (peers c).Ok)
    (up : ∀ c, c < s.conns.length → Spec.Carries (some (peers c).hello :: Client.Spec.stream (peers c).state) (Server.Spec.receivedBy c es))
    (down : ∀ (c : Nat) (k : Server.Conn), s.conns[c]? = some k → Spec.Carries (k.out.map (·.frame)) ((peers c).welcome :: Spec.framesRead (peers c).state))
    (d : Bytes) (hq : Server.Spec.IsQueue d)
    (hn : ∀ a ∈ Server.Spec.observe (Server.Spec.asked d) cfg Server.Sys.init es, Server.Spec.isRequeue a = false)
    (c c' : Nat) (hne : c ≠ c') (hc1 : c < s.conns.length) (hc2 : c' < s.conns.length) (i i' : Nat) (b b' : Client.Sub)
    (hb : (peers c).state.subs[i]? = some b) (hb' : (peers c').state.subs[i']? = some b') :
    ∃ ps ps' : List (Frame × Server.Tag),
      ps.map (·.1) = (Spec.messagesOn b).filter (fun f => decide (firstValue f.header b!"destination" = some d)) ∧
      ps'.map (·.1) = (Spec.messagesOn b').filter (fun f => decide (firstValue f.header b!"destination" = some d)) ∧
      (∀ p ∈ ps ++ ps', Server.Spec.CopyOf s p.2 p.1) ∧
      ((ps ++ ps').map (·.2)).Nodup := by
  have hk := List.getElem?_eq_getElem hc1
  have hk' := List.getElem?_eq_getElem hc2
  obtain ⟨ps, h1, h2, hw, h3⟩ := C63_end_to_end cfg es s h hc peers hp up c _ hk (down c _ hk) i b hb d hq hn
  obtain ⟨ps', h1', h2', hw', h3'⟩ := C63_end_to_end cfg es s h hc peers hp up c' _ hk' (down c' _ hk') i' b' hb' d hq hn
  obtain ⟨hnd, _, _, hdis⟩ := Server.C63_order cfg es s h hc d hq hn
  refine ⟨ps, ps', h1, h1', ?_, ?_⟩
  · intro p hp
    rcases List.mem_append.1 hp with hp | hp
    · exact h3 p hp
    · exact h3' p hp
  · rw [List.map_append, List.nodup_append]
    refine ⟨h2.nodup hnd, h2'.nodup hnd, fun x hx y hy hxy => ?_⟩
    subst hxy
    exact hdis c c' _ _ hne hk hk' x (hw.subset hx) (hw'.subset hy)

namespace QueueOrderEx

def hello : Frame := Server.sampleConnect
def welcome : Frame := ⟨b!"CONNECTED", [(b!"version", b!"1.1"), (b!"server", b!"stompd/x.y.z"), (b!"heart-beat", b!"0,0")], []⟩
def sendFrame (n : UInt8) : Frame := ⟨b!"SEND", [(b!"content-length", b!"1"), (b!"destination", b!"/queue/a")], [n]⟩
def subFrame : Frame := ⟨b!"SUBSCRIBE", [(b!"destination", b!"/queue/a"), (b!"ack", b!"auto"), (b!"id", b!"1")], []⟩
def message (i : Bytes) (n : UInt8) : Frame :=
  ⟨b!"MESSAGE", [(b!"content-length", b!"1"), (b!"destination", b!"/queue/a"), (b!"subscription", b!"1"), (b!"message-id", i), (b!"id", i)], [n]⟩

def sendOne (n : UInt8) : List Client.Ev := [.call (.send b!"/queue/a" [] [n] [])]
def sender : List Client.Ev := [1, 2, 3].flatMap (fun n => sendOne n ++ [.thread (n.toNat - 1), .thread (n.toNat - 1), .loopWrite true []])
def get (i : Bytes) (n : UInt8) : List Client.Ev := [.net (some (message i n)), .loopRead [], .deliver true, .sub 0]
def subscribe : List Client.Ev := [.call (.subscribe b!"/queue/a" .auto []), .thread 0, .thread 0, .loopWrite true []]
def receiver1 : List Client.Ev := subscribe ++ get b!"1" 1 ++ get b!"2" 3
def receiver2 : List Client.Ev := subscribe ++ get b!"1" 2
def server : List Server.Sys.Ev :=
  [.accept, .accept, .accept] ++
  [0, 1, 2].flatMap (fun c => [.conn c (.recv hello), .conn c (.frame true true), .flush c, .proc]) ++
  [1, 2].flatMap (fun c => [.conn c (.recv subFrame), .conn c (.frame true true), .flush c, .proc]) ++
  [1, 2].flatMap (fun n => [.conn 0 (.recv (sendFrame n)), .conn 0 (.frame true true), .flush 0, .proc, .push]) ++
  [.conn 1 (.sub true), .flush 1, .proc, .conn 2 (.sub true)] ++
  [.conn 0 (.recv (sendFrame 3)), .conn 0 (.frame true true), .flush 0, .proc, .push, .conn 1 (.sub true)]

def run (es : List Client.Ev) : Client.Sys := ((Client.Sys.init 0).run Client.Ex.cfg es).getD (Client.Sys.init 0)
def peers (c : Nat) : Spec.Peer :=
  if c = 0 then ⟨Client.Ex.cfg, 0, sender, run sender, hello, welcome⟩
  else if c = 1 then ⟨Client.Ex.cfg, 0, receiver1, run receiver1, hello, welcome⟩ else ⟨Client.Ex.cfg, 0, receiver2, run receiver2, hello, welcome⟩
def serverState : Server.Sys := (Server.Sys.init.run Server.sampleCfg server).getD Server.Sys.init

theorem len : serverState.conns.length = 3 := by decide +kernel

theorem ok : ∀ c, c < serverState.conns.length → (peers c).Ok := by
  intro c hc
  rw [len] at hc
  match c, hc with
  | 0, _ =>
    refine ⟨by decide +kernel, ?_, by decide +kernel, EndToEndEx.hello_wf⟩
    intro x hx
    simp only [peers, if_true, sender, sendOne, List.flatMap_cons, List.flatMap_nil, List.append_nil, List.cons_append, List.nil_append, List.mem_cons, Client.Ev.call.injEq, List.not_mem_nil,
      or_false, reduceCtorEq, false_or] at hx
    rcases hx with rfl | rfl | rfl <;> exact ⟨by simp, by decide, by simp⟩
  | 1, _ =>
    refine ⟨by decide +kernel, ?_, by decide +kernel, EndToEndEx.hello_wf⟩
    intro x hx
    simp only [peers, Nat.one_ne_zero, if_false, if_true, receiver1, subscribe, get, List.cons_append, List.nil_append, List.mem_cons, Client.Ev.call.injEq, List.not_mem_nil, or_false, reduceCtorEq, or_self] at hx
    subst hx
    intro k v hv
    simp at hv
  | 2, _ =>
    refine ⟨by decide +kernel, ?_, by decide +kernel, EndToEndEx.hello_wf⟩
    intro x hx
    have hx : Client.Ev.call x ∈ receiver2 := hx
    simp only [receiver2, subscribe, get, List.cons_append, List.nil_append, List.mem_cons, Client.Ev.call.injEq, List.not_mem_nil, or_false, reduceCtorEq, or_self] at hx
    subst hx
    intro k v hv
    simp at hv

theorem upward : ∀ c, c < serverState.conns.length → Spec.Carries (some (peers c).hello :: Client.Spec.stream (peers c).state) (Server.Spec.receivedBy c server) := by
  intro c hc
  rw [len] at hc
  match c, hc with
  | 0, _ => exact EndToEndEx.carries_all (by decide +kernel)
  | 1, _ => exact EndToEndEx.carries_all (by decide +kernel)
  | 2, _ => exact EndToEndEx.carries_all (by decide +kernel)

theorem downward : ∀ (c : Nat) (k : Server.Conn), serverState.conns[c]? = some k →
    Spec.Carries (k.out.map (·.frame)) ((peers c).welcome :: Spec.framesRead (peers c).state) := by
  intro c k hk
  have hc := (List.getElem?_eq_some_iff.1 hk).1
  rw [len] at hc
  have hk : k = serverState.conns[c]?.getD (.init 0) := by rw [hk]; rfl
  subst hk
  match c, hc with
  | 0, _ => exact EndToEndEx.carries_all (by decide +kernel)
  | 1, _ => exact EndToEndEx.carries_all (by decide +kernel)
  | 2, _ => exact EndToEndEx.carries_all (by decide +kernel)

end QueueOrderEx

open QueueOrderEx in
example : Server.Sys.init.run Server.sampleCfg server = some serverState ∧ serverState.crashed = false ∧
    (∀ c, c < serverState.conns.length → (peers c).Ok) ∧
    (∀ c, c < serverState.conns.length → Spec.Carries (some (peers c).hello :: Client.Spec.stream (peers c).state) (Server.Spec.receivedBy c server)) ∧
    (∀ (c : Nat) (k : Server.Conn), serverState.conns[c]? = some k → Spec.Carries (k.out.map (·.frame)) ((peers c).welcome :: Spec.framesRead (peers c).state)) ∧
    (∀ a ∈ Server.Spec.observe (Server.Spec.asked b!"/queue/a") Server.sampleCfg Server.Sys.init server, Server.Spec.isRequeue a = false) ∧
    (∃ b, (peers 1).state.subs[0]? = some b ∧ Spec.messagesOn b = [message b!"1" 1, message b!"2" 3]) ∧
    (∃ b, (peers 2).state.subs[0]? = some b ∧ Spec.messagesOn b = [message b!"1" 2]) :=
  ⟨by decide +kernel, by decide +kernel, ok, upward, downward, by decide +kernel,
    ⟨(peers 1).state.subs[0]?.getD (.new [] false 0), by decide +kernel, by decide +kernel⟩,
    ⟨(peers 2).state.subs[0]?.getD (.new [] false 0), by decide +kernel, by decide +kernel⟩⟩

end Stomp
