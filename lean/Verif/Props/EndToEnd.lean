import Verif.Props.Server.Wire
import Verif.Props.Client.Wire
import Verif.Props.Client.Messages
import Verif.Spec.EndToEnd
/-! # C57: from `Send` to `Subscription.C` -/
namespace Stomp
open Stomp.Spec (firstValue)

/-! ## Headers -/

theorem filter_set_key (p : Bytes → Bool) (h : Header) (k v : Bytes) (hk : p k = false) : (h.set k v).filter (fun e => p e.1) = h.filter (fun e => p e.1) := by
  induction h with
  | nil => simp [Header.set, hk]
  | cons e h ih =>
    obtain ⟨a, b⟩ := e
    unfold Header.set
    split
    · rename_i ha; subst ha; simp [hk]
    · simp only [List.filter_cons]; rw [ih]

theorem filter_del_key (p : Bytes → Bool) (h : Header) (k : Bytes) (hk : p k = false) : (h.del k).filter (fun e => p e.1) = h.filter (fun e => p e.1) := by
  induction h with
  | nil => rfl
  | cons e h ih =>
    obtain ⟨a, b⟩ := e
    unfold Header.del
    split
    · rename_i ha; subst ha; simp only [List.filter_cons, hk]; exact ih
    · simp only [List.filter_cons]; rw [ih]

/-- The names of the application's headers. -/
def plainKey (k : Bytes) : Bool := decide (k ∉ [b!"subscription", b!"message-id", b!"id", b!"ack", b!"receipt", b!"transaction", b!"content-length"])

theorem plain_eq (h : Header) : Spec.plain h = h.filter (fun e => plainKey e.1) := rfl

theorem plain_append (a b : Header) : Spec.plain (a ++ b) = Spec.plain a ++ Spec.plain b := List.filter_append ..

theorem applySendOpts_plain {opts : List Client.SendOpt} {last last' : Nat} {f f' : Frame} (h : Client.applySendOpts last f opts = some (last', f')) :
    Spec.plain f'.header = Spec.plain f.header ++ Spec.plain (opts.filterMap (fun | .header k v => some (k, v) | _ => none)) := by
  induction opts generalizing last f with
  | nil =>
    simp only [Client.applySendOpts, Option.some.injEq, Prod.mk.injEq] at h
    rw [← h.2]; simp [Spec.plain]
  | cons o opts ih =>
    simp only [Client.applySendOpts] at h
    split at h
    · cases h
    · rename_i last1 f1 h1
      rw [ih h]
      cases o with
      | nilOpt =>
        simp only [Client.applySendOpt, Option.some.injEq, Prod.mk.injEq] at h1
        rw [← h1.2]; rfl
      | receipt =>
        simp only [Client.applySendOpt] at h1
        split at h1
        · cases h1
        · injection h1 with h1; injection h1 with _ h1; rw [← h1]
          dsimp only
          rw [plain_eq, filter_set_key plainKey _ _ _ (by decide)]; rfl
      | noContentLength =>
        simp only [Client.applySendOpt] at h1
        split at h1
        · cases h1
        · injection h1 with h1; injection h1 with _ h1; rw [← h1]
          dsimp only
          rw [plain_eq, filter_del_key plainKey _ _ (by decide)]; rfl
      | header k v =>
        simp only [Client.applySendOpt] at h1
        split at h1
        · cases h1
        · injection h1 with h1; injection h1 with _ h1; rw [← h1]
          dsimp only
          unfold Header.add
          rw [plain_append, List.append_assoc, ← plain_append]; rfl
      | fail => cases h1

theorem createSend_plain {last last' : Nat} {dest ctype body : Bytes} {opts : List Client.SendOpt} {f : Frame}
    (h : Client.createSendFrame last dest ctype body opts = some (last', f)) : Spec.plain f.header = Spec.plain (Spec.given dest ctype opts) := by
  unfold Client.createSendFrame at h
  dsimp only at h
  rw [applySendOpts_plain h]
  unfold Spec.given
  rw [plain_append]
  congr 1
  by_cases hc : ctype = []
  · subst hc; rfl
  · rw [if_pos hc, if_neg hc]; rfl

theorem plain_value {a b : Header} (h : Spec.plain a = Spec.plain b) {k : Bytes} (hk : plainKey k = true) : firstValue a k = firstValue b k := by
  have key : ∀ a, firstValue (Spec.plain a) k = firstValue a k := fun a => Server.firstValue_filter plainKey _ hk a
  rw [← key a, h, key]

theorem plain_application {a b : Header} (h : Server.Spec.application a = Server.Spec.application b) : Spec.plain a = Spec.plain b := by
  have key : ∀ a, Spec.plain a = (Server.Spec.application a).filter (fun e => decide (e.1 ≠ b!"content-length")) := by
    intro a
    unfold Spec.plain Server.Spec.application
    rw [List.filter_filter]
    congr 1
    funext e
    rw [← Bool.decide_and]
    simp only [Server.Spec.own, List.mem_cons, List.not_mem_nil, or_false, not_or, decide_eq_decide]
    constructor
    · rintro ⟨h1, h2, h3, h4, h5, h6, h7⟩; exact ⟨h7, ⟨h1, h2, h3, h4⟩, h5, h6⟩
    · rintro ⟨h7, ⟨h1, h2, h3, h4⟩, h5, h6⟩; exact ⟨h1, h2, h3, h4, h5, h6, h7⟩
  rw [key, h, ← key]

/-! ## SUBSCRIBE frames -/

theorem createSubscribe_dest {last last' : Nat} {d : Bytes} {a : Client.AckMode} {os : List Client.SubOpt} {f : Frame} {id : Bytes} {rt : Bool}
    (h : Client.createSubscribeFrame last d a os = some (last', f, id, rt)) : f.command = Cmd.subscribe ∧ firstValue f.header Hdr.destination = some d := by
  have one : ∀ {f f' : Frame} {o : Client.SubOpt}, Client.applySubOpt f o = some f' → f.command = Cmd.subscribe ∧ firstValue f.header Hdr.destination = some d →
      f'.command = Cmd.subscribe ∧ firstValue f'.header Hdr.destination = some d := by
    intro f f' o h hf
    cases o with
    | nilOpt => simp only [Client.applySubOpt, Option.some.injEq] at h; subst h; exact hf
    | id i =>
      simp only [Client.applySubOpt] at h
      split at h
      · cases h
      · injection h with h; subst h
        refine ⟨hf.1, ?_⟩
        dsimp only
        rw [firstValue_set, if_neg (by decide)]; exact hf.2
    | header k v =>
      simp only [Client.applySubOpt] at h
      split at h
      · cases h
      · injection h with h; subst h
        refine ⟨hf.1, ?_⟩
        dsimp only
        rw [firstValue_add, hf.2]; rfl
    | fail => cases h
  have many : ∀ {os : List Client.SubOpt} {f f' : Frame}, Client.applySubOpts f os = some f' → f.command = Cmd.subscribe ∧ firstValue f.header Hdr.destination = some d →
      f'.command = Cmd.subscribe ∧ firstValue f'.header Hdr.destination = some d := by
    intro os
    induction os with
    | nil => intro f f' h hf; simp only [Client.applySubOpts, Option.some.injEq] at h; subst h; exact hf
    | cons o os ih =>
      intro f f' h hf
      simp only [Client.applySubOpts] at h
      split at h
      · cases h
      · rename_i g hg; exact ih h (one hg hf)
  unfold Client.createSubscribeFrame at h
  dsimp only at h
  split at h
  · cases h
  · rename_i g hg
    have h1 := many hg ⟨rfl, by simp [Frame.new, Header.add, firstValue_cons, Hdr.destination]⟩
    have h2 : ∀ x : Option Bytes, (match x with | some r => ({ g with header := g.header.set Hdr.id r } : Frame) | none => g).command = Cmd.subscribe ∧
        firstValue (match x with | some r => ({ g with header := g.header.set Hdr.id r } : Frame) | none => g).header Hdr.destination = some d := by
      intro x
      cases x with
      | none => exact h1
      | some r =>
        refine ⟨h1.1, ?_⟩
        dsimp only
        rw [firstValue_set, if_neg (by decide)]; exact h1.2
    have h2 := h2 (g.header.contains Hdr.replyTo)
    split at h
    · injection h with h; injection h with _ h; injection h with h _; rw [← h]; exact h2
    · injection h with h; injection h with _ h; injection h with h _; rw [← h]
      refine ⟨h2.1, ?_⟩
      show firstValue (Header.add _ _ _) _ = _
      rw [firstValue_add]
      refine (congrArg (fun x => Option.or x _) h2.2).trans ?_
      rfl

/-! ## The wires -/

theorem carries_mem {sent : List (Option Frame)} {received : List Frame} (h : Spec.Carries sent received) (hwf : ∀ f, some f ∈ sent → Spec.WellFormed f) :
    ∀ f ∈ received, some f ∈ sent := by
  obtain ⟨bytes, hb, hr⟩ := h
  intro f hf
  have hf := hr.subset hf
  have hb : bytes = (writeAll sent).take bytes.length := List.prefix_iff_eq_take.1 hb
  obtain ⟨k, hk, _⟩ := C04_stream_cut sent hwf bytes.length
  rw [hb, hk] at hf
  obtain ⟨x, hx, rfl⟩ := List.mem_filterMap.1 hf
  exact List.mem_of_mem_take hx

namespace Client

theorem frameOf_send_command {last last' : Nat} {d c b : Bytes} {o : List SendOpt} {f : Frame} (h : createSendFrame last d c b o = some (last', f)) : f.command = Cmd.send := by
  have key : ∀ {o : List SendOpt} {last : Nat} {g : Frame}, applySendOpts last g o = some (last', f) → g.command = Cmd.send → f.command = Cmd.send := by
    intro o
    induction o with
    | nil => intro last g h hg; simp only [applySendOpts, Option.some.injEq, Prod.mk.injEq] at h; rw [← h.2]; exact hg
    | cons a o ih =>
      intro last g h hg
      simp only [applySendOpts] at h
      split at h
      · cases h
      · rename_i l1 g1 h1
        refine ih h ?_
        cases a with
        | nilOpt => simp only [applySendOpt, Option.some.injEq, Prod.mk.injEq] at h1; rw [← h1.2]; exact hg
        | fail => cases h1
        | _ =>
          simp only [applySendOpt, hg, ne_eq, not_true, if_false, Option.some.injEq, Prod.mk.injEq] at h1
          rw [← h1.2]
  unfold createSendFrame at h
  refine key h ?_
  dsimp only
  split <;> rfl

/-- The call behind a SUBSCRIBE frame. -/
theorem subscribe_call {s : Sys} {c : Call} {f : Frame} (h : Spec.FrameOf s c f) (hc : f.command = Cmd.subscribe) :
    ∃ d a o, c = .subscribe d a o ∧ firstValue f.header Hdr.destination = some d := by
  cases c with
  | send d c b o =>
    obtain ⟨_, _, h⟩ := h
    rw [frameOf_send_command h] at hc; exact absurd hc (by decide)
  | frame g =>
    obtain ⟨rfl, h⟩ := h
    rw [hc] at h; exact absurd h (by decide)
  | subscribe d a o =>
    obtain ⟨_, _, _, _, h⟩ := h
    exact ⟨d, a, o, rfl, (createSubscribe_dest h).2⟩
  | unsubscribe i o =>
    obtain ⟨_, _, h⟩ := h
    rw [unsub_command h] at hc; exact absurd hc (by decide)
  | disconnect =>
    obtain ⟨_, rfl⟩ := h
    exact absurd hc (by show Cmd.disconnect ≠ Cmd.subscribe; decide)
  | mustDisconnect => exact h.elim

/-- The call behind a SEND frame. -/
theorem send_call {s : Sys} {c : Call} {f : Frame} (h : Spec.FrameOf s c f) (hs : Spec.Sound c) (hc : f.command = Cmd.send) {dest : Bytes}
    (hd : firstValue f.header Hdr.destination = some dest) {m : Frame} (hb : m.body = f.body) (hp : Stomp.Spec.plain m.header = Stomp.Spec.plain f.header) :
    Stomp.Spec.Conveys dest (Message.ofFrame m) c := by
  have hmd : (Message.ofFrame m).destination = dest := by
    show m.header.get Hdr.destination = dest
    rw [get_eq, plain_value hp (by decide), hd]; rfl
  cases c with
  | send d ct b o =>
    obtain ⟨_, _, h⟩ := h
    obtain ⟨_, h2, h3, _⟩ := createSendFrame_spec _ _ _ _ _ _ _ h hs.names (fun hm => (hs.bare hm).2)
    have : d = dest := by
      rw [show firstValue f.header Hdr.destination = some d from h3] at hd; injection hd
    subst this
    have h5 := createSend_plain h
    refine ⟨rfl, hmd, ?_, hb.trans h2, hp.trans h5⟩
    intro hct
    show m.header.get Hdr.contentType = ct
    rw [get_eq, plain_value (hp.trans h5) (by decide)]
    unfold Stomp.Spec.given
    rw [if_neg hct]
    simp only [List.cons_append, firstValue_cons]
    rw [if_neg (by decide)]
    rfl
  | frame g =>
    obtain ⟨rfl, h⟩ := h
    exact ⟨hc, hd, hmd, hb, hp⟩
  | subscribe d a o =>
    obtain ⟨_, _, _, _, h⟩ := h
    rw [(createSubscribe_dest h).1] at hc; exact absurd hc (by decide)
  | unsubscribe i o =>
    obtain ⟨_, _, h⟩ := h
    rw [unsub_command h] at hc; exact absurd hc (by decide)
  | disconnect =>
    obtain ⟨_, rfl⟩ := h
    exact absurd hc (by show Cmd.disconnect ≠ Cmd.send; decide)
  | mustDisconnect => exact h.elim

theorem wire_same {f g : Frame} (h : Spec.wire f = some g) (hc : g.command ≠ Cmd.unsubscribe) : f = g ∧ (g.command = Cmd.subscribe → g.header.contains Hdr.replyTo = none) := by
  unfold Spec.wire at h
  split at h
  · cases h
  · rename_i ht
    split at h
    · rename_i hu
      injection h with h; rw [← h] at hc; exact absurd hu hc
    · injection h with h; subst h
      refine ⟨rfl, fun hs => ?_⟩
      apply Classical.byContradiction
      intro hn; exact ht ⟨Or.inl hs, hn⟩

end Client

/-- **C57.** In every execution of the server and of clients that use the library, connected by byte streams (each side has read some of what the other has written): every message that arrives on
the channel `C` of a subscription was sent by one of the programs with `Send` (or `Send` in a transaction) to the destination given to `Subscribe`; it has the body, the content type, the
destination, and all the headers of the application that were sent, in their order (all but those named subscription, message-id, id, ack, receipt, transaction and content-length). The ids of the
receiving client must be left to the library (`Spec.Distinct`, see C17), and the arguments of the calls must be unproblematic (`Spec.Sound`, see C55). -/
theorem C57_end_to_end (cfg : Server.Config) (es : List Server.Sys.Ev) (s : Server.Sys) (h : Server.Sys.init.run cfg es = some s) (hc : s.crashed = false)
    (peers : Nat → Spec.Peer) (hp : ∀ c, c < s.conns.length → (peers c).Ok)
    (up : ∀ c, c < s.conns.length → Spec.Carries (some (peers c).hello :: Client.Spec.stream (peers c).state) (Server.Spec.receivedBy c es))
    (c : Nat) (k : Server.Conn) (hk : s.conns[c]? = some k)
    (down : Spec.Carries (k.out.map (·.frame)) ((peers c).welcome :: Spec.framesRead (peers c).state))
    (hd : Client.Spec.Distinct (peers c).state) (i : Nat) (b : Client.Sub) (hb : (peers c).state.subs[i]? = some b)
    (f : Frame) (hf : f ∈ Spec.messagesOn b) :
    ∃ dest, (∃ t r th a o, .accepted t r ∈ (peers c).state.trace ∧ r.chan = some b.chan ∧ (peers c).state.threads[t]? = some th ∧ th.call = .subscribe dest a o) ∧
      ∃ c' call, c' < s.conns.length ∧ .call call ∈ (peers c').events ∧ Spec.Conveys dest (Client.Message.ofFrame f) call := by
  have hlen := (List.getElem?_eq_some_iff.1 hk).1
  -- everything on the wires is well-formed
  have upwf : ∀ j, j < s.conns.length → ∀ g, some g ∈ some (peers j).hello :: Client.Spec.stream (peers j).state → Spec.WellFormed g := by
    intro j hj g hg
    rcases List.mem_cons.1 hg with hg | hg
    · injection hg with hg; rw [hg]; exact (hp j hj).hello.2
    · exact Client.stream_wf (hp j hj).run (hp j hj).sound g hg
  have upmem : ∀ j, ∀ g ∈ Server.Spec.receivedBy j es, j < s.conns.length → g = (peers j).hello ∨ some g ∈ Client.Spec.stream (peers j).state := by
    intro j g hg hj
    rcases List.mem_cons.1 (carries_mem (up j hj) (upwf j hj) g hg) with hg | hg
    · injection hg with hg; exact Or.inl hg
    · exact Or.inr hg
  have hin : ∀ j, j < s.conns.length → ∀ g ∈ Server.Spec.receivedBy j es, Spec.WellFormed g :=
    fun j hj g hg => upwf j hj g (carries_mem (up j hj) (upwf j hj) g hg)
  -- the message was read from the network, so the server wrote it
  obtain ⟨h1, h2, h3⟩ := Client.C23_isolation (hp c hlen).run hb
  obtain ⟨hm, t, r, key, hacc, hch, hsub, hkey, hid⟩ := h1 f hf
  have hread : f ∈ Spec.framesRead (peers c).state := h3.subset (h2.subset hf)
  obtain ⟨w, hw, hwf⟩ := List.mem_map.1 (carries_mem down (Server.out_wf h hc hin hk) f (List.mem_cons_of_mem _ hread))
  -- so it delivers a SEND frame to a subscription
  obtain ⟨p, g, q, hpm, hg, hgs, hq, hqs, hdel⟩ := Server.C44_delivered_partial cfg es s h hc c k hk w hw f hwf hm
  obtain ⟨j, hj⟩ := List.mem_iff_getElem?.1 hpm
  have hjl := (List.getElem?_eq_some_iff.1 hj).1
  have hgr : g ∈ Server.Spec.receivedBy j es := by
    rw [← Server.received_run h hc hj]; exact List.mem_append.2 (Or.inl hg)
  have hqr : q ∈ Server.Spec.receivedBy c es := by
    rw [← Server.received_run h hc hk]; exact List.mem_append.2 (Or.inl hq)
  have hgs' : some g ∈ Client.Spec.stream (peers j).state := by
    rcases upmem j g hgr hjl with h4 | h4
    · rw [h4, (hp j hjl).hello.1] at hgs; exact absurd hgs (by decide)
    · exact h4
  have hqs' : some q ∈ Client.Spec.stream (peers c).state := by
    rcases upmem c q hqr hlen with h4 | h4
    · rw [h4, (hp c hlen).hello.1] at hqs; exact absurd hqs (by decide)
    · exact h4
  obtain ⟨dest, hd1, hd2, hd3⟩ := hdel.destination
  refine ⟨dest, ?_, ?_⟩
  · -- the SUBSCRIBE is that of this subscription
    obtain ⟨t', th', r', hacc', hwire, hth', hfo, _⟩ := Client.written_call (hp c hlen).run hqs'
    obtain ⟨he, hrt⟩ := Client.wire_same hwire (by rw [hqs]; decide)
    subst he
    have hall := Client.all_run (hp c hlen).run
    have hacc := List.singleton_sublist.1 hacc
    have hin1 : (t, r) ∈ Client.acceptedIn (peers c).state.trace := List.mem_filterMap.2 ⟨_, hacc, rfl⟩
    have hin2 : (t', r') ∈ Client.acceptedIn (peers c).state.trace := List.mem_filterMap.2 ⟨_, hacc', rfl⟩
    obtain ⟨_, hbid, _⟩ := Client.chan_sub hall.origin (Client.iso_run (hp c hlen).run).all.sub hb hin1 hch
    obtain ⟨d', a, o, hcall, hdest⟩ := Client.subscribe_call hfo hqs
    have hr'ch : r'.chan ≠ none := by
      obtain ⟨th2, ht2, hro⟩ := hall.origin.acc t' r' hin2
      rw [hth'] at ht2; injection ht2 with ht2; subst ht2
      rw [hcall] at hro
      obtain ⟨n, _, _, _, _, _, h5, _⟩ := hro
      rw [h5]; simp
    have hk1 : key = b.id := by
      rcases hid with h5 | h5
      · exact h5
      · rw [hd.noReceipt t r hacc hsub] at h5; cases h5
    obtain ⟨qi, hqi, hfi⟩ := hdel.subscription
    have hqk : qi = b.id := by
      have h6 : firstValue f.header Hdr.subscription = some qi := hfi
      rw [contains_eq_firstValue] at hkey
      rw [hkey, hk1] at h6; injection h6 with h6; exact h6.symm
    have hreg : Client.Spec.Registers r'.frame b.id := by
      right
      refine ⟨hqs, ?_⟩
      rw [hrt hqs]
      have h6 : r'.frame.header.contains Hdr.id = some qi := by rw [contains_eq_firstValue]; exact hqi
      rw [h6, hqk]; rfl
    have htt : t = t' := hd.uniq t r t' r' b.id hacc hacc' (by rw [hch]; simp) hr'ch (Or.inr ⟨hsub, hbid⟩) hreg
    subst htt
    have hdd : d' = dest := by
      rw [show firstValue r'.frame.header Hdr.destination = some dest from hd3] at hdest; injection hdest with hdest; exact hdest.symm
    subst hdd
    exact ⟨t, r, th', a, o, hacc, hch, hth', hcall⟩
  · -- the SEND is that of a call
    obtain ⟨t', th', r', hacc', hwire, hth', hfo, hev⟩ := Client.written_call (hp j hjl).run hgs'
    obtain ⟨he, _⟩ := Client.wire_same hwire (by rw [hgs]; decide)
    subst he
    exact ⟨j, th'.call, hjl, hev, Client.send_call hfo ((hp j hjl).sound _ hev) hgs hd1 hdel.body (plain_application hdel.headers)⟩

/-! ## A run: a program (client 0) sends; another (client 1) subscribes and gets the message -/

namespace EndToEndEx

def hello : Frame := Server.sampleConnect
def welcome : Frame := ⟨b!"CONNECTED", [(b!"version", b!"1.1"), (b!"server", b!"stompd/x.y.z"), (b!"heart-beat", b!"0,0")], []⟩
def sendFrame : Frame := ⟨b!"SEND", [(b!"content-length", b!"2"), (b!"destination", b!"/queue/a"), (b!"content-type", b!"text/plain"), (b!"k:", b!"v\n")], [0, 10]⟩
def subFrame : Frame := ⟨b!"SUBSCRIBE", [(b!"destination", b!"/queue/a"), (b!"ack", b!"auto"), (b!"id", b!"1")], []⟩
def message : Frame :=
  ⟨b!"MESSAGE", [(b!"content-length", b!"2"), (b!"destination", b!"/queue/a"), (b!"content-type", b!"text/plain"), (b!"k:", b!"v\n"), (b!"subscription", b!"1"), (b!"message-id", b!"1"), (b!"id", b!"1")], [0, 10]⟩

def sender : List Client.Ev :=
  [.call (.send b!"/queue/a" b!"text/plain" [0, 10] [.header b!"k:" b!"v\n"]), .thread 0, .thread 0, .loopWrite true [], .loopBeat true []]
def receiver : List Client.Ev :=
  [.call (.subscribe b!"/queue/a" .auto []), .thread 0, .thread 0, .loopWrite true [], .net (some message), .loopRead [], .deliver true, .sub 0]
def server : List Server.Sys.Ev :=
  [.accept, .accept,
   .conn 1 (.recv hello), .conn 1 (.frame true true), .flush 1, .proc,
   .conn 1 (.recv subFrame), .conn 1 (.frame true true), .flush 1, .proc,
   .conn 0 (.recv hello), .conn 0 (.frame true true), .flush 0, .proc,
   .conn 0 (.recv sendFrame), .conn 0 (.frame true true), .flush 0, .proc, .push, .conn 1 (.sub true)]

def run (es : List Client.Ev) : Client.Sys := ((Client.Sys.init 0).run Client.Ex.cfg es).getD (Client.Sys.init 0)
def peers (c : Nat) : Spec.Peer :=
  if c = 0 then ⟨Client.Ex.cfg, 0, sender, run sender, hello, welcome⟩ else ⟨Client.Ex.cfg, 0, receiver, run receiver, hello, welcome⟩
def serverState : Server.Sys := (Server.Sys.init.run Server.sampleCfg server).getD Server.Sys.init
def conn1 : Server.Conn := serverState.conns[1]?.getD (.init 0)

/-- All the bytes have arrived. -/
theorem carries_all {sent : List (Option Frame)} {received : List Frame} (h : received <+: (readAll (sent.map writeFrame).flatten).1.filterMap id) : Spec.Carries sent received :=
  ⟨_, List.prefix_refl _, h⟩

theorem hello_wf : Spec.WellFormed hello := by
  have h : readFrame (writeFrame (some hello)) = .frame hello [] := by decide +kernel
  exact (C06_sound _ _ _ h).1

theorem len : serverState.conns.length = 2 := by decide +kernel

theorem ok : ∀ c, c < serverState.conns.length → (peers c).Ok := by
  intro c hc
  rw [len] at hc
  match c, hc with
  | 0, _ =>
    refine ⟨by decide +kernel, ?_, by decide +kernel, hello_wf⟩
    intro x hx
    simp only [peers, if_true, sender, List.mem_cons, Client.Ev.call.injEq, List.not_mem_nil, or_false, reduceCtorEq, or_self] at hx
    subst hx
    refine ⟨?_, by decide, by simp⟩
    intro k v hv
    simp only [List.mem_cons, List.not_mem_nil, or_false, Client.SendOpt.header.injEq] at hv
    rw [hv.1]; decide
  | 1, _ =>
    refine ⟨by decide +kernel, ?_, by decide +kernel, hello_wf⟩
    intro x hx
    simp only [peers, Nat.one_ne_zero, if_false, receiver, List.mem_cons, Client.Ev.call.injEq, List.not_mem_nil, or_false, reduceCtorEq, or_self] at hx
    subst hx
    intro k v hv
    simp at hv

theorem upward : ∀ c, c < serverState.conns.length → Spec.Carries (some (peers c).hello :: Client.Spec.stream (peers c).state) (Server.Spec.receivedBy c server) := by
  intro c hc
  rw [len] at hc
  match c, hc with
  | 0, _ => exact carries_all (by decide +kernel)
  | 1, _ => exact carries_all (by decide +kernel)

theorem downward : Spec.Carries (conn1.out.map (·.frame)) ((peers 1).welcome :: Spec.framesRead (peers 1).state) := carries_all (by decide +kernel)

end EndToEndEx

open EndToEndEx in
example : Server.Sys.init.run Server.sampleCfg server = some serverState ∧ serverState.crashed = false ∧ serverState.conns[1]? = some conn1 ∧
    (∀ c, c < serverState.conns.length → (peers c).Ok) ∧
    (∀ c, c < serverState.conns.length → Spec.Carries (some (peers c).hello :: Client.Spec.stream (peers c).state) (Server.Spec.receivedBy c server)) ∧
    Spec.Carries (conn1.out.map (·.frame)) ((peers 1).welcome :: Spec.framesRead (peers 1).state) ∧
    Client.Spec.Distinct (peers 1).state ∧ ∃ b, (peers 1).state.subs[0]? = some b ∧ Spec.messagesOn b = [message] :=
  ⟨by decide +kernel, by decide +kernel, by decide +kernel, ok, upward, downward, Client.distinct_of (by decide +kernel),
    (peers 1).state.subs[0]?.getD (.new [] false 0), by decide +kernel, by decide +kernel⟩

end Stomp
