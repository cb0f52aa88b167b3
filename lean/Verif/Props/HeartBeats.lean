import Verif.Spec.HeartBeats
import Verif.Props.Interop
import Verif.Props.Client.Timer
import Verif.Props.Server.Timer
/-! # C61: heart-beats between the library's client and the library's server -/
namespace Stomp

theorem resolveHost_times (o : Client.Options) (remote : Option Bytes) :
    (Client.resolveHost o remote).readTimeout = o.readTimeout ∧ (Client.resolveHost o remote).heartBeatError = o.heartBeatError := by
  unfold Client.resolveHost
  split
  · cases remote <;> simp only <;> split <;> exact ⟨rfl, rfl⟩
  · exact ⟨rfl, rfl⟩

/-- What `Connect` makes of a CONNECTED frame it accepts. -/
theorem handleResponse_times {o : Client.Options} {v : Bytes} {rx ry : Nat} {rest : Bytes} {info : Client.ConnInfo}
    (h : Client.handleResponse o (.frame (Server.connectedFrame v rx ry) rest) = .ok info) (h0 : 0 ≤ o.heartBeatError) (h1 : o.heartBeatError < 2 ^ 63) (h2 : o.readTimeout < 2 ^ 63) :
    (0 < info.readTimeout → 0 < ry → (ry : Int) * 1000000 + o.heartBeatError ≤ info.readTimeout) ∧
    (0 < rx → 0 < info.writeTimeout ∧ info.writeTimeout ≤ (rx : Int) * 1000000) := by
  unfold Client.handleResponse at h
  simp only at h
  split at h
  · cases h
  · split at h
    · cases h
    · split at h
      · cases h
      · rename_i r w hn
        injection h with h
        subst h
        show (0 < r → 0 < ry → (ry : Int) * 1000000 + o.heartBeatError ≤ r) ∧ (0 < rx → 0 < w ∧ w ≤ (rx : Int) * 1000000)
        unfold Client.negotiate at hn
        rw [contains_eq] at hn
        have hc : Spec.firstValue (Server.connectedFrame v rx ry).header Hdr.heartBeat = some (fmtUint ry ++ b!"," ++ fmtUint rx) := connected_firstValue_hb v rx ry
        rw [hc] at hn
        simp only at hn
        split at hn
        · cases hn
        · rename_i rt wt hp
          obtain ⟨p, q, n, m, e1, e2, e3, e4, e5, e6, e7⟩ := (C10_parse _ _ _).1 hp
          have n1 := fmtUint_numeral ry
          have n2 := fmtUint_numeral rx
          obtain ⟨e8, e9⟩ := Server.comma_unique (fun x hx => (n1.2.1 x hx).1) (fun x hx => (e2.2.1 x hx).1) e1
          have hn' : n = ry := by rw [← e2.2.2, ← e8]; exact n1.2.2
          have hm' : m = rx := by rw [← e3.2.2, ← e9]; exact n2.2.2
          subst hn' hm'
          simp only [Option.some.injEq, Prod.mk.injEq] at hn
          obtain ⟨hr, hw⟩ := hn
          unfold wrap64 at hr hw
          constructor
          · intro h3 h4
            split at hr <;> split at hr <;> omega
          · intro h3
            split at hw <;> omega

/-- The durations of the client's timers, and what the server has announced. -/
theorem joined_times {cfg : Server.Config} {me : Nat} {es : List Server.TConn.Ev} {y : Server.TConn} (hy : (Server.TConn.init me).run cfg es = some y) (he : Server.TEnvOk es)
    {opts : List Client.ConnOpt} {remote : Option Bytes} {o : Client.Options} {c : Client.TCfg} (hj : Spec.Joined opts remote c y) (ho : Client.newConnOptions opts = some o)
    (h0 : 0 ≤ o.heartBeatError) (h1 : o.heartBeatError < 2 ^ 63) (h2 : o.readTimeout < 2 ^ 63) {a b : Nat} (ha : Server.Spec.Announced y.conn a b) :
    (c.sys.readTimeout = true → 0 < a → Server.Spec.ms a + o.heartBeatError.toNat ≤ c.read) ∧
    (0 < b → c.sys.writeTimeout = true ∧ c.write ≤ Server.Spec.ms b) := by
  have ht := Server.told_run he hy
  obtain ⟨_, e1, f, rest, cx, cy, e2, e3, e4, _⟩ := Server.announced_eq ht ha
  obtain ⟨w, hw, g, hg, hgc, rest', info, hi, h3, h4, h5, h6⟩ := hj
  obtain ⟨_, f', rest'', v, cx', cy', e5, e6, e7, _⟩ := ht w hw (by unfold Server.isConnected; rw [hg]; exact decide_eq_true hgc)
  rw [e2] at e5
  injection e5 with e5 _
  subst e5
  rw [e3] at e6
  injection e6 with e6
  injection e6 with e6 e6'
  subst e6
  rw [hg] at e7
  injection e7 with e7
  subst e7
  rw [← e4, ← e1] at hi
  have hread := readFrame_writeFrame (Server.connectedFrame v b a) rest' (connectedFrame_wf v b a)
  unfold Client.connect at hi
  rw [ho] at hi
  simp only [hread, Bool.not_true, Bool.false_eq_true, if_false] at hi
  have hro := resolveHost_times o remote
  have := handleResponse_times hi (by rw [hro.2]; exact h0) (by rw [hro.2]; exact h1) (by rw [hro.1]; exact h2)
  rw [hro.2] at this
  constructor
  · intro h7 h8
    rw [h3] at h7
    have := this.1 (of_decide_eq_true h7) h8
    unfold Server.Spec.ms
    omega
  · intro h7
    have := this.2 h7
    rw [h5, h6]
    unfold Server.Spec.ms
    exact ⟨decide_eq_true this.1, by omega⟩

theorem timeout_armed {c : Client.TCfg} {n : Nat} {es : List Client.TEv} {x x' : Client.TSys} {l : List Nat} (h : (Client.TSys.init c n).run c es = some x)
    (h' : x.step c (.step (.loopTimeout l)) = some x') : c.sys.readTimeout = true := by
  have hi : Client.ArmInv c x := Client.trun_induct (fun _ _ _ => Client.armInv_step) es
    (Client.armInv_arm ⟨fun h => absurd rfl h, fun h => absurd rfl h⟩) h
  apply hi.1
  intro hn
  simp [Client.TSys.step, Client.TSys.timers, hn, Client.fired] at h'

/-- **C61**, the client (partial: false as worded, see `C61_false`). A client and a server of this library have agreed on heart-beats every `a` milliseconds from the server, and the client's `processLoop` declares a read timeout. Let `y` be
the server's connection `δ` and a bit earlier, where `δ` bounds the time until what the server writes is read by the client. If the connection was up, then within `a` milliseconds (and the time the server's loop was late since) before that moment the
server took a message whose subscription had ended; or the server's loop was late by `HeartBeatError` less `δ`; or the client's loop has been late since something arrived less than the read timeout ago. -/
theorem C61_client_partial {cfg : Server.Config} {me : Nat} {ys : List Server.TConn.Ev} {y : Server.TConn} (hy : (Server.TConn.init me).run cfg ys = some y) (hye : Server.TEnvOk ys)
    {c : Client.TCfg} {n : Nat} {xs : List Client.TEv} {x x' : Client.TSys} {ls : List Nat} (hx : (Client.TSys.init c n).run c xs = some x) (hx' : x.step c (.step (.loopTimeout ls)) = some x')
    {opts : List Client.ConnOpt} {remote : Option Bytes} {o : Client.Options} (hj : Spec.Joined opts remote c y) (ho : Client.newConnOptions opts = some o)
    (h0 : 0 ≤ o.heartBeatError) (h1 : o.heartBeatError < 2 ^ 63) (h2 : o.readTimeout < 2 ^ 63)
    {a b : Nat} (ha : Server.Spec.Announced y.conn a b) (hpos : 0 < a) (hu : Server.Spec.Up y.conn)
    {start δ : Nat} (hd : Spec.ToClient start δ y x) (hnow : y.now + δ + 1 = start + x.now) :
    (∃ t l, (t, l, Server.TObs.gone) ∈ y.log ∧ y.now ≤ t + Server.Spec.ms a + (y.late - l)) ∨
    (∃ t l w, (t, l, Server.TObs.wrote w) ∈ y.log ∧ o.heartBeatError.toNat ≤ δ + 1 + (y.late - l)) ∨
    (∃ t l f, (t, l, Client.Obs.read f) ∈ x.log ∧ x.now < t + c.read ∧ l < x.late) := by
  obtain ⟨t, l, ob, hm, hob, h3, h4, h5⟩ := Server.C58_transmits_partial hy hye ha hpos hu
  have hr := (joined_times hy hye hj ho h0 h1 h2 ha).1 (timeout_armed hx hx') hpos
  rcases hob with rfl | ⟨w, rfl⟩
  · exact Or.inl ⟨t, l, hm, h5⟩
  · right
    have hrd := Client.C29_read hx hx'
    by_cases hs : start < t
    · obtain ⟨t', l', f, h6, h7, h8⟩ := hd t l w hm hs (by omega)
      rcases Client.C29_received hx hx' t' l' f h6 with h9 | h9 | h9
      · exact Or.inl ⟨t, l, w, hm, by omega⟩
      · omega
      · by_cases h10 : x.now < t' + c.read
        · exact Or.inr ⟨t', l', f, h6, h10, h9⟩
        · exact Or.inl ⟨t, l, w, hm, by omega⟩
    · exact Or.inl ⟨t, l, w, hm, by omega⟩

/-- **C61**, the server (partial). A client and a server of this library have agreed on heart-beats every `b` milliseconds from the client, and the server's `readLoop` gives the client up. Let `x` be the client `δ` and a bit earlier, where `δ`
bounds the time until what the client sends is read by the server, and let the CONNECT frame have been read at most `ρ` before the client's goroutines started. If the client had not begun to report the end of the connection and had taken no
request for a temporary queue, its loop was late by `b` milliseconds less `δ` and `ρ` since its last transmission. -/
theorem C61_server_partial {cfg : Server.Config} {me : Nat} {ys : List Server.TConn.Ev} {y y' : Server.TConn} (hy : (Server.TConn.init me).run cfg ys = some y) (hye : Server.TEnvOk ys)
    (hy' : y.step cfg .expire = some y') {c : Client.TCfg} {n : Nat} {xs : List Client.TEv} {x : Client.TSys} (hx : (Client.TSys.init c n).run c xs = some x)
    {opts : List Client.ConnOpt} {remote : Option Bytes} {o : Client.Options} (hj : Spec.Joined opts remote c y) (ho : Client.newConnOptions opts = some o)
    (h0 : 0 ≤ o.heartBeatError) (h1 : o.heartBeatError < 2 ^ 63) (h2 : o.readTimeout < 2 ^ 63) {a b : Nat} (ha : Server.Spec.Announced y.conn a b)
    (hend : ¬ Client.Spec.Ending x.sys) (htemp : ∀ r, Client.Obs.taken r ∈ x.sys.trace → ¬ Client.Spec.TempQueue r.frame)
    {start δ ρ : Nat} (hd : Spec.ToServer start δ x y) (hg : Spec.Greeted start ρ y) (hnow : start + x.now + δ + 1 = y.now) :
    ∃ t l, Client.Spec.Transmission x t l ∧ Server.Spec.ms b ≤ δ + 1 + ρ + (x.late - l) := by
  obtain ⟨hb, hgive⟩ := Server.C58_gives_up hy hye ha hy'
  obtain ⟨hc, hw⟩ := (joined_times hy hye hj ho h0 h1 h2 ha).2 hb
  obtain ⟨t, l, ht, h3, h4, h5⟩ := Client.C29_write_partial hx hc hend htemp
  refine ⟨t, l, ht, ?_⟩
  rcases ht with ⟨rfl, rfl⟩ | ⟨ob, hm, hs⟩
  · obtain ⟨t', l', f, h6, h7⟩ := hg
    have := hgive t' l' _ h6 trivial
    omega
  · obtain ⟨t', l', f, h6, h7, h8⟩ := hd t l ob hm hs (by omega)
    have := hgive t' l' _ h6 trivial
    omega

/-- **C61**, both (partial): if neither loop has ever been late, the transmission takes less than the error margin of the client (`HeartBeatError`, by default 5 s) and less than the interval of the server, no message came for a subscription that had ended, and the client has taken no
request for a temporary queue, then the client does not time the server out … -/
theorem C61_client_quiet_partial {cfg : Server.Config} {me : Nat} {ys : List Server.TConn.Ev} {y : Server.TConn} (hy : (Server.TConn.init me).run cfg ys = some y) (hye : Server.TEnvOk ys)
    {c : Client.TCfg} {n : Nat} {xs : List Client.TEv} {x : Client.TSys} (hx : (Client.TSys.init c n).run c xs = some x)
    {opts : List Client.ConnOpt} {remote : Option Bytes} {o : Client.Options} (hj : Spec.Joined opts remote c y) (ho : Client.newConnOptions opts = some o)
    (h1 : o.heartBeatError < 2 ^ 63) (h2 : o.readTimeout < 2 ^ 63)
    {a b : Nat} (ha : Server.Spec.Announced y.conn a b) (hpos : 0 < a) (hu : Server.Spec.Up y.conn)
    {start δ : Nat} (hd : Spec.ToClient start δ y x) (hnow : y.now + δ + 1 = start + x.now)
    (hlx : x.late = 0) (hly : y.late = 0) (hδ : (δ : Int) + 1 < o.heartBeatError) (hgone : ∀ t l, (t, l, Server.TObs.gone) ∉ y.log) (ls : List Nat) :
    x.step c (.step (.loopTimeout ls)) = none := by
  cases hx' : x.step c (.step (.loopTimeout ls)) with
  | none => rfl
  | some x' =>
    rcases C61_client_partial hy hye hx hx' hj ho (by omega) h1 h2 ha hpos hu hd hnow with ⟨t, l, h, _⟩ | ⟨t, l, w, _, h⟩ | ⟨t, l, f, _, _, h⟩
    · exact absurd h (hgone t l)
    · omega
    · omega

/-- … and the server does not give the client up. -/
theorem C61_server_quiet_partial {cfg : Server.Config} {me : Nat} {ys : List Server.TConn.Ev} {y : Server.TConn} (hy : (Server.TConn.init me).run cfg ys = some y) (hye : Server.TEnvOk ys)
    {c : Client.TCfg} {n : Nat} {xs : List Client.TEv} {x : Client.TSys} (hx : (Client.TSys.init c n).run c xs = some x)
    {opts : List Client.ConnOpt} {remote : Option Bytes} {o : Client.Options} (hj : Spec.Joined opts remote c y) (ho : Client.newConnOptions opts = some o)
    (h0 : 0 ≤ o.heartBeatError) (h1 : o.heartBeatError < 2 ^ 63) (h2 : o.readTimeout < 2 ^ 63) {a b : Nat} (ha : Server.Spec.Announced y.conn a b)
    (hend : ¬ Client.Spec.Ending x.sys) (htemp : ∀ r, Client.Obs.taken r ∈ x.sys.trace → ¬ Client.Spec.TempQueue r.frame)
    {start δ ρ : Nat} (hd : Spec.ToServer start δ x y) (hg : Spec.Greeted start ρ y) (hnow : start + x.now + δ + 1 = y.now)
    (hlx : x.late = 0) (hδ : δ + 1 + ρ < Server.Spec.ms b) :
    y.step cfg .expire = none := by
  cases hy' : y.step cfg .expire with
  | none => rfl
  | some y' =>
    obtain ⟨t, l, _, h⟩ := C61_server_partial hy hye hy' hx hj ho h0 h1 h2 ha hend htemp hd hg hnow
    omega

/-! ## The claim is false as worded -/

namespace BeatEx

def second : Nat := 1000000000

/-- `Connect` with `ConnOpt.Login` and otherwise the defaults: heart-beats every minute in both directions. -/
def opts : List Client.ConnOpt := [.login b!"u" b!"p"]
def hello : Frame := (Client.connect opts none true []).1.getD default

/-- The client's timers: 65 s for reading, 55 s for writing. -/
def c : Client.TCfg := { sys := { Client.Ex.cfgPlain with readTimeout := true, writeTimeout := true }, read := 65 * second, write := 55 * second }

/-- A call whose request is sent at once. -/
def call (t : Nat) (k : Client.Call) (n : Nat) : List Client.TEv := [.step (.call k)] ++ List.replicate n (.step (.thread t)) ++ [.step (.loopWrite true [])]

/-- A heart-beat of the server arrives. -/
def beat : List Client.TEv := [.step (.net none), .step (.loopRead [])]

/-- After 59 seconds, `Send`, `Subscribe` and `Unsubscribe`. -/
def goneClient : List Client.TEv :=
  [.delay (55 * second), .step (.loopBeat true []), .delay (4 * second)] ++ call 0 (.send b!"/queue/a" [] b!"x" []) 2 ++ call 1 (.subscribe b!"/queue/a" .auto []) 2 ++
  call 2 (.unsubscribe 0 []) 3 ++ [.delay (6 * second)]
def goneClientEnd : Client.TSys := ((Client.TSys.init c 0).run c goneClient).getD (.init c 0)

def send : Frame := ⟨b!"SEND", [(b!"content-length", b!"1"), (b!"destination", b!"/queue/a")], b!"x"⟩
def subscribe : Frame := ⟨b!"SUBSCRIBE", [(b!"destination", b!"/queue/a"), (b!"ack", b!"auto"), (b!"id", b!"1")], []⟩
def unsubscribe : Frame := ⟨b!"UNSUBSCRIBE", [(b!"id", b!"1"), (b!"receipt", b!"1")], []⟩
def message : Server.Msg := ⟨⟨0, 0⟩, ⟨b!"MESSAGE", [(b!"content-length", b!"1"), (b!"destination", b!"/queue/a"), (b!"subscription", b!"1")], b!"x"⟩⟩

/-- The server: the message is in `subChannel` when UNSUBSCRIBE is handled. -/
def goneServer : List Server.TConn.Ev :=
  Server.TimerEx.connFrame hello ++ [.delay (55 * second), .item none, .delay (4 * second)] ++ Server.TimerEx.connFrame send ++ Server.TimerEx.connFrame subscribe ++ [.step (.setFrame 0 message), .step (.pushSub 0)] ++
  Server.TimerEx.connFrame unsubscribe ++ [.step (.sub true), .step .flushed, .delay (6 * second)]
def goneServerEnd : Server.TConn := ((Server.TConn.init 0).run Server.sampleCfg goneServer).getD (.init 0)
def goneSys : List Server.Sys.Ev :=
  [.accept] ++ Server.TimerEx.sysFrame hello ++ Server.TimerEx.sysFrame send ++ Server.TimerEx.sysFrame subscribe ++ [.push] ++ Server.TimerEx.sysFrame unsubscribe ++ [.conn 0 (.sub true), .flush 0, .proc]
def goneSysEnd : Server.Sys := (Server.Sys.init.run Server.sampleCfg goneSys).getD Server.Sys.init

/-- `Subscribe` with a reply-to header after 54 and 108 seconds; a heart-beat of the server after 60, and again after 120. -/
def replyTo (t : Nat) : List Client.TEv := call t (.subscribe b!"/queue/a" .auto [.header b!"reply-to" b!"/temp-queue/x"]) 2
def mute : List Client.TEv := [.delay (54 * second)] ++ replyTo 0 ++ [.delay (6 * second)] ++ beat ++ [.delay (48 * second)] ++ replyTo 1 ++ [.delay (12 * second)] ++ beat
def muteEnd : Client.TSys := ((Client.TSys.init c 0).run c mute).getD (.init c 0)

/-- The server meanwhile: two heart-beats. -/
def muteServer : List Server.TConn.Ev :=
  Server.TimerEx.connFrame hello ++ [.delay (60 * second), .step (.timer true), .delay (60 * second), .step (.timer true)]
def muteServerEnd : Server.TConn := ((Server.TConn.init 0).run Server.sampleCfg muteServer).getD (.init 0)

/-- What `Connect` makes of the answer. -/
theorem joined {y : Server.TConn} (h : y.conn.out.head? = some ⟨some (Server.connectedFrame b!"1.2" 60000 60000), none⟩) : Spec.Joined opts none c y := by
  cases ho : y.conn.out with
  | nil => rw [ho] at h; cases h
  | cons w l =>
    rw [ho] at h
    injection h with h
    exact ⟨w, by rw [ho]; exact List.mem_cons_self, Server.connectedFrame b!"1.2" 60000 60000, by rw [h], rfl, [],
      _, by rfl, by decide +kernel, by decide +kernel, by decide +kernel, by decide +kernel⟩

/-- `ToClient`, computed. -/
def toClient (start δ : Nat) (y : Server.TConn) (x : Client.TSys) : Bool :=
  y.log.all fun (t, _, o) => match o with
    | .wrote _ => !decide (start < t ∧ t + δ < start + x.now) || x.log.any fun (t', _, o) => match o with
      | .read _ => decide (t ≤ start + t' ∧ start + t' ≤ t + δ)
      | _ => false
    | _ => true

theorem toClient_iff {start δ : Nat} {y : Server.TConn} {x : Client.TSys} (h : toClient start δ y x = true) : Spec.ToClient start δ y x := by
  intro t l w hm h1 h2
  have := List.all_eq_true.1 h _ hm
  simp only [h1, h2, and_self, decide_true, Bool.not_true, Bool.false_or] at this
  obtain ⟨⟨t', l', o⟩, h3, h4⟩ := List.any_eq_true.1 this
  cases o with
  | read f => exact ⟨t', l', f, h3, of_decide_eq_true h4⟩
  | _ => cases h4

/-- `ToServer`, computed. -/
def toServer (start δ : Nat) (x : Client.TSys) (y : Server.TConn) : Bool :=
  x.log.all fun (t, _, o) => !(o.sends && decide (start + t + δ < y.now)) || y.log.any fun (t', _, o) => match o with
    | .item _ => decide (start + t ≤ t' ∧ t' ≤ start + t + δ)
    | _ => false

theorem toServer_iff {start δ : Nat} {x : Client.TSys} {y : Server.TConn} (h : toServer start δ x y = true) : Spec.ToServer start δ x y := by
  intro t l o hm h1 h2
  have := List.all_eq_true.1 h _ hm
  simp only [Client.transmits_iff.1 h1, h2, decide_true, Bool.and_self, Bool.not_true, Bool.false_or] at this
  obtain ⟨⟨t', l', o⟩, h3, h4⟩ := List.any_eq_true.1 this
  cases o with
  | item f => exact ⟨t', l', f, h3, of_decide_eq_true h4⟩
  | _ => cases h4

theorem goneClient_run : (Client.TSys.init c 0).run c goneClient = some goneClientEnd := by
  have h : ((Client.TSys.init c 0).run c goneClient).isSome = true := by decide +kernel
  obtain ⟨x, hx⟩ := Option.isSome_iff_exists.1 h
  simp only [goneClientEnd, hx, Option.getD_some]

theorem goneServer_run : (Server.TConn.init 0).run Server.sampleCfg goneServer = some goneServerEnd := by decide +kernel

theorem mute_run : (Client.TSys.init c 0).run c mute = some muteEnd := by
  have h : ((Client.TSys.init c 0).run c mute).isSome = true := by decide +kernel
  obtain ⟨x, hx⟩ := Option.isSome_iff_exists.1 h
  simp only [muteEnd, hx, Option.getD_some]

theorem muteServer_run : (Server.TConn.init 0).run Server.sampleCfg muteServer = some muteServerEnd := by decide +kernel

/-- The frames a client has sent. -/
def sent (x : Client.TSys) : List Frame := x.sys.trace.filterMap fun | .sent f => some f | _ => none

/-- What `readLoop` has read from the network. -/
def read (x : Client.TSys) : List (Option Frame) := x.sys.trace.filterMap fun | .read f => some f | _ => none

end BeatEx

open BeatEx in
/-- **C61** is false as worded. Client and server have agreed on heart-beats every minute, both loops are never late, and transmission takes no time. After 59 seconds the client sends a message, subscribes and unsubscribes. The server takes the
message for the subscription that has ended, which stops its timer, and after 65 seconds without anything from the server the client declares a read timeout. The frames the server has handled are those the client has sent, and the connection is that of an execution of the whole server. -/
theorem C61_false : ∃ xs x x' ys y ls, (Client.TSys.init c 0).run c xs = some x ∧ x.step c (.step (.loopTimeout ls)) = some x' ∧ (Server.TConn.init 0).run Server.sampleCfg ys = some y ∧ Server.TEnvOk ys ∧
    Spec.Joined opts none c y ∧ Server.Spec.Announced y.conn 60000 60000 ∧ Server.Spec.Up y.conn ∧ Spec.ToClient 0 0 y x ∧ Spec.ToServer 0 0 x y ∧ Spec.Greeted 0 0 y ∧ y.now = x.now ∧ x.now = 65 * second ∧
    x.late = 0 ∧ y.late = 0 ∧ y.conn.hist = hello :: sent x ∧ y.conn.out.map (·.frame) = some (Server.connectedFrame b!"1.2" 60000 60000) :: read x ∧
    ∃ ses s, Server.Sys.init.run Server.sampleCfg ses = some s ∧ s.conns[0]? = some y.conn := by
  have h1 : ∃ x', goneClientEnd.step c (.step (.loopTimeout [0])) = some x' := by
    have h : (goneClientEnd.step c (.step (.loopTimeout [0]))).isSome = true := by decide +kernel
    exact Option.isSome_iff_exists.1 h
  obtain ⟨x', h1⟩ := h1
  exact ⟨goneClient, goneClientEnd, x', goneServer, goneServerEnd, [0], goneClient_run, h1, goneServer_run, Server.TimerEx.env (by decide +kernel), joined (by decide +kernel),
    Server.TimerEx.announced (by decide +kernel), Server.TimerEx.up (by decide +kernel), toClient_iff (by decide +kernel), toServer_iff (by decide +kernel), ⟨0, 0, hello, by decide +kernel, by decide +kernel⟩,
    by decide +kernel, by decide +kernel, by decide +kernel, by decide +kernel, by decide +kernel, by decide +kernel, goneSys, goneSysEnd, by decide +kernel, by decide +kernel⟩

open BeatEx in
/-- **C61** is false as worded in the other direction too. The client calls `Subscribe` with a reply-to header every 54 seconds, which stops its write timer, and nothing is sent; after two minutes the server gives the client up. -/
theorem C61_server_false : ∃ xs x ys y y', (Client.TSys.init c 0).run c xs = some x ∧ (Server.TConn.init 0).run Server.sampleCfg ys = some y ∧ Server.TEnvOk ys ∧ y.step Server.sampleCfg .expire = some y' ∧
    Spec.Joined opts none c y ∧ Server.Spec.Announced y.conn 60000 60000 ∧ Server.Spec.Up y.conn ∧ ¬ Client.Spec.Ending x.sys ∧ Spec.ToClient 0 0 y x ∧ Spec.ToServer 0 0 x y ∧ Spec.Greeted 0 0 y ∧ y.now = x.now ∧
    x.now = 120 * second ∧ x.late = 0 ∧ y.late = 0 ∧ y.conn.hist = hello :: sent x ∧ y.conn.out.map (·.frame) = some (Server.connectedFrame b!"1.2" 60000 60000) :: read x := by
  refine ⟨mute, muteEnd, muteServer, muteServerEnd, (muteServerEnd.step Server.sampleCfg .expire).getD muteServerEnd, mute_run, muteServer_run, Server.TimerEx.env (by decide +kernel), by decide +kernel, joined (by decide +kernel),
    Server.TimerEx.announced (by decide +kernel), Server.TimerEx.up (by decide +kernel), ?_, toClient_iff (by decide +kernel), toServer_iff (by decide +kernel), ⟨0, 0, hello, by decide +kernel, by decide +kernel⟩,
    by decide +kernel, by decide +kernel, by decide +kernel, by decide +kernel, by decide +kernel, by decide +kernel⟩
  rw [Client.ending_iff]
  decide +kernel

/-! ## The theorems say something -/

namespace BeatEx

/-- A minute and a half: transmission takes a second; the server sends a heart-beat after 60 seconds, the client one after 55. -/
def calm : List Client.TEv := [.delay (55 * second), .step (.loopBeat true []), .delay (5 * second), .delay (1 * second)] ++ beat ++ [.delay (29 * second)]
def calmEnd : Client.TSys := ((Client.TSys.init c 0).run c calm).getD (.init c 0)
/-- The server until just before `calmEnd`, less the transmission time … -/
def calmServer : List Server.TConn.Ev :=
  Server.TimerEx.connFrame hello ++ [.delay (56 * second), .item none, .delay (4 * second), .step (.timer true), .delay (29 * second - 1)]
def calmServerEnd : Server.TConn := ((Server.TConn.init 0).run Server.sampleCfg calmServer).getD (.init 0)
/-- … and beyond. -/
def calmServer' : List Server.TConn.Ev :=
  Server.TimerEx.connFrame hello ++ [.delay (56 * second), .item none, .delay (4 * second), .step (.timer true), .delay (31 * second + 1)]
def calmServerEnd' : Server.TConn := ((Server.TConn.init 0).run Server.sampleCfg calmServer').getD (.init 0)

theorem calm_run : (Client.TSys.init c 0).run c calm = some calmEnd := by
  have h : ((Client.TSys.init c 0).run c calm).isSome = true := by decide +kernel
  obtain ⟨x, hx⟩ := Option.isSome_iff_exists.1 h
  simp only [calmEnd, hx, Option.getD_some]

/-- The options of these executions: the margin is 5 seconds. -/
theorem options : ∃ o, Client.newConnOptions opts = some o ∧ o.heartBeatError = 5 * second ∧ o.readTimeout = 60 * second := ⟨_, rfl, by decide +kernel, by decide +kernel⟩

example (ls : List Nat) : calmEnd.step c (.step (.loopTimeout ls)) = none := by
  obtain ⟨o, ho, h1, h2⟩ := options
  have hg : calmServerEnd.log.all (fun e => decide (e.2.2 ≠ .gone)) = true := by decide +kernel
  exact C61_client_quiet_partial (cfg := Server.sampleCfg) (me := 0) (ys := calmServer) (y := calmServerEnd) (a := 60000) (b := 60000) (start := 0) (δ := second) (by decide +kernel) (Server.TimerEx.env (by decide +kernel)) calm_run (joined (by decide +kernel)) ho
    (by rw [h1]; decide) (by rw [h2]; decide) (Server.TimerEx.announced (by decide +kernel)) (by decide) (Server.TimerEx.up (by decide +kernel)) (toClient_iff (by decide +kernel)) (by decide +kernel) (by decide +kernel) (by decide +kernel)
    (by rw [h1]; decide) (fun t l h => absurd rfl (of_decide_eq_true (p := Server.TObs.gone ≠ Server.TObs.gone) (List.all_eq_true.1 hg _ h))) ls

example : calmServerEnd'.step Server.sampleCfg .expire = none := by
  obtain ⟨o, ho, h1, h2⟩ := options
  have ht : calmEnd.sys.trace.all (fun | .taken _ => false | _ => true) = true := by decide +kernel
  refine C61_server_quiet_partial (cfg := Server.sampleCfg) (me := 0) (ys := calmServer') (y := calmServerEnd') (a := 60000) (b := 60000) (start := 0) (δ := second) (ρ := 0) (by decide +kernel) (Server.TimerEx.env (by decide +kernel)) calm_run (joined (by decide +kernel)) ho
    (by rw [h1]; decide) (by rw [h1]; decide) (by rw [h2]; decide) (Server.TimerEx.announced (by decide +kernel)) ?_ ?_ (toServer_iff (by decide +kernel)) ⟨0, 0, hello, by decide +kernel, by decide +kernel⟩
    (by decide +kernel) (by decide +kernel) (by decide)
  · rw [Client.ending_iff]; decide +kernel
  · intro r hr
    exact absurd (List.all_eq_true.1 ht _ hr) Bool.false_ne_true

/-- In `calmEnd` there was a heart-beat in each direction. -/
example : read calmEnd = [none] ∧ Client.Ex.sentAt calmEnd = [55 * second] ∧ calmEnd.now = 90 * second ∧ calmServerEnd'.now = 91 * second + 1 := by
  refine ⟨by decide +kernel, by decide +kernel, by decide +kernel, by decide +kernel⟩

/-- The server is taken at its word: this one is late, and sends the heart-beat that was due after 60 seconds only after 67. The client declares a read timeout, and the conclusion of `C61_client_partial` holds because of the second case. -/
def lateClient : List Client.TEv := [.delay (55 * second), .step (.loopBeat true []), .delay (10 * second)]
def lateClientEnd : Client.TSys := ((Client.TSys.init c 0).run c lateClient).getD (.init c 0)
def lateServer : List Server.TConn.Ev := Server.TimerEx.connFrame hello ++ [.delay (55 * second), .item none, .delay (10 * second - 1)]
def lateServerEnd : Server.TConn := ((Server.TConn.init 0).run Server.sampleCfg lateServer).getD (.init 0)

example : ∃ t l w, (t, l, Server.TObs.wrote w) ∈ lateServerEnd.log ∧ 5 * second ≤ 0 + 1 + (lateServerEnd.late - l) := by
  obtain ⟨o, ho, h1, h2⟩ := options
  have hx : (Client.TSys.init c 0).run c lateClient = some lateClientEnd := by
    have h : ((Client.TSys.init c 0).run c lateClient).isSome = true := by decide +kernel
    obtain ⟨x, hx⟩ := Option.isSome_iff_exists.1 h
    simp only [lateClientEnd, hx, Option.getD_some]
  have hx' : ∃ x', lateClientEnd.step c (.step (.loopTimeout [])) = some x' := by
    have h : (lateClientEnd.step c (.step (.loopTimeout []))).isSome = true := by decide +kernel
    exact Option.isSome_iff_exists.1 h
  obtain ⟨x', hx'⟩ := hx'
  have hg : lateServerEnd.log.all (fun e => decide (e.2.2 ≠ .gone)) = true := by decide +kernel
  have hl : lateClientEnd.late = 0 := by decide +kernel
  rcases C61_client_partial (cfg := Server.sampleCfg) (me := 0) (ys := lateServer) (y := lateServerEnd) (a := 60000) (b := 60000) (start := 0) (δ := 0) (by decide +kernel) (Server.TimerEx.env (by decide +kernel)) hx hx' (joined (by decide +kernel)) ho
    (by rw [h1]; decide) (by rw [h1]; decide) (by rw [h2]; decide) (Server.TimerEx.announced (by decide +kernel)) (by decide) (Server.TimerEx.up (by decide +kernel)) (toClient_iff (by decide +kernel)) (by decide +kernel)
    with ⟨t, l, h, _⟩ | ⟨t, l, w, h3, h4⟩ | ⟨t, l, f, _, _, h⟩
  · exact absurd rfl (of_decide_eq_true (p := Server.TObs.gone ≠ Server.TObs.gone) (List.all_eq_true.1 hg _ h))
  · rw [h1] at h4; exact ⟨t, l, w, h3, h4⟩
  · rw [hl] at h; cases h

/-- A client that does nothing for two minutes (its beat is due after 55 seconds) is given up, and the conclusion of `C61_server_partial` holds. -/
def deadClient : List Client.TEv := [.delay (120 * second - 1)]
def deadClientEnd : Client.TSys := ((Client.TSys.init c 0).run c deadClient).getD (.init c 0)

example : ∃ t l, Client.Spec.Transmission deadClientEnd t l ∧ Server.Spec.ms 60000 ≤ 0 + 1 + 0 + (deadClientEnd.late - l) := by
  obtain ⟨o, ho, h1, h2⟩ := options
  have hx : (Client.TSys.init c 0).run c deadClient = some deadClientEnd := by
    have h : ((Client.TSys.init c 0).run c deadClient).isSome = true := by decide +kernel
    obtain ⟨x, hx⟩ := Option.isSome_iff_exists.1 h
    simp only [deadClientEnd, hx, Option.getD_some]
  have ht : deadClientEnd.sys.trace.all (fun | .taken _ => false | _ => true) = true := by decide +kernel
  refine C61_server_partial (ys := muteServer) (y := muteServerEnd) (y' := (muteServerEnd.step Server.sampleCfg .expire).getD muteServerEnd) (a := 60000) (b := 60000) (start := 0) (δ := 0) (ρ := 0) muteServer_run (Server.TimerEx.env (by decide +kernel)) (by decide +kernel) hx
    (joined (by decide +kernel)) ho (by rw [h1]; decide) (by rw [h1]; decide) (by rw [h2]; decide) (Server.TimerEx.announced (by decide +kernel)) ?_ ?_ (toServer_iff (by decide +kernel)) ⟨0, 0, hello, by decide +kernel, by decide +kernel⟩ (by decide +kernel)
  · rw [Client.ending_iff]; decide +kernel
  · intro r hr
    exact absurd (List.all_eq_true.1 ht _ hr) Bool.false_ne_true

end BeatEx
end Stomp
