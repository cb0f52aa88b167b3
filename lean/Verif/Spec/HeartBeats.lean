import Verif.Model.Client.Connect
import Verif.Model.Client.Timer
import Verif.Model.Server.Timer
import Verif.Spec.ServerTimer
/-!
# Specification: a client and a server connection of this library, connected to each other, with their clocks

The client's clock is 0 when `Connect` starts its goroutines; the server's clock is then `start`.
-/
namespace Stomp.Spec
open Stomp

/-- What the server has written after `start` has been read by the client's `readLoop`, at most `δ` later. -/
def ToClient (start δ : Nat) (y : Server.TConn) (x : Client.TSys) : Prop :=
  ∀ t l w, (t, l, Server.TObs.wrote w) ∈ y.log → start < t → t + δ < start + x.now →
    ∃ t' l' f, (t', l', Client.Obs.read f) ∈ x.log ∧ t ≤ start + t' ∧ start + t' ≤ t + δ

/-- A frame or a heart-beat of the client. -/
def Sent (o : Client.Obs) : Prop := o = .beat ∨ ∃ f, o = .sent f

/-- What the client has sent has been read by the server's `readLoop`, at most `δ` later. -/
def ToServer (start δ : Nat) (x : Client.TSys) (y : Server.TConn) : Prop :=
  ∀ t l o, (t, l, o) ∈ x.log → Sent o → start + t + δ < y.now →
    ∃ t' l' f, (t', l', Server.TObs.item f) ∈ y.log ∧ start + t ≤ t' ∧ t' ≤ start + t + δ

/-- The server has read the client's CONNECT frame at most `ρ` before `start`. -/
def Greeted (start ρ : Nat) (y : Server.TConn) : Prop := ∃ t l f, (t, l, Server.TObs.item (some f)) ∈ y.log ∧ start ≤ t + ρ

/-- `Connect` with these options has read a CONNECTED frame of this server connection, and the durations of the client's timers are as it computed them, or, for the
read timer, longer (`HeartBeatGracePeriodMultiplier`). -/
def Joined (opts : List Client.ConnOpt) (remote : Option Bytes) (c : Client.TCfg) (y : Server.TConn) : Prop :=
  ∃ w ∈ y.conn.out, ∃ g, w.frame = some g ∧ g.command = b!"CONNECTED" ∧ ∃ rest info,
    (Client.connect opts remote true (writeFrame (some g) ++ rest)).2 = .ok info ∧
    c.sys.readTimeout = decide (0 < info.readTimeout) ∧ info.readTimeout.toNat ≤ c.read ∧
    c.sys.writeTimeout = decide (0 < info.writeTimeout) ∧ c.write = info.writeTimeout.toNat

end Stomp.Spec
