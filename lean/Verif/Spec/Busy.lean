import Verif.Model.Server.System
/-! # Specification: what the server does by itself -/
namespace Stomp.Server.Spec
open Stomp Stomp.Server

/-- What the server does by itself. From outside come the connections, what the clients send, the end of what they send, and the times at which the heart-beat timers fire. -/
def Own : Sys.Ev → Prop
  | .accept => False
  | .conn _ (.recv _) => False
  | .conn _ .readErr => False
  | .conn _ (.timer _) => False
  | _ => True

/-- No write to the network fails in this event. -/
def Smooth : Sys.Ev → Prop
  | .conn _ (.frame ok1 ok2) => ok1 = true ∧ ok2 = true
  | .conn _ (.wr ok) => ok = true
  | .conn _ (.sub ok) => ok = true
  | _ => True

/-- The server can do nothing by itself. -/
def Still (cfg : Config) (s : Sys) : Prop := ∀ e, Own e → s.step cfg e = none

/-- A connection with nothing to do: it waits for the client, or it has ended. -/
def ConnIdle (k : Conn) : Prop :=
  k.outbox = [] ∧ ((k.stage = .run ∧ k.inq = [] ∧ k.readDone = false ∧ k.subCh = [] ∧ k.writeCh = []) ∨ k.stage = .closed)

/-- The server has nothing to do. -/
def Idle (s : Sys) : Prop := s.reqCh = [] ∧ s.todo = [] ∧ ∀ k ∈ s.conns, ConnIdle k

end Stomp.Server.Spec
