import Verif.Model.Client.System
/-!
# Whose bytes the body of a SEND frame is (`conn.go:534-577`, `611-631`, `transaction.go:113-125`, `frame/writer.go:80-85`)

`createSendFrame` does not copy the body: `f.Body = body` (`conn.go:615`) keeps the slice of the caller, whose bytes lie in an array of the program. The bytes are read when `processLoop` has taken the
request from `writeCh` and calls `writer.Write` (`conn.go:453`, `frame/writer.go:80-85`). The client system (`System.lean`) has bodies as values; here it is given the arrays of the program, which
the program can write to at any moment, and the frames as they go over the wire.

Simplifications: a body is a whole array (no two bodies overlap in part), `writer.Write` reads the body at one moment, and a write to an array is one step.
-/
namespace Stomp.Client
open Stomp

/-- The body a call is given: that of `Send` (`conn.go:534`), and that of a SEND frame of a transaction (`transaction.go:113-125`). -/
def Call.body : Call → Option Bytes
  | .send _ _ b _ => some b
  | .frame f => if f.command = Cmd.send then some f.body else none
  | _ => none

/-- The client with the memory of the program.
* `bufs`: the arrays.
* `uses`: for each call, the array that the body given to it is in (`none`: one that nobody writes to).
* `owners`: for each request on `writeCh`, the call that put it there, i.e. whose slice the frame of the request has.
* `now`: the call whose request `processLoop` has taken last.
* `wire`: the frames as written. -/
structure BSys where
  sys : Sys
  bufs : List Bytes
  uses : List (Option Nat)
  owners : List Nat
  now : Option Nat
  wire : List Frame
  deriving DecidableEq, Repr

def BSys.init (lastId : Nat) (bufs : List Bytes) : BSys := ⟨Sys.init lastId, bufs, [], [], none, []⟩

inductive BEv
  | call (c : Call) (buf : Option Nat)     -- a call, the body being array `buf`
  | write (k : Nat) (b : Bytes)            -- the program writes to array `k`
  | sys (e : Ev)                           -- anything else
  deriving DecidableEq, Repr

/-- What the slice `f.Body` of the frame being written has in it (`frame/writer.go:80-85`): the bytes of the array now. -/
def BSys.load (x : BSys) (f : Frame) : Frame :=
  match x.now with
  | none => f
  | some t =>
    match x.uses[t]? with
    | some (some k) => { f with body := (x.bufs[k]?).getD f.body }
    | _ => f

/-- `c.writeCh <- request` (`conn.go:557`, `570`, `656`, `684`), `req, ok := <-c.writeCh` (`conn.go:400`) and `writer.Write(req.Frame)` (`conn.go:453`): the channel is first in first out. -/
def BSys.observe (x : BSys) : Obs → BSys
  | .accepted t _ => { x with owners := x.owners ++ [t] }
  | .taken _ => { x with owners := x.owners.tail, now := x.owners.head? }
  | .sent f => { x with wire := x.wire ++ [x.load f] }
  | _ => x

/-- Array `buf` holds the body given to the call. -/
def BSys.holds (x : BSys) (c : Call) : Option Nat → Bool
  | none => true
  | some k => c.body.isSome && c.body == x.bufs[k]?

/-- One step: of the client, with what happens to `writeCh` and the wire in it, or of the program. The program gives the client the bytes that are in the array at the call. -/
def BSys.step (cfg : Cfg) (x : BSys) : BEv → Option BSys
  | .call c buf =>
    if x.holds c buf then
      (x.sys.step cfg (.call c)).map fun s => { x with sys := s, uses := x.uses ++ [buf] }
    else none
  | .write k b =>
    match x.bufs[k]? with
    | none => none
    | some a => if a.length = b.length then some { x with bufs := x.bufs.set k b } else none
  | .sys (.call _) => none
  | .sys e => (x.sys.step cfg e).map fun s => (s.trace.drop x.sys.trace.length).foldl BSys.observe { x with sys := s }

def BSys.run (cfg : Cfg) (x : BSys) : List BEv → Option BSys
  | [] => some x
  | e :: es => (x.step cfg e).bind fun x => x.run cfg es

end Stomp.Client
