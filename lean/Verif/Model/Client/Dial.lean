import Verif.Model.Client.Connect
/-!
# `DialWithContext` and `ConnectWithContext` with the network connection in view (`conn.go:65-244`)

What is done to the network connection, in order, and what the handshake sees of it. Of a context the code looks at the deadline only (`conn.go:164`), never at its cancellation, and `net.Dial`
does not get it (`conn.go:74`).

Simplifications: bytes arrive one by one at given times, in order; a read under a deadline gets what has arrived by then and fails after that (as if the stream ended there; the kind of error is of
no consequence); the errors of `SetReadDeadline` and of `Close`, which the code ignores, are left out, and so are the buffer sizes, which have no influence on what is written and read (C05).
-/
namespace Stomp.Client
open Stomp

/-- Operations on the network connection. `readDeadline none` is `SetReadDeadline(time.Time{})`. -/
inductive NetOp
  | write (f : Frame)
  | readDeadline (d : Option Nat)
  | read
  | close
  deriving DecidableEq, Repr

/-- A network connection as the handshake meets it: is it a `net.Conn`; the host part of its remote address, if that can be split (`net.SplitHostPort`); does writing the CONNECT frame succeed; what
arrives, and when. -/
structure Net where
  isNetConn : Bool
  remote : Option Bytes
  writes : Bool
  incoming : List (Nat × UInt8)
  deriving DecidableEq, Repr

/-- What can be read: everything, or what has arrived by the deadline. -/
def Net.readable (c : Net) : Option Nat → Bytes
  | none => c.incoming.map (·.2)
  | some d => (c.incoming.takeWhile (fun x => decide (x.1 ≤ d))).map (·.2)

/-- `ConnectWithContext` (`conn.go:100-244`); `deadline` is that of the context, if it has one. -/
def connectCtx (deadline : Option Nat) (opts : List ConnOpt) (c : Net) : List NetOp × Except ConnectErr ConnInfo :=
  match newConnOptions opts with                                                        -- conn.go:109-112
  | none => ([], .error .option)
  | some o =>
    let o := resolveHost o (if c.isNetConn then c.remote else none)                     -- conn.go:140-152
    if !c.writes then ([.write o.newFrame], .error .write)                              -- conn.go:154-161
    else
      let armed := if c.isNetConn then deadline else none                               -- conn.go:163-167
      let ops := [.write o.newFrame] ++ (if armed.isSome then [.readDeadline armed] else []) ++ [.read]
      match readFrame (c.readable armed) with                                           -- conn.go:169-172
      | .err e => (ops, .error (.read e))
      | res => (ops ++ (if armed.isSome then [.readDeadline none] else []), handleResponse o res)   -- conn.go:173-243

/-- Errors of `Dial`: of `net.Dial`, of the remote address, of `ConnectWithContext`. -/
inductive DialErr
  | dial
  | address
  | connect (e : ConnectErr)
  deriving DecidableEq, Repr

/-- `DialWithContext` (`conn.go:73-91`); `net` is what `net.Dial` yields (`none`: an error). What it yields is a `net.Conn`. -/
def dial (deadline : Option Nat) (opts : List ConnOpt) (net : Option Net) : List NetOp × Except DialErr ConnInfo :=
  match net with
  | none => ([], .error .dial)
  | some c =>
    match c.remote with
    | none => ([.close], .error .address)
    | some host =>
      let r := connectCtx deadline (.host host :: opts) { c with isNetConn := true }
      (r.1, match r.2 with
        | .error e => .error (.connect e)
        | .ok i => .ok i)

end Stomp.Client
