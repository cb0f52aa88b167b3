import Verif.Model.Client.Options
import Verif.Model.Codec
/-!
# The connect handshake: `ConnectWithContext` (`conn.go:100-244`)
-/
namespace Stomp.Client
open Stomp

/-- The fields of `Conn` fixed by the handshake (`conn.go:37-58`). -/
structure ConnInfo where
  version : Bytes
  session : Bytes
  server : Bytes
  readTimeout : Int
  writeTimeout : Int
  readCap : Int
  writeCap : Int
  msgSendTimeout : Int
  rcvReceiptTimeout : Int
  disconnectReceiptTimeout : Int
  unsubscribeReceiptTimeout : Int
  grace : F64
  deriving DecidableEq, Repr

/-- Errors `Connect` can return. -/
inductive ConnectErr
  | option                     -- an option function failed
  | write                      -- writing the CONNECT frame failed
  | read (e : ReadErr)         -- reading the response failed
  | emptyFrame                 -- "unexpected empty frame" (heart-beat)
  | notConnected (f : Frame)   -- `newError(response)`
  | badVersion (f : Frame)
  | badHeartBeat (f : Frame)
  deriving DecidableEq, Repr

/-- `options.Host` resolution (`conn.go:140-152`): `remote` is the host part of the remote address when the
connection is a `net.Conn` with a splittable address. -/
def resolveHost (o : Options) (remote : Option Bytes) : Options :=
  if o.host = [] then
    let o := match remote with
      | some h => { o with host := h }
      | none => o
    if o.host = [] then { o with host := b!"default" } else o
  else o

/-- The timeouts from the CONNECTED frame (`conn.go:203-229`): `none` is a malformed header. Result:
(readTimeout, writeTimeout), both 0 when the header is absent. int64 arithmetic. -/
def negotiate (o : Options) (h : Header) : Option (Int × Int) :=
  match h.contains Hdr.heartBeat with
  | none => some (0, 0)
  | some hb =>
    match parseHeartBeat hb with
    | none => none
    | some (rt, wt) =>
      let rt := if rt < o.readTimeout then o.readTimeout else rt
      let r := if rt > 0 then wrap64 (rt + o.heartBeatError) else rt
      let w := if wt > o.heartBeatError then wrap64 (wt - o.heartBeatError) else wt
      some (r, w)

/-- Evaluation of the response (`conn.go:170-234`). -/
def handleResponse (o : Options) (res : ReadRes) : Except ConnectErr ConnInfo :=
  match res with
  | .err e => .error (.read e)
  | .heartbeat _ => .error .emptyFrame
  | .frame f _ =>
    if f.command ≠ Cmd.connected then .error (.notConnected f)
    else
      let vs := f.header.get Hdr.version
      if vs ≠ [] ∧ checkSupported vs = false then .error (.badVersion f)
      else
        let version := if vs ≠ [] then vs else V10
        match negotiate o f.header with
        | none => .error (.badHeartBeat f)
        | some (r, w) =>
          .ok { version, session := f.header.get Hdr.session, server := f.header.get Hdr.server,
                readTimeout := r, writeTimeout := w,
                readCap := if o.readChannelCapacity > 0 then o.readChannelCapacity else 20,
                writeCap := if o.writeChannelCapacity > 0 then o.writeChannelCapacity else 20,
                msgSendTimeout := o.msgSendTimeout, rcvReceiptTimeout := o.rcvReceiptTimeout,
                disconnectReceiptTimeout := o.disconnectReceiptTimeout,
                unsubscribeReceiptTimeout := o.unsubscribeReceiptTimeout, grace := o.grace }

/-- `ConnectWithContext` (`conn.go:100-244`): `wok` says whether writing the CONNECT frame succeeds, `inp`
is what the server sends. The result pairs what was written with the outcome. Simplification: a context
deadline shows up as the input ending early. -/
def connect (opts : List ConnOpt) (remote : Option Bytes) (wok : Bool) (inp : Bytes) :
    Option Frame × Except ConnectErr ConnInfo :=
  match newConnOptions opts with
  | none => (none, .error .option)
  | some o =>
    let o := resolveHost o remote
    let f := o.newFrame
    if !wok then (some f, .error .write)
    else (some f, handleResponse o (readFrame inp))

end Stomp.Client
