import Verif.Model.HeartBeat
import Verif.Model.Float64
/-!
# Connect options: `conn_options.go`, `version.go`
-/
namespace Stomp.Client
open Stomp

/-- `Version` values (`version.go:6-10`). -/
def V10 : Bytes := b!"1.0"
def V11 : Bytes := b!"1.1"
def V12 : Bytes := b!"1.2"

/-- `Version.CheckSupported` (`version.go:20-26`); `true` is a nil error. -/
def checkSupported (v : Bytes) : Bool := v == V10 || v == V11 || v == V12

/-- `Version.SupportsNack` (`version.go:30-40`). -/
def supportsNack (v : Bytes) : Bool :=
  if v = V10 then false else if v = V11 ∨ v = V12 then true else false

/-- The option values that can be passed to `Connect` (`conn_options.go:206-351`), one constructor per
`ConnOpt` field; `nilOpt` is a nil function. Durations are nanoseconds (`Int`). Simplification: `Logger`,
`ResponseHeaders`, `WithStats` have no effect on frames or on the connection outcome and are left out. -/
inductive ConnOpt
  | nilOpt
  | login (login passcode : Bytes)
  | host (host : Bytes)
  | useStomp
  | acceptVersion (versions : List Bytes)
  | heartBeat (send recv : Int)
  | heartBeatError (d : Int)
  | msgSendTimeout (d : Int)
  | rcvReceiptTimeout (d : Int)
  | disconnectReceiptTimeout (d : Int)
  | unsubscribeReceiptTimeout (d : Int)
  | gracePeriod (multiplier : F64)
  | header (key value : Bytes)
  | readChannelCapacity (n : Int)
  | writeChannelCapacity (n : Int)
  | readBufferSize (n : Int)
  | writeBufferSize (n : Int)
  deriving DecidableEq, Repr

/-- `time.Second`, `time.Minute` in nanoseconds. -/
def second : Int := 1000000000
def minute : Int := 60 * second

/-- `connOptions` (`conn_options.go:14-32`) with the defaults of `newConnOptions`
(`conn_options.go:35-46`, `conn.go:18-30`). -/
structure Options where
  frameCommand : Bytes := Cmd.connect
  host : Bytes := []
  readTimeout : Int := minute
  writeTimeout : Int := minute
  heartBeatError : Int := 5 * second
  msgSendTimeout : Int := 10 * second
  rcvReceiptTimeout : Int := 30 * second
  disconnectReceiptTimeout : Int := 30 * second
  unsubscribeReceiptTimeout : Int := 30 * second
  grace : F64 := F64.one
  login : Bytes := []
  passcode : Bytes := []
  acceptVersions : List Bytes := []
  header : Header := []
  readChannelCapacity : Int := 0
  writeChannelCapacity : Int := 0
  readBufferSize : Int := 0
  writeBufferSize : Int := 0
  deriving DecidableEq, Repr

/-- The loop in `ConnOpt.AcceptVersion` (`conn_options.go:227-237`): versions are appended until the first
unsupported one, which is an error (`none`). -/
def addVersions (o : Options) : List Bytes → Option Options
  | [] => some o
  | v :: vs =>
    if checkSupported v then addVersions { o with acceptVersions := o.acceptVersions ++ [v] } vs else none

/-- Running one option function (`conn_options.go:206-351`); `none` is an error. -/
def applyOpt (o : Options) : ConnOpt → Option Options
  | .nilOpt => some o
  | .login l p => some { o with login := l, passcode := p }
  | .host h => some { o with host := h }
  | .useStomp => some { o with frameCommand := Cmd.stomp }
  | .acceptVersion vs => addVersions o vs
  | .heartBeat s r => some { o with writeTimeout := s, readTimeout := r }
  | .heartBeatError d => some { o with heartBeatError := d }
  | .msgSendTimeout d => some { o with msgSendTimeout := d }
  | .rcvReceiptTimeout d => some { o with rcvReceiptTimeout := d }
  | .disconnectReceiptTimeout d => some { o with disconnectReceiptTimeout := d }
  | .unsubscribeReceiptTimeout d => some { o with unsubscribeReceiptTimeout := d }
  | .gracePeriod g => some { o with grace := g }
  | .header k v => some { o with header := o.header.add k v }
  | .readChannelCapacity n => some { o with readChannelCapacity := n }
  | .writeChannelCapacity n => some { o with writeChannelCapacity := n }
  | .readBufferSize n => some { o with readBufferSize := n }
  | .writeBufferSize n => some { o with writeBufferSize := n }

/-- The option loop (`conn_options.go:56-63`). -/
def applyOpts (o : Options) : List ConnOpt → Option Options
  | [] => some o
  | opt :: rest =>
    match applyOpt o opt with
    | none => none
    | some o' => applyOpts o' rest

/-- `newConnOptions` (`conn_options.go:34-70`). -/
def newConnOptions (opts : List ConnOpt) : Option Options :=
  match applyOpts {} opts with
  | none => none
  | some o =>
    if o.acceptVersions.length = 0 then some { o with acceptVersions := [V10, V11, V12] } else some o

/-- `(*connOptions).NewFrame` (`conn_options.go:72-100`). -/
def Options.newFrame (co : Options) : Frame :=
  let h : Header := []
  let h := if co.host ≠ [] then h.set Hdr.host co.host else h
  let send := Int.tdiv co.writeTimeout millisecond
  let recv := Int.tdiv co.readTimeout millisecond
  let h := h.set Hdr.heartBeat (fmtInt send ++ b!"," ++ fmtInt recv)
  let h := if co.login ≠ [] ∨ co.passcode ≠ [] then (h.set Hdr.login co.login).set Hdr.passcode co.passcode else h
  let h := h.set Hdr.acceptVersion (joinWith 44 co.acceptVersions)
  let h := h.addHeader co.header
  { command := co.frameCommand, header := h, body := [] }

end Stomp.Client
