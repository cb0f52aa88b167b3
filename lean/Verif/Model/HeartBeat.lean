import Verif.Model.Frame
/-!
# Heart-beat header values: `frame/heartbeat.go`, `server/client/frame.go`, `server/client/util.go`
-/
namespace Stomp

/-- Two's-complement wrap to `int64`, Go's arithmetic on `time.Duration`. -/
def wrap64 (x : Int) : Int := (x + 2 ^ 63) % 2 ^ 64 - 2 ^ 63

/-- `time.Millisecond` in nanoseconds. -/
def millisecond : Int := 1000000

/-- Match of `^[0-9]{n},[0-9]{n}$` where `ok` says which digit counts are allowed: one comma, digits on
both sides. -/
def matchPair (ok : Nat → Bool) (s : Bytes) : Bool :=
  match indexByte 44 s with
  | none => false
  | some i =>
    (s.take i).all isDigit && ok (s.take i).length && (s.drop (i + 1)).all isDigit && ok (s.drop (i + 1)).length

/-- `strconv.ParseInt(s, 10, 64)` on a string of digits (the only arguments it gets here, because of the
regular expression): an error if the value does not fit `int64`. -/
def parseInt64 (s : Bytes) : Option Int :=
  match parseUint 64 s with
  | none => none
  | some n => if n < 2 ^ 63 then some (n : Int) else none

/-- `maxMilliseconds` (`frame/heartbeat.go:18-20`): `math.MaxInt64 / int64(time.Millisecond)`. -/
def maxMilliseconds : Int := (2 ^ 63 - 1) / millisecond

/-- `frame.ParseHeartBeat` (`frame/heartbeat.go:26-44`): two durations in nanoseconds, or
`ErrInvalidHeartBeat` (`none`). -/
def parseHeartBeat (s : Bytes) : Option (Int × Int) :=
  if !matchPair (fun n => decide (1 ≤ n)) s then none
  else
    match splitOn 44 s with
    | a :: b :: _ =>
      match parseInt64 a with
      | none => none
      | some v1 =>
        match parseInt64 b with
        | none => none
        | some v2 =>
          if v1 > maxMilliseconds ∨ v2 > maxMilliseconds then none
          else some (wrap64 (v1 * millisecond), wrap64 (v2 * millisecond))
    | _ => none       -- index out of range; excluded by the regular expression

/-- Errors of `getHeartBeat` (`server/client/errors.go`). -/
inductive HbErr | invalidOperationForFrame | invalidHeartBeat
  deriving DecidableEq, Repr

/-- `getHeartBeat` (`server/client/frame.go:91-119`), with the regular expression `^[0-9]{1,9},[0-9]{1,9}$`
(`server/client/frame.go:20-23`). Milliseconds. -/
def getHeartBeat (f : Frame) : Except HbErr (Nat × Nat) :=
  if f.command ≠ Cmd.connect ∧ f.command ≠ Cmd.stomp ∧ f.command ≠ Cmd.connected then
    .error .invalidOperationForFrame
  else
    match f.header.contains Hdr.heartBeat with
    | none => .ok (0, 0)
    | some hb =>
      if !matchPair (fun n => decide (1 ≤ n) && decide (n ≤ 9)) hb then .error .invalidHeartBeat
      else
        match splitOn 44 hb with
        | a :: b :: _ => .ok ((parseUint 32 a).getD 0, (parseUint 32 b).getD 0)
        | _ => .ok (0, 0)     -- index out of range; excluded by the regular expression

/-- `maxHeartBeat` (`server/client/frame.go:13-18`). -/
def maxHeartBeat : Int := 999999999

/-- `asMilliseconds` (`server/client/util.go:10-21`); Go integer division truncates towards zero. -/
def asMilliseconds (d : Int) (max : Int) : Int :=
  let max := if max < 0 then 0 else max
  let msec := Int.tdiv d millisecond
  if msec > max then max else msec

end Stomp
