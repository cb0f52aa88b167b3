import Verif.Model.Client.Connect
import Verif.Model.Client.Timer
/-! # The duration of the read timer (`conn.go:135`, `conn.go:317-318`) -/
namespace Stomp.Client
open Stomp

/-- `time.Duration(float64(c.readTimeout) * c.hbGracePeriodMultiplier)` (`conn.go:318`), evaluated when `c.readTimeout > 0` (`conn.go:317`). What the conversion of a number that is not in the range of
int64 gives is up to the implementation: `out`. -/
def readDuration (info : ConnInfo) (out : Int) : Int :=
  let a := info.grace.mulInt info.readTimeout.toNat
  if info.grace.neg then (if a ≤ 2 ^ 63 then -(a : Int) else out) else if a < 2 ^ 63 then a else out

/-- The durations with which `processLoop` runs after `Connect` (`conn.go:317-322`). A timer with a duration that is not positive fires at once. -/
def ConnInfo.timers (info : ConnInfo) (out : Int) (sys : Cfg) : TCfg :=
  { sys := { sys with readTimeout := decide (0 < info.readTimeout), writeTimeout := decide (0 < info.writeTimeout) }
    read := (readDuration info out).toNat
    write := info.writeTimeout.toNat }

end Stomp.Client
