import Verif.Model.Client.System
/-! # The errors the client's program sees (`errors.go`) -/
namespace Stomp.Client
open Stomp

/-- `newError(f)`, its `Message`, which is also what `Error()` returns (`errors.go:31-35`, `errors.go:45-58`); its `Frame` is `f`. -/
def newErrorText (f : Frame) : Bytes :=
  if f.command = Cmd.error then
    if f.header.get Hdr.message ≠ [] then f.header.get Hdr.message else b!"ERROR frame, missing message header"
  else b!"Unexpected frame: " ++ f.command

/-- The text of the error a call returns: the constants of `errors.go:8-24`; the errors of options and of `net.Conn.Close` are the user's and the
operating system's, and left out. -/
def Res.text : Res → Option Bytes
  | .ok => none
  | .alreadyClosed => some b!"connection already closed"
  | .closedUnexpectedly => some b!"connection closed unexpectedly"
  | .optionError => none
  | .sendTimeout => some b!"msg send timeout"
  | .receiptTimeout => some b!"msg receipt timeout"
  | .disconnectTimeout => some b!"disconnect receipt timeout"
  | .response f => some (newErrorText f)
  | .completedSubscription => some b!"subscription is unsubscribed"
  | .unsubTimeout => some b!"unsubscribe receipt timeout"
  | .closeError => none

/-- The text of the `Err` of a message put on `Subscription.C` for an ERROR frame (`subscription.go:206-216`), which is its `Frame`. The texts of
`subscriptionErrorMessage` (`subscription.go:164-170`) are left out. -/
def CMsg.text : CMsg → Option Bytes
  | .error f => some (f.header.get Hdr.message)
  | _ => none

end Stomp.Client
