import Verif.Model.Client.Frames
/-!
# `Transaction` (`transaction.go`)

`sendFrame` is represented by its argument (the frame handed over) and its outcome, an input of the model;
how `sendFrame` itself behaves is in `Model/Client/System.lean`. The `completed` flag is unsynchronised in the
code; this model is for calls made one after the other. `Model/Client/TxSystem.lean` has the methods in steps, for any
number of goroutines.
-/
namespace Stomp.Client
open Stomp

/-- `Transaction` (`transaction.go:17-21`). -/
structure Tx where
  id : Bytes
  completed : Bool
  deriving DecidableEq, Repr

/-- The calls on a transaction (`transaction.go:37-178`). -/
inductive TxCall
  | abort (receipt : Bool)
  | commit (receipt : Bool)
  | send (dest ctype body : Bytes) (opts : List SendOpt)
  | ack (m : MsgInfo)
  | nack (m : MsgInfo)
  deriving DecidableEq, Repr

/-- Results: nil, `ErrCompletedTransaction`, the error of `sendFrame`, or an error found before sending. -/
inductive TxRes | ok | completedTx | sendFailed | rejected
  deriving DecidableEq, Repr

/-- One call: new counter, new transaction, the frame handed to `sendFrame` (if any), result.
`sendOk` is the outcome of `sendFrame`. -/
def txStep (version : Bytes) (last : Nat) (tx : Tx) (call : TxCall) (sendOk : Bool) :
    Nat × Tx × Option Frame × TxRes :=
  match call with
  | .abort receipt =>                                   -- transaction.go:47-66
    if tx.completed then (last, tx, none, .completedTx)
    else
      let f := Frame.new Cmd.abort [(Hdr.transaction, tx.id)]
      let (last, f) :=
        if receipt then let (l, id) := allocateId last; (l, { f with header := f.header.set Hdr.receipt id })
        else (last, f)
      if sendOk then (last, { tx with completed := true }, some f, .ok) else (last, tx, some f, .sendFailed)
  | .commit receipt =>                                  -- transaction.go:82-101
    if tx.completed then (last, tx, none, .completedTx)
    else
      let f := Frame.new Cmd.commit [(Hdr.transaction, tx.id)]
      let (last, f) :=
        if receipt then let (l, id) := allocateId last; (l, { f with header := f.header.set Hdr.receipt id })
        else (last, f)
      if sendOk then (last, { tx with completed := true }, some f, .ok) else (last, tx, some f, .sendFailed)
  | .send dest ctype body opts =>                       -- transaction.go:113-125
    if tx.completed then (last, tx, none, .completedTx)
    else
      match createSendFrame last dest ctype body opts with
      | none => (last, tx, none, .rejected)
      | some (last, f) =>
        let f := { f with header := f.header.set Hdr.transaction tx.id }
        (last, tx, some f, if sendOk then .ok else .sendFailed)
  | .ack m =>                                           -- transaction.go:131-150
    if tx.completed then (last, tx, none, .completedTx)
    else
      match createAckNackFrame version m true with
      | .error _ => (last, tx, none, .rejected)
      | .ok none => (last, tx, none, .ok)
      | .ok (some f) =>
        let f := { f with header := f.header.set Hdr.transaction tx.id }
        (last, tx, some f, if sendOk then .ok else .sendFailed)
  | .nack m =>                                          -- transaction.go:159-178
    if tx.completed then (last, tx, none, .completedTx)
    else
      match createAckNackFrame version m false with
      | .error _ => (last, tx, none, .rejected)
      | .ok none => (last, tx, none, .ok)
      | .ok (some f) =>
        let f := { f with header := f.header.set Hdr.transaction tx.id }
        (last, tx, some f, if sendOk then .ok else .sendFailed)

/-- `Begin`/`BeginWithError` (`conn.go:798-810`): the BEGIN frame and the new transaction (returned whatever
the outcome of sending). -/
def txBegin (last : Nat) : Nat × Tx × Frame :=
  let (last, id) := allocateId last
  (last, { id, completed := false }, Frame.new Cmd.begin_ [(Hdr.transaction, id)])

end Stomp.Client
