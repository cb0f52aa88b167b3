import Verif.Model.Client.Options
/-! # Specification: what the options of a connection say -/
namespace Stomp.Client.Spec
open Stomp

/-- What the last of the options that `sel` selects says; `d` if there is none. -/
def lastOf {α : Type} (sel : ConnOpt → Option α) (opts : List ConnOpt) (d : α) : α := ((opts.filterMap sel).getLast?).getD d

/-- The options with one number. -/
inductive Knob
  | heartBeatError | msgSend | rcvReceipt | disconnectReceipt | unsubscribeReceipt | readChannel | writeChannel | readBuffer | writeBuffer
  deriving DecidableEq, Repr

/-- What an option says about a number. -/
def says : Knob → ConnOpt → Option Int
  | .heartBeatError, .heartBeatError d => some d
  | .msgSend, .msgSendTimeout d => some d
  | .rcvReceipt, .rcvReceiptTimeout d => some d
  | .disconnectReceipt, .disconnectReceiptTimeout d => some d
  | .unsubscribeReceipt, .unsubscribeReceiptTimeout d => some d
  | .readChannel, .readChannelCapacity n => some n
  | .writeChannel, .writeChannelCapacity n => some n
  | .readBuffer, .readBufferSize n => some n
  | .writeBuffer, .writeBufferSize n => some n
  | _, _ => none

/-- The documented standard values, in nanoseconds, frames and bytes; 0 is "no number given". -/
def standard : Knob → Int
  | .heartBeatError => 5000000000
  | .msgSend => 10000000000
  | .rcvReceipt => 30000000000
  | .disconnectReceipt => 30000000000
  | .unsubscribeReceipt => 30000000000
  | _ => 0

/-- A size that was asked for, if it is positive, and otherwise the standard one. -/
def sized (k : Knob) (opts : List ConnOpt) (d : Nat) : Nat := if lastOf (says k) opts 0 > 0 then (lastOf (says k) opts 0).toNat else d

end Stomp.Client.Spec
