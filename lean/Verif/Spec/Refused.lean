import Verif.Model.Client.TxSystem
/-! # What property C84 talks about: options that fail -/
namespace Stomp.Client.Spec
open Stomp

/-- An option of the call fails. `Send` and `Subscribe` skip options that are nil; to `Unsubscribe` a nil option is an error, and so is
`SubscribeOpt.Id`. -/
def Wrong : Call → Prop
  | .send _ _ _ o => .fail ∈ o
  | .subscribe _ _ o => .fail ∈ o
  | .unsubscribe _ o => .fail ∈ o ∨ .nilOpt ∈ o ∨ ∃ id, .id id ∈ o
  | _ => False

/-- A call of `Unsubscribe`. -/
def Unsubscribes : Call → Prop
  | .unsubscribe _ _ => True
  | _ => False

/-- From `s` to `s'` nothing has happened, except that call `t` has returned. (A `Subscribe` on a closed connection closes the network
connection once more. The counter of ids is left out: `SendOpt.Receipt` takes an id even if a later option fails.) -/
structure NothingBut (t : Nat) (s s' : Sys) : Prop where
  closed : s'.closed = s.closed
  net : s'.netClosed = s.netClosed ∨ (s.closed = true ∧ s'.netClosed = true)
  mutex : s'.mutex = s.mutex
  writeCh : s'.writeCh = s.writeCh
  writeClosed : s'.writeClosed = s.writeClosed
  readCh : s'.readCh = s.readCh
  readDone : s'.readDone = s.readDone
  loop : s'.loop = s.loop
  channels : s'.channels = s.channels
  chans : s'.chans = s.chans
  subs : s'.subs = s.subs
  crashed : s'.crashed = s.crashed
  others : ∀ u, u ≠ t → s'.threads[u]? = s.threads[u]?
  returned : ∃ th r, s'.threads[t]? = some th ∧ th.pc = .ret r ∧ s'.trace = s.trace ++ [.ret t r]

end Stomp.Client.Spec
