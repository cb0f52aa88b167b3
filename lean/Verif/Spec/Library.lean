import Verif.Spec.Client
/-! # Executions in which the user leaves the ids to the library -/
namespace Stomp.Client.Spec
open Stomp

/-- No option of the call sets a receipt header, and none of `Subscribe` an id or a temporary queue. -/
def leavesIds : Call → Bool
  | .send _ _ _ opts => opts.all fun o => match o with
    | .header k _ => decide (k ≠ Hdr.receipt)
    | _ => true
  | .subscribe _ _ opts => opts.all fun o => match o with
    | .id _ => false
    | .header k _ => decide (k ≠ Hdr.receipt ∧ k ≠ Hdr.id ∧ k ≠ Hdr.replyTo)
    | _ => true
  | .unsubscribe _ opts => opts.all fun o => match o with
    | .header k _ => decide (k ≠ Hdr.receipt)
    | _ => true
  | _ => true

/-- An upper bound of the number of ids a call takes from the counter. -/
def asks : Call → Nat
  | .send _ _ _ opts => opts.count .receipt
  | .subscribe .. | .disconnect => 1
  | _ => 0

/-- The counter (64 bits) is not about to overflow: there is room for one id, and for those of any one call. -/
def room (s : Sys) : Bool :=
  decide (s.lastId + 1 < 2 ^ 64) && s.threads.all fun th => decide (s.lastId + asks th.call < 2 ^ 64)

/-- All receipt and subscription ids come from the counter of the library: the calls leave them to it, and a frame
built beforehand (the SEND of a transaction) carries a receipt id that the library has made and that no other
frame carries. `pool` are the ids made by other users of the counter and not used on this connection so far. -/
def library (cfg : Cfg) : List Bytes → Sys → List Ev → Bool
  | _, _, [] => true
  | pool, s, e :: es =>
    match s.step cfg e with
    | none => false
    | some s' => room s &&
      match e with
      | .tick => library cfg (fmtUint s'.lastId :: pool) s' es
      | .call (.frame f) =>
        match f.header.contains Hdr.receipt with
        | none => library cfg pool s' es
        | some k => decide (k ∈ pool) && library cfg (pool.erase k) s' es
      | .call c => leavesIds c && library cfg pool s' es
      | _ => library cfg pool s' es

end Stomp.Client.Spec
