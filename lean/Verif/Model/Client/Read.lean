import Verif.Model.Client.System
/-!
# `Subscription.Read` (`subscription.go:139-151`)

The client of `Model/Client/System` together with goroutines of the user that call `Read`. `Read` looks at the state of the
subscription (`Active`, `subscription.go:60-62`) and then receives from `C`; in between anything can happen. The user may also receive from `C`
directly (`Ev.take`).
-/
namespace Stomp.Client
open Stomp

/-- What `Read` returns: a message made from a MESSAGE frame, the `Err` of any other message, or `ErrCompletedSubscription`. -/
inductive ReadRes
  | msg (f : Frame)
  | err (m : CMsg)
  | completed
  deriving DecidableEq, Repr

/-- `if msg.Err != nil` (`subscription.go:147-150`); `Err` is set in all messages but those made from MESSAGE frames. -/
def CMsg.read : CMsg → ReadRes
  | .msg f => .msg f
  | m => .err m

/-- Positions of a call of `Read`: before `Active`, at `<-s.C`, returned. -/
inductive RdPc
  | start
  | recv
  | ret (r : ReadRes)
  deriving DecidableEq, Repr

/-- A call of `Read` on a subscription. -/
structure Reader where
  sub : Nat
  pc : RdPc
  deriving DecidableEq, Repr

/-- The client and the calls of `Read`. `log` (not in the code): what calls on which subscription have returned, in order. -/
structure RSys where
  sys : Sys
  readers : List Reader
  log : List (Nat × ReadRes)
  deriving DecidableEq, Repr

inductive REv
  | sys (e : Ev)
  | call (i : Nat)
  | read (k : Nat)
  deriving DecidableEq, Repr

namespace RSys

def init (n : Nat) : RSys := ⟨Sys.init n, [], []⟩

def goto (x : RSys) (k : Nat) (pc : RdPc) : RSys := { x with readers := x.readers.modify k fun r => { r with pc := pc } }

def ret (x : RSys) (k i : Nat) (r : ReadRes) : RSys := { x.goto k (.ret r) with log := x.log ++ [(i, r)] }

/-- One step of a call of `Read` (`subscription.go:140-151`). -/
def read (cfg : Cfg) (x : RSys) (k : Nat) : Option RSys :=
  match x.readers[k]? with
  | none => none
  | some r =>
    match x.sys.subs[r.sub]? with
    | none => none
    | some b =>
      match r.pc with
      | .start => if b.state = .active then some (x.goto k .recv) else some (x.ret k r.sub .completed)
      | .recv =>
        match b.buf with
        | m :: _ => (x.sys.step cfg (.take r.sub)).map fun s => ({ x with sys := s } : RSys).ret k r.sub m.read
        | [] => if b.cClosed then some (x.ret k r.sub .completed) else none
      | .ret _ => none

/-- One step. `none`: the event cannot happen in this state. `Read` needs a subscription that `Subscribe` has returned. -/
def step (cfg : Cfg) (x : RSys) : REv → Option RSys
  | .sys e => (x.sys.step cfg e).map fun s => { x with sys := s }
  | .call i =>
    if x.sys.crashed.isSome then none
    else if (x.sys.subs[i]?.map (·.returned)).getD false then some { x with readers := x.readers ++ [⟨i, .start⟩] } else none
  | .read k => if x.sys.crashed.isSome then none else x.read cfg k

def run (cfg : Cfg) (x : RSys) : List REv → Option RSys
  | [] => some x
  | e :: es => (x.step cfg e).bind fun x => x.run cfg es

end RSys
end Stomp.Client
