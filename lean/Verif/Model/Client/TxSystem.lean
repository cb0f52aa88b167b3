import Verif.Model.Client.System
/-!
# Transactions used by several goroutines (`transaction.go`, `conn.go:798-810`)

The client system with `Transaction` objects. A method reads `completed`, builds its frame, calls `sendFrame` and, if this succeeds, `commit` and `abort` set `completed`: the read, the steps of `sendFrame`
and the write are separate steps here, and any number of calls of the methods of one transaction can be under way at the same time.

Simplifications: reading and writing `completed` is one step each, in one order for all goroutines (the code does not synchronise; the Go memory model promises less); building the frame is one step with
the test of `completed` (it touches nothing that is shared except the counter of `allocateId`, which is atomic).
-/
namespace Stomp.Client
open Stomp

/-- What a method returns: nil, `ErrCompletedTransaction`, an error found before sending, the error of `sendFrame`. -/
inductive XRes
  | ok
  | completedTx
  | rejected
  | failed (r : Res)
  deriving DecidableEq, Repr

/-- Where a call of a method is: before `if tx.completed`; in `sendFrame`, which is call `n` of the system (or after it, and before `tx.completed = true`); returned. -/
inductive XPc
  | start
  | sending (n : Nat)
  | ret (r : XRes)
  deriving DecidableEq, Repr

/-- A call of a method of transaction `tx` (`transaction.go:37-178`); `via` is the call of `sendFrame` it has made. -/
structure XThread where
  tx : Nat
  call : TxCall
  pc : XPc
  via : Option Nat
  deriving DecidableEq, Repr

/-- A `*Transaction`; `begun` is the call of `sendFrame` in `BeginWithError`. -/
structure XTx where
  tx : Tx
  begun : Nat
  deriving DecidableEq, Repr

structure XSys where
  sys : Sys
  txs : List XTx
  threads : List XThread
  deriving DecidableEq, Repr

def XSys.init (lastId : Nat) : XSys := ⟨Sys.init lastId, [], []⟩

inductive XEv
  | sys (e : Ev)
  | begin_
  | method (i : Nat) (c : TxCall)
  | go (j : Nat)
  | back (j : Nat)
  deriving DecidableEq, Repr

/-- `Commit`, `Abort` and their variants with receipt (`transaction.go:37-101`). -/
def TxCall.ends : TxCall → Bool
  | .abort _ => true
  | .commit _ => true
  | _ => false

/-- What call `n` of the system has returned. -/
def Sys.returned (s : Sys) (n : Nat) : Option Res :=
  match s.threads[n]? with
  | some th => match th.pc with
    | .ret r => some r
    | _ => none
  | none => none

/-- The result of a method that does not get to `sendFrame`. -/
def XRes.of : TxRes → XRes
  | .ok => .ok
  | .completedTx => .completedTx
  | _ => .rejected

/-- `if tx.completed` and the frame (`transaction.go:47-56`, `82-91`, `113-124`, `131-142`, `159-170`), then `sendFrame` begins. -/
def XSys.go (cfg : Cfg) (version : Bytes) (x : XSys) (j : Nat) (th : XThread) (o : XTx) : Option XSys :=
  match (txStep version x.sys.lastId o.tx th.call true).2.2.1 with
  | none => some { x with threads := x.threads.set j { th with pc := .ret (.of (txStep version x.sys.lastId o.tx th.call true).2.2.2) } }
  | some f =>
    ({ x.sys with lastId := (txStep version x.sys.lastId o.tx th.call true).1 }.step cfg (.call (.frame f))).map fun s =>
      { x with sys := s, threads := x.threads.set j { th with pc := .sending x.sys.threads.length, via := some x.sys.threads.length } }

/-- `sendFrame` has returned `r`: an error is returned; otherwise `commit` and `abort` set `completed` (`transaction.go:59-65`, `94-100`). -/
def XSys.back (x : XSys) (j : Nat) (th : XThread) (r : Res) : XSys :=
  if r = .ok then
    { x with threads := x.threads.set j { th with pc := .ret .ok }
             txs := if th.call.ends then x.txs.modify th.tx (fun o => { o with tx := { o.tx with completed := true } }) else x.txs }
  else { x with threads := x.threads.set j { th with pc := .ret (.failed r) } }

/-- One step. The calls of `sendFrame` in the system that are not made by transactions are those of `Ack` and `Nack` (`conn.go:768-793`), whose frames have no transaction header (`conn.go:814-858`). A method
can be called when `Begin` has returned the transaction (whatever the error, `conn.go:798-810`). -/
def XSys.step (cfg : Cfg) (version : Bytes) (x : XSys) (e : XEv) : Option XSys :=
  if x.sys.crashed.isSome then none
  else
    match e with
    | .sys (.call (.frame f)) =>
      if (f.command = Cmd.ack ∨ f.command = Cmd.nack) ∧ f.header.contains Hdr.transaction = none then
        (x.sys.step cfg (.call (.frame f))).map fun s => { x with sys := s }
      else none
    | .sys e => (x.sys.step cfg e).map fun s => { x with sys := s }
    | .begin_ =>
      ({ x.sys with lastId := (txBegin x.sys.lastId).1 }.step cfg (.call (.frame (txBegin x.sys.lastId).2.2))).map fun s =>
        { x with sys := s, txs := x.txs ++ [(⟨(txBegin x.sys.lastId).2.1, x.sys.threads.length⟩ : XTx)] }
    | .method i c =>
      match x.txs[i]? with
      | some o => if (x.sys.returned o.begun).isSome then some { x with threads := x.threads ++ [⟨i, c, .start, none⟩] } else none
      | none => none
    | .go j =>
      match x.threads[j]? with
      | some th =>
        match x.txs[th.tx]? with
        | some o => if th.pc = .start then x.go cfg version j th o else none
        | none => none
      | none => none
    | .back j =>
      match x.threads[j]? with
      | some th =>
        match th.pc with
        | .sending n => (x.sys.returned n).map fun r => x.back j th r
        | _ => none
      | none => none

def XSys.run (cfg : Cfg) (version : Bytes) (x : XSys) : List XEv → Option XSys
  | [] => some x
  | e :: es => (x.step cfg version e).bind fun x => x.run cfg version es

end Stomp.Client
