import Verif.Model.Client.Transaction
import Verif.Model.AMap
/-!
# The client as a whole: callers, `processLoop`, `readLoop`, subscriptions (`conn.go`, `subscription.go`)

A state machine over one client connection after `Connect` has succeeded. Every goroutine has a program
counter; one event is one atomic step of one goroutine (or of the network, the clock, the user). Go's
`select` picks any ready case, the scheduler any goroutine: both are the freedom to choose the next event.

Channels. `writeCh` and `readCh` are bounded queues. The response channels (`chan *frame.Frame`) are
unbuffered, so a send and the matching receive are one step (`deliver`), possible only when the receiver is at
its receive statement. `Subscription.C` is a queue of capacity 16.

Simplifications, none of which removes an interleaving of operations on shared state:
* a goroutine that holds `closeMutex` and does not block does so in one step (lock, test `closed`, build the
  frame);
* `readLoop` puts the frame it has read on `readCh` in the same step; a frame in the hand of a `readLoop`
  blocked on a full `readCh` counts as not yet read;
* `time.After`, `time.NewTimer` can fire at any moment once armed, if the corresponding duration is such that
  they are armed at all (`Cfg`); for when exactly they fire see `Model/Client/Timer.lean`;
* log calls and the statistics counters are left out;
* a panic of any goroutine ends the process: `crashed` is set and there are no further steps.
-/
namespace Stomp.Client
open Stomp

/-- What of `Conn`'s configuration matters here (`conn.go:37-58`, `conn_options.go:14-32`): channel capacities
and which of the timeouts are armed (`> 0`; for `unsubscribeReceiptTimeout`: `≠ 0`, `subscription.go:119`). -/
structure Cfg where
  readCap : Nat
  writeCap : Nat
  sendTimeout : Bool
  receiptTimeout : Bool
  disconnectTimeout : Bool
  unsubTimeout : Bool
  readTimeout : Bool
  writeTimeout : Bool
  deriving DecidableEq, Repr

/-- `writeRequest` (`conn.go:60-63`); the channel `C` is an index into `Sys.chans`. -/
structure Req where
  frame : Frame
  chan : Option Nat
  deriving DecidableEq, Repr

/-- The exported operations, each run by a goroutine of the user. `frame f` is a call of `sendFrame` made by
`Ack`, `Nack` (`conn.go:768-793`), `BeginWithError` (`conn.go:805-810`) or the `Transaction` methods
(`transaction.go:37-178`); the frame they build is in `Model/Client/Frames.lean` and
`Model/Client/Transaction.lean` and here any frame of these commands. -/
inductive Call
  | send (dest ctype body : Bytes) (opts : List SendOpt)
  | frame (f : Frame)
  | subscribe (dest : Bytes) (ack : AckMode) (opts : List SubOpt)
  | unsubscribe (sub : Nat) (opts : List SubOpt)
  | disconnect
  | mustDisconnect
  deriving DecidableEq, Repr

/-- What a call returns: nil, one of the errors of `errors.go:8-24`, `newError(response)` for a response that
is not a RECEIPT, the error of a failed option, the error of `net.Conn.Close`. -/
inductive Res
  | ok
  | alreadyClosed
  | closedUnexpectedly
  | optionError
  | sendTimeout
  | receiptTimeout
  | disconnectTimeout
  | response (f : Frame)
  | completedSubscription
  | unsubTimeout
  | closeError
  deriving DecidableEq, Repr

/-- A `*Message` put on `Subscription.C`: made from a MESSAGE frame (`subscription.go:184-195`), from an ERROR
frame (`subscription.go:206-216`), or by `subscriptionErrorMessage` (`subscription.go:164-170`). -/
inductive CMsg
  | msg (f : Frame)
  | error (f : Frame)
  | closedUnexpectedly
  | unsubTimeout
  | readFailed
  deriving DecidableEq, Repr

/-- Positions inside `closeChannel` (`subscription.go:153-162`). -/
inductive ClosePc
  | enter (m : Option CMsg)
  | put (m : CMsg)
  | store
  | close
  | broadcast
  deriving DecidableEq, Repr

/-- Positions of a caller. `push r` is `c.writeCh <- r`, `wait n` is `<-request.C`; the rest are inside
`Unsubscribe` (`subscription.go:65-116`). -/
inductive Pc
  | start
  | lock (f : Frame)
  | push (r : Req)
  | wait (n : Nat)
  | closing (p : ClosePc)
  | subLock (r : Res)
  | check (r : Res)
  | condWait
  | asleep (ticket : Nat)
  | relock
  | select
  | timedOut
  | putTimeout
  | ret (r : Res)
  deriving DecidableEq, Repr

/-- Positions of the goroutine started by `waitWithTimeout` (`subscription.go:124-127`). -/
inductive HPc
  | none
  | start
  | asleep (ticket : Nat)
  | relock
  | done
  deriving DecidableEq, Repr

structure Thread where
  call : Call
  pc : Pc
  helper : HPc
  deriving DecidableEq, Repr

/-- Who receives from a response channel: the caller that made it or the `readLoop` of a subscription. -/
inductive Owner
  | caller (t : Nat)
  | sub (i : Nat)
  deriving DecidableEq, Repr

/-- A `chan *frame.Frame`. -/
structure Chan where
  owner : Owner
  closed : Bool
  deriving DecidableEq, Repr

/-- `Subscription.state` (`subscription.go:13-17`). -/
inductive SubState | active | closing | closed
  deriving DecidableEq, Repr

/-- `sync.Once` (`subscription.go:33`). -/
inductive Once | idle | running | done
  deriving DecidableEq, Repr

/-- Positions of `(*Subscription).readLoop` (`subscription.go:172-230`). -/
inductive RlPc
  | recv
  | put (m : CMsg)
  | check (m : Option CMsg)
  | closing (p : ClosePc)
  | done
  deriving DecidableEq, Repr

/-- `Subscription` (`subscription.go:23-35`), its `readLoop`, and what was put on `C` so far (`got`, not in
the code). `locked` is `closeMutex`; `tickets`/`notified` are the two counters of `sync.Cond`'s notify list:
`Wait` takes the next ticket, `Broadcast` wakes all tickets taken so far. `returned`: `Subscribe` has
returned, so the user has the pointer. -/
structure Sub where
  id : Bytes
  replyTo : Bool
  chan : Nat
  state : SubState
  buf : List CMsg
  cClosed : Bool
  once : Once
  locked : Bool
  tickets : Nat
  notified : Nat
  rl : RlPc
  returned : Bool
  got : List CMsg
  deriving DecidableEq, Repr

/-- The `Subscription` built by `Subscribe` (`conn.go:740-751`). -/
def Sub.new (id : Bytes) (replyTo : Bool) (chan : Nat) : Sub :=
  { id := id, replyTo := replyTo, chan := chan, state := .active, buf := [], cClosed := false, once := .idle,
    locked := false, tickets := 0, notified := 0, rl := .recv, returned := false, got := [] }

/-- Positions of `processLoop` (`conn.go:306-461`): at the `select`; at the `ch <- f` of a RECEIPT (with the
id) or a MESSAGE; inside the loop over all channels on ERROR (`errs`) or in `sendError` (`fail`), with the
channels still to do; returned. -/
inductive LoopPc
  | select
  | receipt (f : Frame) (id : Bytes) (ch : Nat)
  | message (f : Frame) (ch : Nat)
  | errs (f : Frame) (todo : List Nat)
  | fail (f : Frame) (todo : List Nat)
  | done
  deriving DecidableEq, Repr

/-- Panics (and the fatal error of unlocking an unlocked mutex). -/
inductive Panic
  | sendWriteCh        -- send on the closed writeCh
  | closeWriteCh       -- close of the closed writeCh
  | sendChan           -- send on a closed response channel
  | closeChan          -- close of a closed response channel
  | nilResponse        -- response.Command with a nil response
  | sendC              -- send on the closed Subscription.C
  | closeC             -- close of the closed Subscription.C
  | unlock             -- unlock of an unlocked Subscription.closeMutex
  deriving DecidableEq, Repr

/-- Not in the code: what happened, in order. -/
inductive Obs
  | accepted (t : Nat) (r : Req)      -- a caller put r on writeCh
  | taken (r : Req)                   -- processLoop took r from writeCh
  | sent (f : Frame)                  -- writer.Write(f) succeeded
  | failed (f : Frame)                -- writer.Write(f) failed
  | beat                              -- writer.Write(nil) succeeded
  | read (f : Option Frame)           -- readLoop read a frame (none: heart-beat)
  | took (f : Option Frame)           -- processLoop took it from readCh
  | ret (t : Nat) (r : Res)           -- a call returned
  deriving DecidableEq, Repr

structure Sys where
  closed : Bool
  netClosed : Bool
  mutex : Option Nat
  writeCh : List Req
  writeClosed : Bool
  readCh : List (Option Frame)
  readDone : Bool
  loop : LoopPc
  channels : AMap Nat
  chans : List Chan
  threads : List Thread
  subs : List Sub
  lastId : Nat
  crashed : Option Panic
  trace : List Obs
  deriving DecidableEq, Repr

/-- The state in which `Connect` starts `processLoop` (`conn.go:240-241`); the id counter is global to the
process and may have any value. -/
def Sys.init (lastId : Nat) : Sys :=
  { closed := false, netClosed := false, mutex := none, writeCh := [], writeClosed := false, readCh := [],
    readDone := false, loop := .select, channels := [], chans := [], threads := [], subs := [],
    lastId := lastId, crashed := none, trace := [] }

namespace Sys

def goto (s : Sys) (t : Nat) (pc : Pc) : Sys :=
  { s with threads := s.threads.modify t fun th => { th with pc := pc } }

def setHelper (s : Sys) (t : Nat) (h : HPc) : Sys :=
  { s with threads := s.threads.modify t fun th => { th with helper := h } }

def setSub (s : Sys) (i : Nat) (b : Sub) : Sys := { s with subs := s.subs.set i b }

def log (s : Sys) (o : Obs) : Sys := { s with trace := s.trace ++ [o] }

def ret (s : Sys) (t : Nat) (r : Res) : Sys := (s.goto t (.ret r)).log (.ret t r)

def lock (s : Sys) (t : Nat) : Sys := { s with mutex := some t }

def unlock (s : Sys) : Sys := { s with mutex := none }

def crash (s : Sys) (p : Panic) : Sys := { s with crashed := some p }

/-- `c.closed = true; c.conn.Close()` (`conn.go:496-497`, `conn.go:501-502`, `conn.go:521-522`,
`conn.go:385-386`). -/
def markClosed (s : Sys) : Sys := { s with closed := true, netClosed := true }

/-- `c.conn.Close()` -/
def closeNet (s : Sys) : Sys := { s with netClosed := true }

/-- `make(chan *frame.Frame)` for `owner`. -/
def newChan (s : Sys) (o : Owner) : Sys := { s with chans := s.chans ++ [{ owner := o, closed := false }] }

def chanClosed (s : Sys) (n : Nat) : Bool := (s.chans[n]?.map (·.closed)).getD false

/-- `close(ch)` -/
def closeChan (s : Sys) (n : Nat) : Sys :=
  if s.chanClosed n then s.crash .closeChan
  else { s with chans := s.chans.modify n fun c => { c with closed := true } }

end Sys

/-- The outcome of one step inside `closeChannel`. -/
inductive CloseOut
  | blocked
  | panic (p : Panic)
  | next (b : Sub) (p : ClosePc)
  | fin (b : Sub)

/-- One step of `closeChannel` (`subscription.go:153-162`): `closeOnce.Do` runs the function for the first
caller, makes a second caller wait while it runs, and does nothing once it has run. -/
def closeStep (b : Sub) : ClosePc → CloseOut
  | .enter m =>
    match b.once with
    | .idle =>
      match m with
      | some m => .next { b with once := .running } (.put m)
      | none => .next { b with once := .running } .store
    | .running => .blocked
    | .done => .fin b
  | .put m =>
    if b.cClosed then .panic .sendC
    else if b.buf.length < 16 then .next { b with buf := b.buf ++ [m], got := b.got ++ [m] } .store
    else .blocked
  | .store => .next { b with state := .closed } .close
  | .close => if b.cClosed then .panic .closeC else .next { b with cClosed := true } .broadcast
  | .broadcast => .fin { b with notified := b.tickets, once := .done }

/-- What `processLoop` does with a request before writing (`conn.go:411-449`): the new map, the channel it
closes, the frame to be written (`none`: not sent). In the case of SUBSCRIBE `req.C` is never nil. -/
def handleWrite (m : AMap Nat) (r : Req) : AMap Nat × Option Nat × Option Frame :=
  let m := match r.chan, r.frame.header.contains Hdr.receipt with
    | some n, some k => m.set k n
    | _, _ => m
  if r.frame.command = Cmd.subscribe then
    match r.frame.header.contains Hdr.replyTo with
    | some k => ((match r.chan with | some n => m.set k n | none => m), none, none)
    | none =>
      ((match r.chan with | some n => m.set ((r.frame.header.contains Hdr.id).getD []) n | none => m),
        none, some r.frame)
  else if r.frame.command = Cmd.unsubscribe then
    match r.frame.header.contains Hdr.replyTo with
    | some k => match m.get? k with
      | some n => (m.del k, some n, none)
      | none => (m, none, none)
    | none =>
      (m, none, some { r.frame with
        header := r.frame.header.set Hdr.receipt ((r.frame.header.contains Hdr.id).getD []) })
  else (m, none, some r.frame)

/-- The frame made by `sendError` (`conn.go:465`). -/
def errFrame (text : Bytes) : Frame := Frame.new Cmd.error [(Hdr.message, text)]

/-- The commands of the frames handed to `sendFrame` by `Ack`, `Nack`, `Begin` and the `Transaction` methods. -/
def rawCommands : List Bytes := [Cmd.ack, Cmd.nack, Cmd.begin_, Cmd.commit, Cmd.abort, Cmd.send]

namespace Sys

/-- `sendFrame` returns `r` to its caller: `Unsubscribe` goes on (`subscription.go:87-101`), the others
return it. -/
def frameDone (s : Sys) (t : Nat) (call : Call) (r : Res) : Sys :=
  match call with
  | .unsubscribe _ _ =>
    if r = .closedUnexpectedly then s.goto t (.closing (.enter (some .closedUnexpectedly)))
    else s.goto t (.subLock r)
  | _ => s.ret t r

/-- `Subscribe` returns the subscription whose channel is `n` (`conn.go:760`): from now on the user has it. -/
def handOut (s : Sys) (n : Nat) : Sys :=
  match s.chans[n]? with
  | some ⟨.sub i, _⟩ => { s with subs := s.subs.modify i fun b => { b with returned := true } }
  | _ => s

/-- `sendFrame` up to the send on `writeCh` (`conn.go:634-656`, `conn.go:681-684`). -/
def frameEnter (s : Sys) (t : Nat) (call : Call) (f : Frame) : Option Sys :=
  if s.mutex.isSome then none
  else if s.closed then some (s.closeNet.frameDone t call .closedUnexpectedly)
  else if (f.header.contains Hdr.receipt).isSome then
    some (((s.lock t).newChan (.caller t)).goto t (.push ⟨f, some s.chans.length⟩))
  else some ((s.lock t).goto t (.push ⟨f, none⟩))

/-- A call begins: everything up to the first blocking operation after `closeMutex` is locked, or, for
`Unsubscribe`, the state transition and the frame. -/
def begin (s : Sys) (t : Nat) (call : Call) : Option Sys :=
  match call with
  | .send dest ctype body opts =>                             -- conn.go:534-570
    if s.mutex.isSome then none
    else if s.closed then some (s.ret t .alreadyClosed)
    else
      match createSendFrame s.lastId dest ctype body opts with
      | none => some (s.ret t .optionError)
      | some (last, f) =>
        if (f.header.contains Hdr.receipt).isSome then
          some (({ s with lastId := last, mutex := some t }.newChan (.caller t)).goto t (.push ⟨f, some s.chans.length⟩))
        else some ({ s with lastId := last, mutex := some t }.goto t (.push ⟨f, none⟩))
  | .frame f => s.frameEnter t call f
  | .subscribe dest ack opts =>                               -- conn.go:697-759
    if s.mutex.isSome then none
    else if s.closed then some (s.closeNet.ret t .closedUnexpectedly)
    else
      match createSubscribeFrame s.lastId dest ack opts with
      | none => some (s.ret t .optionError)
      | some (last, f, id, replyTo) =>
        some (({ s with lastId := last, mutex := some t,
                        subs := s.subs ++ [Sub.new id replyTo s.chans.length] }.newChan (.sub s.subs.length)).goto t
                (.push ⟨f, some s.chans.length⟩))
  | .unsubscribe i opts =>                                    -- subscription.go:65-85
    match s.subs[i]? with
    | none => none
    | some b =>
      if b.state = .active then
        match createUnsubscribeFrame b.id b.replyTo opts with
        | none => some ((s.setSub i { b with state := .closing }).ret t .optionError)
        | some f => some ((s.setSub i { b with state := .closing }).goto t (.lock f))
      else some (s.ret t .completedSubscription)
  | .disconnect =>                                            -- conn.go:477-492
    if s.mutex.isSome then none
    else if s.closed then some (s.ret t .ok)
    else
      some (({ s with lastId := (allocateId s.lastId).1, mutex := some t }.newChan (.caller t)).goto t
        (.push ⟨Frame.new Cmd.disconnect [(Hdr.receipt, (allocateId s.lastId).2)], some s.chans.length⟩))
  | .mustDisconnect =>                                        -- conn.go:511-523
    if s.mutex.isSome then none
    else if s.closed then some (s.ret t .ok)
    else if s.writeClosed then some (s.crash .closeWriteCh)
    else some ({ s with writeClosed := true }.markClosed.ret t .ok)

/-- `c.writeCh <- r` completes. `Send` and `Disconnect` keep `closeMutex` while waiting for the receipt
(`conn.go:535-536`, `conn.go:478-479`), `sendFrame` does not (`conn.go:656-660`, `conn.go:684-687`),
`Subscribe` returns (`conn.go:759-760`). -/
def push (cfg : Cfg) (s : Sys) (t : Nat) (call : Call) (r : Req) : Option Sys :=
  if s.writeClosed then some (s.crash .sendWriteCh)
  else if s.writeCh.length < cfg.writeCap then
    let s : Sys := { s with writeCh := s.writeCh ++ [r], trace := s.trace ++ [.accepted t r] }
    match call, r.chan with
    | .send .., some n | .disconnect, some n => some (s.goto t (.wait n))
    | .send .., none => some (s.unlock.ret t .ok)
    | .subscribe .., some n => some ((s.handOut n).unlock.ret t .ok)
    | .frame _, some n | .unsubscribe .., some n => some (s.unlock.goto t (.wait n))
    | .frame _, none | .unsubscribe .., none => some (s.unlock.frameDone t call .ok)
    | _, _ => none
  else none

/-- A receive from a closed response channel yields nil: `readReceiptWithTimeout` dereferences it
(`conn.go:588-589`), `sendFrame` returns an error (`conn.go:678-680`). -/
def waitClosed (s : Sys) (t : Nat) (call : Call) (n : Nat) : Option Sys :=
  if s.chanClosed n then
    match call with
    | .send .. | .disconnect => some (s.crash .nilResponse)
    | _ => some (s.frameDone t call .closedUnexpectedly)
  else none

/-- One step of `Unsubscribe` on subscription `i` after `sendFrame` has returned (`subscription.go:87-134`). -/
def unsub (cfg : Cfg) (s : Sys) (t : Nat) (th : Thread) (i : Nat) (b : Sub) : Option Sys :=
  match th.pc with
  | .closing p =>
    match closeStep b p with
    | .blocked => none
    | .panic e => some (s.crash e)
    | .next b p => some ((s.setSub i b).goto t (.closing p))
    | .fin b => some ((s.setSub i b).ret t .closedUnexpectedly)
  | .subLock r => if b.locked then none else some ((s.setSub i { b with locked := true }).goto t (.check r))
  | .check r =>
    if b.state = .closed then
      if b.locked then some ((s.setSub i { b with locked := false }).ret t r) else some (s.crash .unlock)
    else if cfg.unsubTimeout then
      some { s with threads := s.threads.modify t fun th => { th with pc := .select, helper := .start } }
    else some (s.goto t .condWait)
  | .condWait =>
    if b.locked then
      some ((s.setSub i { b with tickets := b.tickets + 1, locked := false }).goto t (.asleep b.tickets))
    else some (s.crash .unlock)
  | .asleep k => if k < b.notified then some (s.goto t .relock) else none
  | .relock => if b.locked then none else some ((s.setSub i { b with locked := true }).goto t (.check .ok))
  | .select => if th.helper = .done then some (s.goto t (.check .ok)) else none
  | .timedOut => if b.state = .closed then some (s.ret t .unsubTimeout) else some (s.goto t .putTimeout)
  | .putTimeout =>
    if b.cClosed then some (s.crash .sendC)
    else if b.buf.length < 16 then
      some ((s.setSub i { b with buf := b.buf ++ [.unsubTimeout], got := b.got ++ [.unsubTimeout] }).ret t .unsubTimeout)
    else none
  | _ => none

/-- One step of caller `t` that needs no partner. -/
def thread (cfg : Cfg) (s : Sys) (t : Nat) : Option Sys :=
  match s.threads[t]? with
  | none => none
  | some th =>
    match th.pc with
    | .start => s.begin t th.call
    | .lock f => s.frameEnter t th.call f
    | .push r => s.push cfg t th.call r
    | .wait n => s.waitClosed t th.call n
    | .ret _ => none
    | _ =>
      match th.call with
      | .unsubscribe i _ =>
        match s.subs[i]? with
        | none => none
        | some b => s.unsub cfg t th i b
      | _ => none

/-- A timer that caller `t` is waiting for fires (`conn.go:586-587`, `conn.go:604-605`, `conn.go:667-668`,
`subscription.go:131-132`). -/
def timeout (cfg : Cfg) (s : Sys) (t : Nat) : Option Sys :=
  match s.threads[t]? with
  | none => none
  | some th =>
    match th.pc, th.call with
    | .push _, .send .. => if cfg.sendTimeout then some (s.unlock.ret t .sendTimeout) else none
    | .wait _, .send .. => if cfg.receiptTimeout then some (s.unlock.ret t .receiptTimeout) else none
    | .wait _, .disconnect =>
      if cfg.disconnectTimeout then some (s.markClosed.unlock.ret t .disconnectTimeout) else none
    | .wait _, .frame _ | .wait _, .unsubscribe .. =>
      if cfg.writeTimeout then some (s.frameDone t th.call .closedUnexpectedly) else none
    | .select, .unsubscribe .. => if cfg.unsubTimeout then some (s.goto t .timedOut) else none
    | _, _ => none

/-- One step of the goroutine started by `waitWithTimeout` for caller `t` (`subscription.go:124-127`). -/
def helper (s : Sys) (t : Nat) : Option Sys :=
  match s.threads[t]? with
  | none => none
  | some th =>
    match th.call with
    | .unsubscribe i _ =>
      match s.subs[i]? with
      | none => none
      | some b =>
        match th.helper with
        | .start =>
          if b.locked then
            some ((s.setSub i { b with tickets := b.tickets + 1, locked := false }).setHelper t (.asleep b.tickets))
          else some (s.crash .unlock)
        | .asleep k => if k < b.notified then some (s.setHelper t .relock) else none
        | .relock => if b.locked then none else some ((s.setSub i { b with locked := true }).setHelper t .done)
        | _ => none
    | _ => none

/-- The caller `t` receives `f` on its response channel (`conn.go:588-592` then `conn.go:494-505` or
`conn.go:562-565`; `conn.go:662-680`). `closeOk` is the outcome of `net.Conn.Close` in `Disconnect`. -/
def response (s : Sys) (t : Nat) (call : Call) (f : Frame) (closeOk : Bool) : Sys :=
  let r : Res := if f.command = Cmd.receipt then .ok else .response f
  match call with
  | .send .. => s.unlock.ret t r
  | .disconnect =>
    if r = .ok then s.markClosed.unlock.ret t (if closeOk then .ok else .closeError) else s.unlock.ret t r
  | _ => s.frameDone t call r

/-- `readLoop` of a subscription receives `f` (`subscription.go:184-228`). -/
def rlRecv (f : Frame) : RlPc :=
  if f.command = Cmd.message then .put (.msg f)
  else if f.command = Cmd.error then .check (some (.error f))
  else if f.command = Cmd.receipt then .check none
  else .recv

/-- `processLoop`'s `ch <- f` completes: the receiver of channel `n` gets `f`. `none`: no receiver is ready. -/
def handOver (s : Sys) (n : Nat) (f : Frame) (closeOk : Bool) : Option Sys :=
  match s.chans[n]? with
  | none => none
  | some ⟨.caller t, _⟩ =>
    match s.threads[t]? with
    | some th => if th.pc = .wait n then some (s.response t th.call f closeOk) else none
    | none => none
  | some ⟨.sub i, _⟩ =>
    match s.subs[i]? with
    | some b => if b.rl = .recv then some (s.setSub i { b with rl := rlRecv f }) else none
    | none => none

/-- `processLoop` at a `ch <- f` (`conn.go:363-369`, `conn.go:378-381`, `conn.go:393`, `conn.go:466-468`). -/
def deliver (s : Sys) (closeOk : Bool) : Option Sys :=
  match s.loop with
  | .receipt f id n =>
    if s.chanClosed n then some (s.crash .sendChan)
    else (s.handOver n f closeOk).map fun s => { s with channels := s.channels.del id, loop := .select }.closeChan n
  | .message f n =>
    if s.chanClosed n then some (s.crash .sendChan)
    else (s.handOver n f closeOk).map fun s => { s with loop := .select }
  | .errs f (n :: todo) =>
    if s.chanClosed n then some (s.crash .sendChan)
    else (s.handOver n f closeOk).map fun s => { s with loop := .errs f todo }.closeChan n
  | .fail f (n :: todo) =>
    if s.chanClosed n then some (s.crash .sendChan)
    else (s.handOver n f closeOk).map fun s => { s with loop := .fail f todo }
  | _ => none

/-- `processLoop` after the loop over the channels: `conn.go:383-388` followed by the deferred calls, or the
deferred `MustDisconnect` (`conn.go:314`, `conn.go:511-523`). -/
def finish (s : Sys) : Option Sys :=
  match s.loop with
  | .errs _ [] => if s.mutex.isSome then none else some { s with loop := .done }.markClosed
  | .fail _ [] =>
    if s.mutex.isSome then none
    else if s.closed then some { s with loop := .done }
    else if s.writeClosed then some (s.crash .closeWriteCh)
    else some { s with loop := .done, writeClosed := true }.markClosed
  | _ => none

/-- `sendError(channels, err)` begins, the map being iterated in the given order (`conn.go:464-469`). -/
def failWith (s : Sys) (text : Bytes) (order : List Nat) : Option Sys :=
  if order.isPerm (s.channels.map (·.2)) then some { s with loop := .fail (errFrame text) order } else none

/-- `case f, ok := <-c.readCh` (`conn.go:343-398`). -/
def loopRead (s : Sys) (order : List Nat) : Option Sys :=
  match s.readCh with
  | [] => if s.readDone then s.failWith b!"connection closed" order else none
  | none :: rest => some { s with readCh := rest, trace := s.trace ++ [.took none] }
  | some f :: rest =>
    let s' : Sys := { s with readCh := rest, trace := s.trace ++ [.took (some f)] }
    if f.command = Cmd.receipt then
      match f.header.contains Hdr.receiptId with
      | some id =>
        match s.channels.get? id with
        | some n => some { s' with loop := .receipt f id n }
        | none => some s'
      | none => s'.failWith b!"missing receipt-id" order
    else if f.command = Cmd.error then
      if order.isPerm (s.channels.map (·.2)) then some { s' with loop := .errs f order } else none
    else if f.command = Cmd.message then
      match f.header.contains Hdr.subscription with
      | some id =>
        match s.channels.get? id with
        | some n => some { s' with loop := .message f n }
        | none => some s'
      | none => some s'
    else some s'

/-- `case req, ok := <-c.writeCh` up to the write (`conn.go:400-449`): the state and the frame to be written. -/
def takeReq (s : Sys) (r : Req) (rest : List Req) : Sys × Option Frame :=
  let out := handleWrite s.channels r
  let s : Sys := { s with writeCh := rest, channels := out.1, trace := s.trace ++ [.taken r] }
  (match out.2.1 with
    | some n => s.closeChan n
    | none => s, out.2.2)

/-- `case req, ok := <-c.writeCh` (`conn.go:400-458`); `ok` is the outcome of `writer.Write` (a write on a
closed connection fails). The text of the write error is of no consequence. -/
def loopWrite (s : Sys) (ok : Bool) (order : List Nat) : Option Sys :=
  match s.writeCh with
  | [] => if s.writeClosed then s.failWith b!"write channel closed" order else none
  | r :: rest =>
    match s.takeReq r rest with
    | (s, none) => some s
    | (s, some f) =>
      if ok then if s.netClosed then none else some (s.log (.sent f))
      else (s.log (.failed f)).failWith b!"write error" order

/-- `case <-writeTimeoutChannel` (`conn.go:333-341`). -/
def loopBeat (cfg : Cfg) (s : Sys) (ok : Bool) (order : List Nat) : Option Sys :=
  if cfg.writeTimeout then
    if ok then if s.netClosed then none else some (s.log .beat)
    else s.failWith b!"write error" order
  else none

/-- One step of a subscription's `readLoop` that needs no partner (`subscription.go:172-230`). -/
def subStep (s : Sys) (i : Nat) : Option Sys :=
  match s.subs[i]? with
  | none => none
  | some b =>
    match b.rl with
    | .recv => if s.chanClosed b.chan then some (s.setSub i { b with rl := .check (some .readFailed) }) else none
    | .put m =>
      if b.cClosed then some (s.crash .sendC)
      else if b.buf.length < 16 then some (s.setSub i { b with buf := b.buf ++ [m], got := b.got ++ [m], rl := .recv })
      else none
    | .check m =>
      some (s.setSub i { b with rl := if b.state = .closed then .done else .closing (.enter m) })
    | .closing p =>
      match closeStep b p with
      | .blocked => none
      | .panic e => some (s.crash e)
      | .next b p => some (s.setSub i { b with rl := .closing p })
      | .fin b => some (s.setSub i { b with rl := .done })
    | .done => none

end Sys

/-- One step: of a caller (`thread`, `timeout`, `helper`), of `processLoop` (`loop…`, `deliver`, `finish`), of
`readLoop` (`net`, `netErr`), of a subscription's `readLoop` (`sub`), of the user (`call`, `take`: receive
from `C`), of other users of the id counter (`tick`). -/
inductive Ev
  | call (c : Call)
  | thread (t : Nat)
  | timeout (t : Nat)
  | helper (t : Nat)
  | net (f : Option Frame)
  | netErr
  | loopRead (order : List Nat)
  | loopWrite (ok : Bool) (order : List Nat)
  | loopBeat (ok : Bool) (order : List Nat)
  | loopTimeout (order : List Nat)
  | deliver (closeOk : Bool)
  | finish
  | sub (i : Nat)
  | take (i : Nat)
  | tick
  deriving DecidableEq, Repr

/-- Whether the user can make the call: the frames of `frame` are those of `rawCommands`, and `Unsubscribe`
needs a subscription that `Subscribe` has returned. -/
def Sys.legal (s : Sys) : Call → Bool
  | .frame f => f.command ∈ rawCommands
  | .unsubscribe i _ => (s.subs[i]?.map (·.returned)).getD false
  | _ => true

/-- The step function. `none`: the event cannot happen in this state. -/
def Sys.step (cfg : Cfg) (s : Sys) (e : Ev) : Option Sys :=
  if s.crashed.isSome then none
  else
    match e with
    | .call c =>
      if s.legal c then some { s with threads := s.threads ++ [{ call := c, pc := .start, helper := .none }] } else none
    | .thread t => s.thread cfg t
    | .timeout t => s.timeout cfg t
    | .helper t => s.helper t
    | .net f =>                                                   -- conn.go:290-302
      if s.readDone then none
      else if s.readCh.length < cfg.readCap then some ({ s with readCh := s.readCh ++ [f] }.log (.read f)) else none
    | .netErr => if s.readDone then none else some { s with readDone := true }
    | .loopRead order => if s.loop = .select then s.loopRead order else none
    | .loopWrite ok order => if s.loop = .select then s.loopWrite ok order else none
    | .loopBeat ok order => if s.loop = .select then s.loopBeat cfg ok order else none
    | .loopTimeout order =>                                       -- conn.go:327-331
      if s.loop = .select ∧ cfg.readTimeout then s.failWith b!"read timeout" order else none
    | .deliver closeOk => s.deliver closeOk
    | .finish => s.finish
    | .sub i => s.subStep i
    | .take i =>
      match s.subs[i]? with
      | some b =>
        match b.buf with
        | _ :: rest => some (s.setSub i { b with buf := rest })
        | [] => none
      | none => none
    | .tick => some { s with lastId := (allocateId s.lastId).1 }

def Sys.run (cfg : Cfg) (s : Sys) : List Ev → Option Sys
  | [] => some s
  | e :: es => (s.step cfg e).bind fun s => s.run cfg es

end Stomp.Client
