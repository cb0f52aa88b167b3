import Verif.Model.Server.SubscriptionList
import Verif.Model.Server.TxStore
import Verif.Model.Server.Version
/-!
# One server connection: `server/client/conn.go`

The process loop of a connection as a state machine. One step takes one message from one of the channels the
loop selects on (`conn.go:201-324`), or one step of the clean-up (`conn.go:331-405`). Sends to the shared
request channel can block; they are collected in `outbox` in program order and leave one at a time by `flushed`;
until the outbox is empty the loop does nothing else. Between two such sends the loop only touches
connection-local data, which nobody else reads, so nothing is lost by computing it in one go. A panic is an item
of the outbox as well: the process dies when the loop gets there.

Simplifications: time is not modelled here, see `Model/Server/Timer` (the heart-beat timer may fire whenever a timeout is set; the one second
sleep after failed authentication has no effect); logging is left out; the validator is always the null
validator (`validator.go`), so validation never fails; a write either succeeds or fails for good (bufio's errors are
sticky; the bytes are the subject of C49). `SendError` (`conn.go:80-83`) has no callers in the server.
-/
namespace Stomp.Server
open Stomp

/-- A successful write to the network (ghost log). `none` is a heart-beat. -/
structure Wr where
  frame : Option Frame
  tag : Option Tag := none
  deriving DecidableEq, Repr

/-- An item of the outbox. -/
inductive Out
  | req (r : Req)
  | panic
  deriving DecidableEq, Repr

/-- Where the process loop is: running, or in `cleanupConn` (`conn.go:331-370`): first discard, unsubscribing,
emptying the ack list, discard, emptying the subscription channel, announcing the disconnect, discard, emptying
the subscription channel, closed. -/
inductive Stage
  | run | discard1 | unsub | acklist | discard2 | drain1 | announce | discard3 | drain2 | closed
  deriving DecidableEq, Repr

/-- `Conn` (`server/client/conn.go:25-43`). `me` is the identity of the connection, `heap` its subscription
objects. `inq` is `readChannel`, `readDone` says that the read loop has closed it. The fields from `out` on are ghost
logs: what was written to the network, the frames handled so far, the SEND/ACK/NACK frames that took effect, the
requests issued, and the tags of messages acknowledged, written to an auto-ack subscriber, or lost in a failed
write or when the process dies. -/
structure Conn where
  me : Nat
  connected : Bool := false
  version : Bytes := []
  writeTimeout : Nat := 0
  tx : TxStore := []
  lastMsgId : Nat := 0
  subList : List Nat := []
  subs : AMap Nat := []
  heap : List Sub := []
  subCh : List Nat := []
  writeCh : List Msg := []
  inq : List Frame := []
  readDone : Bool := false
  stage : Stage := .run
  outbox : List Out := []
  wfail : Bool := false
  out : List Wr := []
  hist : List Frame := []
  effective : List Frame := []
  log : List Req := []
  sent : Nat := 0
  acked : List Tag := []
  autoDone : List Tag := []
  lost : List Tag := []
  deriving DecidableEq, Repr

/-- `maxPendingWrites`, `maxPendingReads` (`conn.go:18,22`). -/
def maxPending : Nat := 16

/-- Outcome of a handler. -/
inductive Res
  | ok
  | err (e : Err)
  | panic
  deriving DecidableEq, Repr

namespace Conn

/-- `c.writer.Write` / `sendImmediately` (`conn.go:108-110`). -/
def write (c : Conn) (ok : Bool) (f : Option Frame) (tag : Option Tag := none) : Conn × Bool :=
  if ok && !c.wfail then ({ c with out := c.out ++ [⟨f, tag⟩] }, true)
  else ({ c with wfail := true }, false)

/-- `c.requestChannel <- r` for each `r`, in order. -/
def emit (c : Conn) (rs : List Req) : Conn :=
  { c with outbox := c.outbox ++ rs.map .req, log := c.log ++ rs }

/-- `sendErrorImmediately` (`conn.go:89-104`). -/
def sendError (cfg : Config) (c : Conn) (ok : Bool) (e : Err) (f : Frame) : Conn :=
  let ef := Frame.new Cmd.error [(Hdr.message, e.text cfg)]
  let ef := match f.header.contains Hdr.receipt with
    | some r => { ef with header := ef.header.add Hdr.receiptId r }
    | none => ef
  (c.write ok (some ef)).1

/-- `sendReceiptImmediately` (`conn.go:539-551`): also returns the frame without its receipt header, and whether
the write succeeded. -/
def sendReceipt (c : Conn) (ok : Bool) (f : Frame) : Conn × Frame × Bool :=
  match f.header.contains Hdr.receipt with
  | some r =>
    let (c, k) := c.write ok (some (Frame.new Cmd.receipt [(Hdr.receiptId, r)]))
    (c, { f with header := f.header.del Hdr.receipt }, k)
  | none => (c, f, true)

/-- `allocateMessageId` (`conn.go:408-424`); `ack` is the ack mode of the subscription, `none` for topics. -/
def allocateMessageId (c : Conn) (f : Frame) (ack : Option Bytes) : Conn × Frame :=
  if f.command = Cmd.message ∨ f.command = Cmd.ack then
    let n := (c.lastMsgId + 1) % 2 ^ 64
    let h := (f.header.set Hdr.messageId (fmtUint n)).set Hdr.id (fmtUint n)
    let h := match ack with
      | none => h.del Hdr.ack
      | some a => if a = ackAuto then h.del Hdr.ack else h.set Hdr.ack (fmtUint n)
    ({ c with lastMsgId := n }, { f with header := h })
  else (c, f)

/-- "apply a minimum heartbeat" (`conn.go:511-516`, `168-170`). -/
def raise (x : Nat) (min : Int) : Nat := if 0 < x ∧ (x : Int) < min then min.toNat else x

/-- `handleConnect` (`conn.go:465-534`). -/
def handleConnect (cfg : Config) (c : Conn) (ok : Bool) (f : Frame) : Conn × Frame × Res :=
  match f.header.contains Hdr.receipt with
  | some _ => (c, f, .err .receiptInConnect)
  | none =>
    if !cfg.auth (f.header.get Hdr.login) (f.header.get Hdr.passcode) then (c, f, .err .authenticationFailed)
    else
      match determineVersion f with
      | .error e => (c, f, .err e)
      | .ok v =>
        let c := { c with version := v }
        if v = Client.V10 then (c, f, .err .unsupportedVersion)
        else
          match getHeartBeat f with
          | .error .invalidOperationForFrame => (c, f, .err .invalidOperationForFrame)
          | .error .invalidHeartBeat => (c, f, .err .invalidHeartBeat)
          | .ok (cx, cy) =>
            let min := asMilliseconds cfg.heartBeat maxHeartBeat
            let cx := raise cx min
            let cy := raise cy min
            let c := { c with writeTimeout := cy }
            let (c, _) := c.write ok (some (Frame.new Cmd.connected
              [(Hdr.version, v), (Hdr.server, b!"stompd/x.y.z"), (Hdr.heartBeat, fmtUint cy ++ b!"," ++ fmtUint cx)]))
            (({ c with connected := true } : Conn).emit [.connected c.me], f, .ok)

/-- `connecting` (`conn.go:427-433`). -/
def connecting (cfg : Config) (c : Conn) (ok : Bool) (f : Frame) : Conn × Frame × Res :=
  if f.command = Cmd.connect ∨ f.command = Cmd.stomp then handleConnect cfg c ok f
  else (c, f, .err .notConnected)

/-- `handleDisconnect` (`conn.go:553-561`). -/
def handleDisconnect (c : Conn) (ok : Bool) (f : Frame) : Conn × Frame × Res :=
  let (c, f, _) := c.sendReceipt ok f
  (c, f, .ok)

/-- `handleBegin` (`conn.go:563-576`). -/
def handleBegin (c : Conn) (ok : Bool) (f : Frame) : Conn × Frame × Res :=
  match f.header.contains Hdr.transaction with
  | none => (c, f, .err (.missingHeader Hdr.transaction))
  | some t =>
    let (c, f, k) := c.sendReceipt ok f
    if !k then (c, f, .err .write)
    else
      match c.tx.begin t with
      | none => (c, f, .err .txAlreadyInProgress)
      | some tx => ({ c with tx := tx }, f, .ok)

/-- `handleAbort` (`conn.go:597-609`). -/
def handleAbort (c : Conn) (ok : Bool) (f : Frame) : Conn × Frame × Res :=
  match f.header.contains Hdr.transaction with
  | none => (c, f, .err (.missingHeader Hdr.transaction))
  | some t =>
    let (c, f, k) := c.sendReceipt ok f
    if !k then (c, f, .err .write)
    else
      match c.tx.abort t with
      | none => (c, f, .err .txUnknown)
      | some tx => ({ c with tx := tx }, f, .ok)

/-- `handleSubscribe` (`conn.go:611-638`). -/
def handleSubscribe (c : Conn) (f : Frame) : Conn × Frame × Res :=
  match f.header.contains Hdr.id with
  | none => (c, f, .err (.missingHeader Hdr.id))
  | some id =>
    match f.header.contains Hdr.destination with
    | none => (c, f, .err (.missingHeader Hdr.destination))
    | some dest =>
      let ack := (f.header.contains Hdr.ack).getD ackAuto
      match c.subs.get? id with
      | some _ => (c, f, .err .subscriptionExists)
      | none =>
        let i := c.heap.length
        (({ c with heap := c.heap ++ [newSubscription dest id ack], subs := c.subs.set id i } : Conn).emit
          [.subscribe ⟨c.me, i⟩], f, .ok)

/-- `handleUnsubscribe` (`conn.go:640-657`). -/
def handleUnsubscribe (c : Conn) (f : Frame) : Conn × Frame × Res :=
  match f.header.contains Hdr.id with
  | none => (c, f, .err (.missingHeader Hdr.id))
  | some id =>
    match c.subs.get? id with
    | none => (c, f, .err .subscriptionNotFound)
    | some i => (({ c with subs := c.subs.del id } : Conn).emit [.unsubscribe ⟨c.me, i⟩], f, .ok)

/-- The message id an ACK or NACK is about (`conn.go:663-673`, `706-716`). -/
def ackId (f : Frame) : Except Err Nat :=
  match (match f.header.contains Hdr.ack with
    | some a => some a
    | none => f.header.contains Hdr.messageId) with
  | none => .error (.missingHeader Hdr.messageId)
  | some s =>
    match parseUint 64 s with
    | none => .error (.parse s)
    | some n => .ok n

/-- Assignments `sub.frame = nil` for the listed subscriptions. -/
def clearFrames (heap : List Sub) (l : List Nat) : List Sub :=
  l.foldl (fun h i => h.modify i (fun s => { s with frame := none })) heap

/-- The tags of the frames held by the listed subscriptions. -/
def frameTags (heap : List Sub) (l : List Nat) : List Tag :=
  l.filterMap (fun i => (deref heap i).frame.map (·.tag))

/-- The effect of an ACK outside a transaction (`conn.go:688-696`). -/
def applyAck (c : Conn) (n : Nat) : Conn × Res :=
  let (kept, acked, p) := ackLoop c.heap n c.subList
  let c' := ({ c with subList := kept, heap := clearFrames c.heap acked,
                      acked := c.acked ++ frameTags c.heap acked } : Conn).emit
    (acked.map (fun i => .subscribe ⟨c.me, i⟩))
  (c', if p then .panic else .ok)

/-- `handleAck` (`conn.go:659-700`). -/
def handleAck (c : Conn) (ok : Bool) (f : Frame) : Conn × Frame × Res :=
  match ackId f with
  | .error e => (c, f, .err e)
  | .ok n =>
    let (c, f, k) := c.sendReceipt ok f
    if !k then (c, f, .err .write)
    else
      match f.header.contains Hdr.transaction with
      | some t =>
        match c.tx.add t f with
        | none => (c, f, .err .txUnknown)
        | some tx => ({ c with tx := tx }, f, .ok)
      | none =>
        let (c, r) := ({ c with effective := c.effective ++ [f] } : Conn).applyAck n
        (c, f, r)

/-- The effect of a NACK outside a transaction (`conn.go:731-742`). -/
def applyNack (c : Conn) (n : Nat) : Conn :=
  let (kept, nacked) := nackLoop c.heap n c.subList
  ({ c with subList := kept, heap := clearFrames c.heap nacked } : Conn).emit
    (nacked.flatMap (fun i => [.requeue (deref c.heap i).frame, .subscribe ⟨c.me, i⟩]))

/-- `handleNack` (`conn.go:702-745`). -/
def handleNack (c : Conn) (ok : Bool) (f : Frame) : Conn × Frame × Res :=
  match ackId f with
  | .error e => (c, f, .err e)
  | .ok n =>
    let (c, f, k) := c.sendReceipt ok f
    if !k then (c, f, .err .write)
    else
      match f.header.contains Hdr.transaction with
      | some t =>
        match c.tx.add t f with
        | none => (c, f, .err .txUnknown)
        | some tx => ({ c with tx := tx }, f, .ok)
      | none =>
        (({ c with effective := c.effective ++ [f] } : Conn).applyNack n, f, .ok)

/-- `handleSend` (`conn.go:750-771`). -/
def handleSend (c : Conn) (ok : Bool) (f : Frame) : Conn × Frame × Res :=
  let (c, f, k) := c.sendReceipt ok f
  if !k then (c, f, .err .write)
  else
    match f.header.contains Hdr.transaction with
    | some t =>
      match c.tx.add t f with
      | none => (c, f, .err .txUnknown)
      | some tx => ({ c with tx := tx }, f, .ok)
    | none =>
      let m : Msg := ⟨⟨c.me, c.sent⟩, { f with command := Cmd.message }⟩
      (({ c with sent := c.sent + 1, effective := c.effective ++ [f] } : Conn).emit [.enqueue m], f, .ok)

/-- `connected` (`conn.go:436-463`) for all commands but COMMIT. -/
def connectedBasic (c : Conn) (ok : Bool) (f : Frame) : Conn × Frame × Res :=
  if f.command = Cmd.connect ∨ f.command = Cmd.stomp then (c, f, .err .unexpectedCommand)
  else if f.command = Cmd.disconnect then handleDisconnect c ok f
  else if f.command = Cmd.begin_ then handleBegin c ok f
  else if f.command = Cmd.abort then handleAbort c ok f
  else if f.command = Cmd.send then handleSend c ok f
  else if f.command = Cmd.subscribe then handleSubscribe c f
  else if f.command = Cmd.unsubscribe then handleUnsubscribe c f
  else if f.command = Cmd.ack then handleAck c ok f
  else if f.command = Cmd.nack then handleNack c ok f
  else if f.command = Cmd.message ∨ f.command = Cmd.receipt ∨ f.command = Cmd.error then
    (c, f, .err .unexpectedCommand)
  else (c, f, .err .unknownCommand)

/-- The loop of `txStore.Commit` (`server/client/tx_store.go:46-51`) with the callback of `handleCommit`
(`conn.go:587-592`). A transaction holds SEND, ACK and NACK frames only, so COMMIT does not recur. -/
def commitLoop (c : Conn) (ok : Bool) : List Frame → Conn × Res
  | [] => (c, .ok)
  | f :: fs =>
    match connectedBasic c ok f with
    | (c, _, .ok) => commitLoop c ok fs
    | (c, _, r) => (c, r)

/-- `handleCommit` (`conn.go:578-595`). On an error the store is cleared by the clean-up that follows. -/
def handleCommit (c : Conn) (ok : Bool) (f : Frame) : Conn × Frame × Res :=
  match f.header.contains Hdr.transaction with
  | none => (c, f, .err (.missingHeader Hdr.transaction))
  | some t =>
    let (c, f, k) := c.sendReceipt ok f
    if !k then (c, f, .err .write)
    else
      match c.tx.commit t with
      | none => (c, f, .err .txUnknown)
      | some (fs, tx) =>
        let (c, r) := commitLoop c ok fs
        ({ c with tx := tx }, f, r)

/-- `c.stateFunc(c, f)` (`conn.go:258`). -/
def stateFunc (cfg : Config) (c : Conn) (ok : Bool) (f : Frame) : Conn × Frame × Res :=
  if !c.connected then connecting cfg c ok f
  else if f.command = Cmd.commit then handleCommit c ok f
  else connectedBasic c ok f

/-- Leaving the loop: `cleanupConn` starts (`conn.go:188`, `331-333`). -/
def startCleanup (c : Conn) : Conn := { c with stage := .discard1, tx := [] }

/-- The readChannel case for a frame (`conn.go:237-262`). `ok1` and `ok2` say whether a RECEIPT or CONNECTED
write and the ERROR write succeed. -/
def processFrame (cfg : Config) (c : Conn) (ok1 ok2 : Bool) (f : Frame) : Conn :=
  match ({ c with hist := c.hist ++ [f] } : Conn).stateFunc cfg ok1 f with
  | (c, _, .ok) => c
  | (c, _, .panic) => { c with outbox := c.outbox ++ [.panic] }
  | (c, f', .err e) => (c.sendError cfg ok2 e f').startCleanup

/-- The writeChannel case (`conn.go:202-235`). -/
def processWrite (c : Conn) (ok : Bool) (m : Msg) : Conn :=
  let (c, f) := c.allocateMessageId m.frame none
  let (c, k) := c.write ok (some f) (some m.tag)
  if !k then c.startCleanup
  else if f.command = Cmd.error then c.startCleanup
  else c

/-- The subChannel case (`conn.go:264-311`). A nil frame pointer is dereferenced in `allocateMessageId`. -/
def processSub (c : Conn) (ok : Bool) (i : Nat) : Conn :=
  let s := deref c.heap i
  match c.subs.get? s.id with
  | none => c.emit [.requeue s.frame]
  | some _ =>
    match s.frame with
    | none => { c with outbox := c.outbox ++ [.panic] }
    | some m =>
      let (c, f) := c.allocateMessageId m.frame (some s.ack)
      let c := { c with heap := c.heap.modify i (fun s => { s with frame := some { m with frame := f } }) }
      let (c, k) := c.write ok (some f) (some m.tag)
      if !k then ({ c with lost := c.lost ++ [m.tag] } : Conn).startCleanup
      else if s.ack = ackAuto then
        ({ c with heap := c.heap.modify i (fun s => { s with frame := none }),
                  autoDone := c.autoDone ++ [m.tag] } : Conn).emit [.subscribe ⟨c.me, i⟩]
      else if s.inList then { c with outbox := c.outbox ++ [.panic], lost := c.lost ++ [m.tag] }     -- SubscriptionList.Add panics
      else { c with heap := c.heap.modify i (fun s => { s with inList := true }), subList := c.subList ++ [i] }

/-- The heart-beat case (`conn.go:313-323`). -/
def processTimer (c : Conn) (ok : Bool) : Conn :=
  let (c, k) := c.write ok none
  if !k then c.startCleanup else c

/-- One step of `discardWriteChannelFrames` (`conn.go:375-387`). -/
def discardStep (c : Conn) (next : Stage) : Conn :=
  match c.writeCh with
  | _ :: w => { c with writeCh := w }
  | [] => { c with stage := next }

/-- One step of `cleanupSubChannel` (`conn.go:389-405`). -/
def drainStep (c : Conn) (next : Stage) : Conn :=
  match c.subCh with
  | i :: l => ({ c with subCh := l } : Conn).emit [.requeue (deref c.heap i).frame]
  | [] => { c with stage := next }

/-- One step of `cleanupConn` (`conn.go:331-370`), except the iteration over the map of subscriptions. -/
def cleanStep (c : Conn) : Option Conn :=
  match c.stage with
  | .discard1 => some (c.discardStep .unsub)
  | .acklist =>
    some (({ c with subList := [], stage := .discard2,
                    heap := c.subList.foldl (fun h i => h.modify i (fun s => { s with inList := false })) c.heap } :
              Conn).emit (c.subList.map (fun i => .requeue (deref c.heap i).frame)))
  | .discard2 => some (c.discardStep .drain1)
  | .drain1 => some (c.drainStep .announce)
  | .announce => some (({ c with stage := .discard3 } : Conn).emit [.disconnected c.me])
  | .discard3 => some (c.discardStep .drain2)
  | .drain2 => some (c.drainStep .closed)
  | _ => none

/-- What can happen at a connection. First the steps of its own goroutines: the read loop puts a frame into the
read channel or closes it (`conn.go:117-183`), the process loop selects a case (with the outcome of the writes)
or goes on with the clean-up (with the iteration order of the map). Then what its environment, the request
processor, does to it: it accepts the first pending request, it stores a frame in a subscription, it changes the list
membership of a subscription, it pushes a subscription or a topic frame into the channels. -/
inductive Ev
  | recv (f : Frame)
  | readErr
  | frame (ok1 ok2 : Bool)
  | readClosed
  | wr (ok : Bool)
  | sub (ok : Bool)
  | timer (ok : Bool)
  | clean
  | cleanUnsub (order : List Nat)
  | flushed
  | setFrame (i : Nat) (m : Msg)
  | setInList (i : Nat) (b : Bool)
  | pushSub (i : Nat)
  | pushTopic (m : Msg)
  deriving DecidableEq, Repr

/-- Is the process loop at its `select`? -/
def atSelect (c : Conn) : Bool := decide (c.stage = .run) && c.outbox.isEmpty

/-- One step; `none` means the event cannot happen now. -/
def step (cfg : Config) (c : Conn) : Ev → Option Conn
  | .recv f => if !c.readDone && decide (c.inq.length < maxPending) then some { c with inq := c.inq ++ [f] } else none
  | .readErr => if !c.readDone then some { c with readDone := true } else none
  | .frame ok1 ok2 =>
    if c.atSelect then
      match c.inq with
      | f :: q => some (({ c with inq := q } : Conn).processFrame cfg ok1 ok2 f)
      | [] => none
    else none
  | .readClosed => if c.atSelect && c.inq.isEmpty && c.readDone then some c.startCleanup else none
  | .wr ok =>
    if c.atSelect then
      match c.writeCh with
      | m :: w => some (({ c with writeCh := w } : Conn).processWrite ok m)
      | [] => none
    else none
  | .sub ok =>
    if c.atSelect then
      match c.subCh with
      | i :: l => some (({ c with subCh := l } : Conn).processSub ok i)
      | [] => none
    else none
  | .timer ok => if c.atSelect && decide (0 < c.writeTimeout) then some (c.processTimer ok) else none
  | .clean => if c.outbox.isEmpty then c.cleanStep else none
  | .cleanUnsub order =>
    if c.outbox.isEmpty && decide (c.stage = .unsub) && order.isPerm (c.subs.map (·.2)) then
      some (({ c with subs := [], stage := .acklist } : Conn).emit (order.map (fun i => .unsubscribe ⟨c.me, i⟩)))
    else none
  | .flushed =>
    match c.outbox with
    | .req _ :: o => some { c with outbox := o }
    | _ => none
  | .setFrame i m => some { c with heap := c.heap.modify i (fun s => { s with frame := some m }) }
  | .setInList i b => some { c with heap := c.heap.modify i (fun s => { s with inList := b }) }
  | .pushSub i => if c.subCh.length < maxPending then some { c with subCh := c.subCh ++ [i] } else none
  | .pushTopic m => if c.writeCh.length < maxPending then some { c with writeCh := c.writeCh ++ [m] } else none

/-- `NewConn` (`conn.go:50-66`). -/
def init (me : Nat) : Conn := { me := me }

/-- A run of a connection in an arbitrary environment. -/
def run (cfg : Config) : Conn → List Ev → Option Conn
  | c, [] => some c
  | c, e :: es =>
    match c.step cfg e with
    | none => none
    | some c => run cfg c es

end Conn
end Stomp.Server
