import Verif.Proofs.Server.Connect
import Verif.Proofs.Server.Handlers
/-! # Invariants of a server connection: transactions hold stored frames; nothing happens before the handshake -/
namespace Stomp.Server
open Stomp

theorem TxOk.of_eq {c c' : Conn} (h : TxOk c) (e : c'.tx = c.tx) : TxOk c' := by
  unfold TxOk at *; rw [e]; exact h

theorem TxOk.nil {c : Conn} (e : c.tx = []) : TxOk c := by
  unfold TxOk; rw [e]; intro t l h; simp [AMap.get?] at h

theorem Applied.tx {c : Conn} {f : Frame} {c' : Conn} {r : Res} (h : Applied c f c' r) : c'.tx = c.tx := by
  cases h <;> rfl

theorem txOk_del {c : Conn} (t : Bytes) (h : TxOk c) {c' : Conn} (e : c'.tx = c.tx.del t) : TxOk c' := by
  unfold TxOk at *
  rw [e]
  intro t' l hl
  rw [AMap.get?_del] at hl
  split at hl
  · cases hl
  · exact h t' l hl

theorem Basic.txOk {c : Conn} {ok : Bool} {f : Frame} {c' : Conn} {f' : Frame} {r : Res} (h : Basic c ok f c' f' r)
    (htx : TxOk c) : TxOk c' := by
  cases h with
  | unexpected => exact htx
  | refused => exact htx
  | disconnect _ hr => exact htx.of_eq hr.tx
  | writeFail _ hr => exact htx.of_eq hr.tx
  | txErr _ _ _ _ _ hr => exact htx.of_eq hr.tx
  | begin_ t _ _ _ hr =>
    intro t' l hl
    rw [AMap.get?_set] at hl
    split at hl
    · injection hl with hl; subst hl; simp
    · exact htx t' l hl
  | abort t _ _ _ _ hr => exact txOk_del t htx rfl
  | store t ht hc hid l hl hr =>
    intro t' l' hl'
    rw [AMap.get?_set] at hl'
    split at hl'
    · injection hl' with hl'; subst hl'
      intro g hg
      rcases List.mem_append.1 hg with hg | hg
      · exact htx t l hl g hg
      · rw [List.mem_singleton] at hg; subst hg; exact stored_of_store hr hc hid
    · exact htx t' l' hl'
  | subscribe => exact htx
  | unsubscribe => exact htx
  | send _ _ hr => exact htx.of_eq hr.tx
  | ack _ _ _ _ hr => exact htx.of_eq hr.tx
  | nack _ _ _ _ hr => exact htx.of_eq hr.tx

theorem Handled.txOk {c : Conn} {ok : Bool} {f : Frame} {c' : Conn} {f' : Frame} {r : Res} (h : Handled c ok f c' f' r)
    (htx : TxOk c) : TxOk c' := by
  cases h with
  | basic _ h => exact h.txOk htx
  | commitMissing => exact htx
  | commitWrite _ _ _ hr => exact htx.of_eq hr.tx
  | commitUnknown _ _ _ _ hr => exact htx.of_eq hr.tx
  | commit _ t _ _ _ hr h => exact txOk_del t htx rfl

/-- The invariant. -/
structure Gate (cfg : Config) (c : Conn) : Prop where
  tx : TxOk c
  closed : c.connected = false → c.subs = [] ∧ c.heap = [] ∧ c.tx = [] ∧ c.effective = [] ∧ c.subList = [] ∧ c.sent = 0 ∧
    (∀ r ∈ c.log, r = .requeue none ∨ r = .disconnected c.me) ∧
    (c.hist = [] ∨ (∃ f, c.hist = [f] ∧ ¬∃ v cx cy, Accepts cfg f v cx cy) ∧ c.stage ≠ .run)
  opened : c.connected = true → ∃ f rest v cx cy, c.hist = f :: rest ∧ Accepts cfg f v cx cy ∧ c.version = v

theorem Conn.write_cases (c : Conn) (ok : Bool) (f : Option Frame) (tag : Option Tag) :
    (ok = true ∧ c.wfail = false ∧ c.write ok f tag = ({ c with out := c.out ++ [⟨f, tag⟩] }, true)) ∨
    ((ok = false ∨ c.wfail = true) ∧ c.write ok f tag = ({ c with wfail := true }, false)) := by
  unfold Conn.write
  by_cases hw : (ok && !c.wfail) = true
  · rw [if_pos hw]
    simp only [Bool.and_eq_true, Bool.not_eq_true'] at hw
    exact Or.inl ⟨hw.1, hw.2, rfl⟩
  · rw [if_neg hw]
    right
    refine ⟨?_, rfl⟩
    cases ok <;> cases hh : c.wfail <;> simp_all

/-- The ERROR frame of an error. -/
def errorFrame (cfg : Config) (e : Err) (f : Frame) : Frame :=
  ⟨b!"ERROR", (b!"message", e.text cfg) :: (match f.header.contains Hdr.receipt with
    | some r => [(b!"receipt-id", r)]
    | none => []), []⟩

theorem sendError_cases (cfg : Config) (c : Conn) (ok : Bool) (e : Err) (f : Frame) :
    (ok = true ∧ c.wfail = false ∧ c.sendError cfg ok e f = { c with out := c.out ++ [⟨some (errorFrame cfg e f), none⟩] }) ∨
    ((ok = false ∨ c.wfail = true) ∧ c.sendError cfg ok e f = { c with wfail := true }) := by
  unfold Conn.sendError
  dsimp only
  cases hr : f.header.contains Hdr.receipt with
  | none =>
    dsimp only
    rcases Conn.write_cases c ok (some (Frame.new Cmd.error [(Hdr.message, e.text cfg)])) none with ⟨h1, h2, h3⟩ | ⟨h1, h3⟩
    · left; refine ⟨h1, h2, ?_⟩; rw [h3]; simp only [errorFrame, hr]; rfl
    · right; refine ⟨h1, ?_⟩; rw [h3]
  | some r =>
    dsimp only
    rcases Conn.write_cases c ok (some ({ Frame.new Cmd.error [(Hdr.message, e.text cfg)] with
      header := (Frame.new Cmd.error [(Hdr.message, e.text cfg)]).header.add Hdr.receiptId r })) none with ⟨h1, h2, h3⟩ | ⟨h1, h3⟩
    · left; refine ⟨h1, h2, ?_⟩; rw [h3]; simp only [errorFrame, hr]; rfl
    · right; refine ⟨h1, ?_⟩; rw [h3]

/-- What is done with the outcome of the state function. -/
inductive Fin (cfg : Config) (c : Conn) (ok2 : Bool) (f' : Frame) : Res → Conn → Prop
  | ok : Fin cfg c ok2 f' .ok c
  | panic : Fin cfg c ok2 f' .panic { c with outbox := c.outbox ++ [.panic] }
  | err (e : Err) (hok : ok2 = true) (hw : c.wfail = false) :
      Fin cfg c ok2 f' (.err e) { c with out := c.out ++ [⟨some (errorFrame cfg e f'), none⟩], stage := .discard1, tx := [] }
  | errFail (e : Err) (hw : ok2 = false ∨ c.wfail = true) :
      Fin cfg c ok2 f' (.err e) { c with wfail := true, stage := .discard1, tx := [] }

theorem fin (cfg : Config) (c : Conn) (ok2 : Bool) (f' : Frame) (r : Res) :
    Fin cfg c ok2 f' r (match (c, f', r) with
      | (c, _, .ok) => c
      | (c, _, .panic) => { c with outbox := c.outbox ++ [.panic] }
      | (c, f', .err e) => (c.sendError cfg ok2 e f').startCleanup) := by
  cases r with
  | ok => exact Fin.ok
  | panic => exact Fin.panic
  | err e =>
    dsimp only
    rcases sendError_cases cfg c ok2 e f' with ⟨h1, h2, h3⟩ | ⟨h1, h3⟩
    · rw [h3]; exact Fin.err e h1 h2
    · rw [h3]; exact Fin.errFail e h1

/-- All outcomes of the processing of a frame. -/
theorem processFrame_cases (cfg : Config) (c : Conn) (ok1 ok2 : Bool) (f : Frame) :
    ∃ c' f' r, ({ c with hist := c.hist ++ [f] } : Conn).stateFunc cfg ok1 f = (c', f', r) ∧
      Fin cfg c' ok2 f' r (c.processFrame cfg ok1 ok2 f) := by
  unfold Conn.processFrame
  generalize ({ c with hist := c.hist ++ [f] } : Conn).stateFunc cfg ok1 f = x
  obtain ⟨c', f', r⟩ := x
  exact ⟨c', f', r, rfl, fin cfg c' ok2 f' r⟩

/-- The next message id, if the frame gets one. -/
def allocNext (n : Nat) (f : Frame) : Nat :=
  if f.command = Cmd.message ∨ f.command = Cmd.ack then (n + 1) % 2 ^ 64 else n

/-- The frame with its message id. -/
def allocFrame (n : Nat) (f : Frame) (ack : Option Bytes) : Frame :=
  if f.command = Cmd.message ∨ f.command = Cmd.ack then
    let h := (f.header.set Hdr.messageId (fmtUint ((n + 1) % 2 ^ 64))).set Hdr.id (fmtUint ((n + 1) % 2 ^ 64))
    { f with header := match ack with
      | none => h.del Hdr.ack
      | some a => if a = ackAuto then h.del Hdr.ack else h.set Hdr.ack (fmtUint ((n + 1) % 2 ^ 64)) }
  else f

theorem alloc_eq (c : Conn) (f : Frame) (a : Option Bytes) :
    c.allocateMessageId f a = ({ c with lastMsgId := allocNext c.lastMsgId f }, allocFrame c.lastMsgId f a) := by
  unfold allocFrame allocNext Conn.allocateMessageId
  split
  · cases a <;> rfl
  · rfl

theorem allocFrame_command (n : Nat) (f : Frame) (a : Option Bytes) : (allocFrame n f a).command = f.command := by
  unfold allocFrame
  split <;> rfl

theorem allocFrame_body (n : Nat) (f : Frame) (a : Option Bytes) : (allocFrame n f a).body = f.body := by
  unfold allocFrame
  split <;> rfl

/-- Assignment `sub.frame = m`. -/
def putFrame (heap : List Sub) (i : Nat) (m : Option Msg) : List Sub := heap.modify i (fun s => { s with frame := m })

/-- Assignment to `sub.subList`. -/
def putInList (heap : List Sub) (i : Nat) (b : Bool) : List Sub := heap.modify i (fun s => { s with inList := b })

/-- The message as it is written to a subscriber: with message id. -/
def Msg.alloc (m : Msg) (n : Nat) (a : Option Bytes) : Msg := { m with frame := allocFrame n m.frame a }

/-- All steps of a connection, with explicit results. -/
inductive Step (cfg : Config) (c : Conn) : Conn.Ev → Conn → Prop
  | recv (f : Frame) (hd : c.readDone = false) (hl : c.inq.length < 16) : Step cfg c (.recv f) { c with inq := c.inq ++ [f] }
  | readErr (hd : c.readDone = false) : Step cfg c .readErr { c with readDone := true }
  | frame (ok1 ok2 : Bool) (f : Frame) (q : List Frame) (c' c'' : Conn) (f' : Frame) (r : Res) (ha : c.atSelect = true)
      (hq : c.inq = f :: q)
      (hs : ({ c with inq := q, hist := c.hist ++ [f] } : Conn).stateFunc cfg ok1 f = (c', f', r))
      (hf : Fin cfg c' ok2 f' r c'') : Step cfg c (.frame ok1 ok2) c''
  | readClosed (ha : c.atSelect = true) (hq : c.inq = []) (hd : c.readDone = true) :
      Step cfg c .readClosed { c with stage := .discard1, tx := [] }
  | wrOk (m : Msg) (w : List Msg) (ha : c.atSelect = true) (hw : c.writeCh = m :: w) (hwf : c.wfail = false)
      (hc : m.frame.command ≠ Cmd.error) :
      Step cfg c (.wr true) { c with writeCh := w, lastMsgId := allocNext c.lastMsgId m.frame,
                                     out := c.out ++ [⟨some (m.alloc c.lastMsgId none).frame, some m.tag⟩] }
  | wrErr (m : Msg) (w : List Msg) (ha : c.atSelect = true) (hw : c.writeCh = m :: w) (hwf : c.wfail = false)
      (hc : m.frame.command = Cmd.error) :
      Step cfg c (.wr true) { c with writeCh := w, lastMsgId := allocNext c.lastMsgId m.frame,
                                     out := c.out ++ [⟨some (m.alloc c.lastMsgId none).frame, some m.tag⟩],
                                     stage := .discard1, tx := [] }
  | wrFail (ok : Bool) (m : Msg) (w : List Msg) (ha : c.atSelect = true) (hw : c.writeCh = m :: w)
      (hwf : ok = false ∨ c.wfail = true) :
      Step cfg c (.wr ok) { c with writeCh := w, lastMsgId := allocNext c.lastMsgId m.frame, wfail := true,
                                   stage := .discard1, tx := [] }
  | subGone (ok : Bool) (i : Nat) (l : List Nat) (ha : c.atSelect = true) (hl : c.subCh = i :: l)
      (hg : c.subs.get? (deref c.heap i).id = none) :
      Step cfg c (.sub ok) (({ c with subCh := l } : Conn).emit [.requeue (deref c.heap i).frame])
  | subNil (ok : Bool) (i : Nat) (l : List Nat) (j : Nat) (ha : c.atSelect = true) (hl : c.subCh = i :: l)
      (hg : c.subs.get? (deref c.heap i).id = some j) (hf : (deref c.heap i).frame = none) :
      Step cfg c (.sub ok) { c with subCh := l, outbox := c.outbox ++ [.panic] }
  | subFail (ok : Bool) (i : Nat) (l : List Nat) (j : Nat) (m : Msg) (ha : c.atSelect = true) (hl : c.subCh = i :: l)
      (hg : c.subs.get? (deref c.heap i).id = some j) (hf : (deref c.heap i).frame = some m)
      (hw : ok = false ∨ c.wfail = true) :
      Step cfg c (.sub ok) { c with subCh := l, lastMsgId := allocNext c.lastMsgId m.frame,
                                              heap := putFrame c.heap i (some (m.alloc c.lastMsgId (some (deref c.heap i).ack))),
                                              wfail := true, lost := c.lost ++ [m.tag], stage := .discard1, tx := [] }
  | subAuto (i : Nat) (l : List Nat) (j : Nat) (m : Msg) (ha : c.atSelect = true) (hl : c.subCh = i :: l)
      (hg : c.subs.get? (deref c.heap i).id = some j) (hf : (deref c.heap i).frame = some m)
      (hw : c.wfail = false) (hk : (deref c.heap i).ack = ackAuto) :
      Step cfg c (.sub true) (({ c with subCh := l, lastMsgId := allocNext c.lastMsgId m.frame,
                                              heap := putFrame (putFrame c.heap i (some (m.alloc c.lastMsgId (some (deref c.heap i).ack)))) i none,
                                              out := c.out ++ [⟨some (m.alloc c.lastMsgId (some (deref c.heap i).ack)).frame, some m.tag⟩],
                                              autoDone := c.autoDone ++ [m.tag] } : Conn).emit [.subscribe ⟨c.me, i⟩])
  | subPanic (i : Nat) (l : List Nat) (j : Nat) (m : Msg) (ha : c.atSelect = true) (hl : c.subCh = i :: l)
      (hg : c.subs.get? (deref c.heap i).id = some j) (hf : (deref c.heap i).frame = some m)
      (hw : c.wfail = false) (hk : (deref c.heap i).ack ≠ ackAuto) (hi : (deref c.heap i).inList = true) :
      Step cfg c (.sub true) { c with subCh := l, lastMsgId := allocNext c.lastMsgId m.frame,
                                              heap := putFrame c.heap i (some (m.alloc c.lastMsgId (some (deref c.heap i).ack))),
                                              out := c.out ++ [⟨some (m.alloc c.lastMsgId (some (deref c.heap i).ack)).frame, some m.tag⟩],
                                              outbox := c.outbox ++ [.panic], lost := c.lost ++ [m.tag] }
  | subAdd (i : Nat) (l : List Nat) (j : Nat) (m : Msg) (ha : c.atSelect = true) (hl : c.subCh = i :: l)
      (hg : c.subs.get? (deref c.heap i).id = some j) (hf : (deref c.heap i).frame = some m)
      (hw : c.wfail = false) (hk : (deref c.heap i).ack ≠ ackAuto) (hi : (deref c.heap i).inList = false) :
      Step cfg c (.sub true) { c with subCh := l, lastMsgId := allocNext c.lastMsgId m.frame,
                                              heap := putInList (putFrame c.heap i (some (m.alloc c.lastMsgId (some (deref c.heap i).ack)))) i true,
                                              out := c.out ++ [⟨some (m.alloc c.lastMsgId (some (deref c.heap i).ack)).frame, some m.tag⟩],
                                              subList := c.subList ++ [i] }
  | timerOk (ha : c.atSelect = true) (ht : 0 < c.writeTimeout) (hw : c.wfail = false) :
      Step cfg c (.timer true) { c with out := c.out ++ [⟨none, none⟩] }
  | timerFail (ok : Bool) (ha : c.atSelect = true) (ht : 0 < c.writeTimeout) (hw : ok = false ∨ c.wfail = true) :
      Step cfg c (.timer ok) { c with wfail := true, stage := .discard1, tx := [] }
  | discard (m : Msg) (w : List Msg) (ho : c.outbox = []) (hs : c.stage = .discard1 ∨ c.stage = .discard2 ∨ c.stage = .discard3)
      (hw : c.writeCh = m :: w) : Step cfg c .clean { c with writeCh := w }
  | discardEnd (st : Stage) (ho : c.outbox = []) (hw : c.writeCh = [])
      (hs : c.stage = .discard1 ∧ st = .unsub ∨ c.stage = .discard2 ∧ st = .drain1 ∨ c.stage = .discard3 ∧ st = .drain2) :
      Step cfg c .clean { c with stage := st }
  | acklist (ho : c.outbox = []) (hs : c.stage = .acklist) :
      Step cfg c .clean (({ c with subList := [], stage := .discard2, heap := c.subList.foldl (fun h i => putInList h i false) c.heap } : Conn).emit (c.subList.map (fun i => .requeue (deref c.heap i).frame)))
  | drain (i : Nat) (l : List Nat) (ho : c.outbox = []) (hs : c.stage = .drain1 ∨ c.stage = .drain2) (hl : c.subCh = i :: l) :
      Step cfg c .clean (({ c with subCh := l } : Conn).emit [.requeue (deref c.heap i).frame])
  | drainEnd (st : Stage) (ho : c.outbox = []) (hl : c.subCh = [])
      (hs : c.stage = .drain1 ∧ st = .announce ∨ c.stage = .drain2 ∧ st = .closed) :
      Step cfg c .clean { c with stage := st }
  | announce (ho : c.outbox = []) (hs : c.stage = .announce) :
      Step cfg c .clean (({ c with stage := .discard3 } : Conn).emit [.disconnected c.me])
  | unsub (order : List Nat) (ho : c.outbox = []) (hs : c.stage = .unsub) (hp : order.Perm (c.subs.map (·.2))) :
      Step cfg c (.cleanUnsub order)
        (({ c with subs := [], stage := .acklist } : Conn).emit (order.map (fun i => .unsubscribe ⟨c.me, i⟩)))
  | flushed (r : Req) (o : List Out) (ho : c.outbox = .req r :: o) : Step cfg c .flushed { c with outbox := o }
  | setFrame (i : Nat) (m : Msg) :
      Step cfg c (.setFrame i m) { c with heap := putFrame c.heap i (some m) }
  | setInList (i : Nat) (b : Bool) :
      Step cfg c (.setInList i b) { c with heap := putInList c.heap i b }
  | pushSub (i : Nat) (hl : c.subCh.length < 16) : Step cfg c (.pushSub i) { c with subCh := c.subCh ++ [i] }
  | pushTopic (m : Msg) (hl : c.writeCh.length < 16) : Step cfg c (.pushTopic m) { c with writeCh := c.writeCh ++ [m] }

theorem step_of_processWrite (cfg : Config) (c : Conn) (ok : Bool) (m : Msg) (w : List Msg) (ha : c.atSelect = true)
    (hw : c.writeCh = m :: w) : Step cfg c (.wr ok) (({ c with writeCh := w } : Conn).processWrite ok m) := by
  unfold Conn.processWrite
  rw [alloc_eq]
  dsimp only
  rcases Conn.write_cases { c with writeCh := w, lastMsgId := allocNext c.lastMsgId m.frame } ok
    (some (allocFrame c.lastMsgId m.frame none)) (some m.tag) with ⟨h1, h2, h3⟩ | ⟨h1, h3⟩
  · rw [h3]
    dsimp only
    subst h1
    rw [if_neg (by simp), allocFrame_command]
    split
    · rename_i hc; exact Step.wrErr m w ha hw h2 hc
    · rename_i hc; exact Step.wrOk m w ha hw h2 hc
  · rw [h3]
    dsimp only
    rw [if_pos (by simp)]
    exact Step.wrFail ok m w ha hw h1

theorem step_of_processSub (cfg : Config) (c : Conn) (ok : Bool) (i : Nat) (l : List Nat) (ha : c.atSelect = true)
    (hl : c.subCh = i :: l) : Step cfg c (.sub ok) (({ c with subCh := l } : Conn).processSub ok i) := by
  unfold Conn.processSub
  dsimp only
  split
  · rename_i hg; exact Step.subGone ok i l ha hl hg
  · rename_i j hg
    split
    · rename_i hf; exact Step.subNil ok i l j ha hl hg hf
    · rename_i m hf
      rw [alloc_eq]
      dsimp only
      rcases Conn.write_cases { c with subCh := l, lastMsgId := allocNext c.lastMsgId m.frame, heap := c.heap.modify i (fun s => { s with frame := some { m with frame := allocFrame c.lastMsgId m.frame (some (deref c.heap i).ack) } }) } ok
        (some (allocFrame c.lastMsgId m.frame (some (deref c.heap i).ack))) (some m.tag) with ⟨h1, h2, h3⟩ | ⟨h1, h3⟩
      · rw [h3]
        dsimp only
        subst h1
        rw [if_neg (by simp)]
        split
        · rename_i hk; exact Step.subAuto i l j m ha hl hg hf h2 hk
        · rename_i hk
          split
          · rename_i hi; exact Step.subPanic i l j m ha hl hg hf h2 hk hi
          · rename_i hi; exact Step.subAdd i l j m ha hl hg hf h2 hk (by simpa using hi)
      · rw [h3]
        dsimp only
        rw [if_pos (by simp)]
        exact Step.subFail ok i l j m ha hl hg hf h1

theorem step_of_clean (cfg : Config) (c c' : Conn) (ho : c.outbox = []) (h : c.cleanStep = some c') : Step cfg c .clean c' := by
  have hd : ∀ st, (c.stage = .discard1 ∧ st = .unsub ∨ c.stage = .discard2 ∧ st = .drain1 ∨ c.stage = .discard3 ∧ st = .drain2) →
      Step cfg c .clean (c.discardStep st) := by
    intro st hst
    unfold Conn.discardStep
    split
    · rename_i m w hw
      exact Step.discard m w ho (by rcases hst with h | h | h <;> simp [h.1]) hw
    · rename_i hw; exact Step.discardEnd st ho hw hst
  have hdr : ∀ st, (c.stage = .drain1 ∧ st = .announce ∨ c.stage = .drain2 ∧ st = .closed) →
      Step cfg c .clean (c.drainStep st) := by
    intro st hst
    unfold Conn.drainStep
    split
    · rename_i i l hl
      exact Step.drain i l ho (by rcases hst with h | h <;> simp [h.1]) hl
    · rename_i hl; exact Step.drainEnd st ho hl hst
  unfold Conn.cleanStep at h
  split at h <;> rename_i hs
  · injection h with h; subst h; exact hd _ (Or.inl ⟨hs, rfl⟩)
  · injection h with h; subst h; exact Step.acklist ho hs
  · injection h with h; subst h; exact hd _ (Or.inr (Or.inl ⟨hs, rfl⟩))
  · injection h with h; subst h; exact hdr _ (Or.inl ⟨hs, rfl⟩)
  · injection h with h; subst h; exact Step.announce ho hs
  · injection h with h; subst h; exact hd _ (Or.inr (Or.inr ⟨hs, rfl⟩))
  · injection h with h; subst h; exact hdr _ (Or.inr ⟨hs, rfl⟩)
  · cases h

/-- The list of steps is complete. -/
theorem step_of (cfg : Config) (c : Conn) (e : Conn.Ev) (c' : Conn) (h : c.step cfg e = some c') : Step cfg c e c' := by
  cases e with
  | recv f =>
    simp only [Conn.step] at h
    split at h
    · rename_i hc
      simp only [Bool.and_eq_true, Bool.not_eq_true', decide_eq_true_eq] at hc
      injection h with h; subst h; exact Step.recv f hc.1 hc.2
    · cases h
  | readErr =>
    simp only [Conn.step] at h
    split at h
    · rename_i hc
      injection h with h; subst h; exact Step.readErr (by simpa using hc)
    · cases h
  | frame ok1 ok2 =>
    simp only [Conn.step] at h
    split at h
    · rename_i ha
      split at h
      · rename_i f q hq
        injection h with h; subst h
        obtain ⟨c', f', r, h1, h2⟩ := processFrame_cases cfg { c with inq := q } ok1 ok2 f
        exact Step.frame ok1 ok2 f q c' _ f' r ha hq h1 h2
      · cases h
    · cases h
  | readClosed =>
    simp only [Conn.step] at h
    split at h
    · rename_i hc
      simp only [Bool.and_eq_true, List.isEmpty_iff] at hc
      injection h with h; subst h; exact Step.readClosed hc.1.1 hc.1.2 hc.2
    · cases h
  | wr ok =>
    simp only [Conn.step] at h
    split at h
    · rename_i ha
      split at h
      · rename_i m w hw
        injection h with h; subst h; exact step_of_processWrite cfg c ok m w ha hw
      · cases h
    · cases h
  | sub ok =>
    simp only [Conn.step] at h
    split at h
    · rename_i ha
      split at h
      · rename_i i l hl
        injection h with h; subst h; exact step_of_processSub cfg c ok i l ha hl
      · cases h
    · cases h
  | timer ok =>
    simp only [Conn.step] at h
    split at h
    · rename_i hc
      simp only [Bool.and_eq_true, decide_eq_true_eq] at hc
      injection h with h; subst h
      unfold Conn.processTimer
      rcases Conn.write_cases c ok none none with ⟨h1, h2, h3⟩ | ⟨h1, h3⟩
      · rw [h3]; subst h1; exact Step.timerOk hc.1 hc.2 h2
      · rw [h3]; exact Step.timerFail ok hc.1 hc.2 h1
    · cases h
  | clean =>
    simp only [Conn.step] at h
    split at h
    · rename_i ho
      exact step_of_clean cfg c c' (by simpa [List.isEmpty_iff] using ho) h
    · cases h
  | cleanUnsub order =>
    simp only [Conn.step] at h
    split at h
    · rename_i hc
      simp only [Bool.and_eq_true, decide_eq_true_eq, List.isEmpty_iff, List.isPerm_iff] at hc
      injection h with h; subst h; exact Step.unsub order hc.1.1 hc.1.2 hc.2
    · cases h
  | flushed =>
    simp only [Conn.step] at h
    split at h
    · rename_i r o ho
      injection h with h; subst h; exact Step.flushed r o ho
    · cases h
  | setFrame i m =>
    simp only [Conn.step] at h
    injection h with h; subst h; exact Step.setFrame i m
  | setInList i b =>
    simp only [Conn.step] at h
    injection h with h; subst h; exact Step.setInList i b
  | pushSub i =>
    simp only [Conn.step] at h
    split at h
    · rename_i hc; injection h with h; subst h; exact Step.pushSub i hc
    · cases h
  | pushTopic m =>
    simp only [Conn.step] at h
    split at h
    · rename_i hc; injection h with h; subst h; exact Step.pushTopic m hc
    · cases h

/-- Induction over runs. -/
theorem run_induction {cfg : Config} {P : Conn → Prop} {Q : Conn.Ev → Prop}
    (hstep : ∀ c e c', Q e → P c → Step cfg c e c' → P c') (es : List Conn.Ev) (c c' : Conn) (hq : ∀ e ∈ es, Q e)
    (h0 : P c) (h : c.run cfg es = some c') : P c' := by
  induction es generalizing c with
  | nil => simp only [Conn.run, Option.some.injEq] at h; subst h; exact h0
  | cons e es ih =>
    simp only [Conn.run] at h
    split at h
    · cases h
    · rename_i c1 hc1
      exact ih c1 (fun e he => hq e (by simp [he])) (hstep c e c1 (hq e (by simp)) h0 (step_of cfg c e c1 hc1)) h

end Stomp.Server
