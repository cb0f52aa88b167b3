import Verif.Model.Server.Conn
import Verif.Proofs.AMap
import Verif.Proofs.Header
/-! # What the handlers of a connected server connection do, as a relation

`Basic c ok f c' f' r` lists all outcomes of `connectedBasic`; `basic` proves that the list is complete. -/
namespace Stomp.Server
open Stomp

/-- The frame without a header. -/
def strip (k : Bytes) (f : Frame) : Frame := { f with header := f.header.del k }

/-- The RECEIPT frame for a receipt id. -/
def receiptFrame (r : Bytes) : Frame := ⟨b!"RECEIPT", [(b!"receipt-id", r)], []⟩

/-- Outcomes of `sendReceipt`. -/
inductive Rcpt (c : Conn) (ok : Bool) (f : Frame) : Conn → Frame → Bool → Prop
  | none (h : f.header.contains Hdr.receipt = none) : Rcpt c ok f c f true
  | sent (r : Bytes) (h : f.header.contains Hdr.receipt = some r) (hok : ok = true) (hw : c.wfail = false) :
      Rcpt c ok f { c with out := c.out ++ [⟨some (receiptFrame r), .none⟩] } (strip Hdr.receipt f) true
  | failed (r : Bytes) (h : f.header.contains Hdr.receipt = some r) (hw : ok = false ∨ c.wfail = true) :
      Rcpt c ok f { c with wfail := true } (strip Hdr.receipt f) false

theorem rcpt (c : Conn) (ok : Bool) (f : Frame) :
    Rcpt c ok f (c.sendReceipt ok f).1 (c.sendReceipt ok f).2.1 (c.sendReceipt ok f).2.2 := by
  unfold Conn.sendReceipt
  split
  · rename_i r h
    unfold Conn.write
    by_cases hw : (ok && !c.wfail) = true
    · rw [if_pos hw]
      simp only [Bool.and_eq_true, Bool.not_eq_true'] at hw
      exact Rcpt.sent r h hw.1 hw.2
    · rw [if_neg hw]
      refine Rcpt.failed r h ?_
      cases ok <;> cases hh : c.wfail <;> simp_all
  · rename_i h; exact Rcpt.none h

theorem Rcpt.contains {c : Conn} {ok : Bool} {f : Frame} {c1 : Conn} {f1 : Frame} {k : Bool} (h : Rcpt c ok f c1 f1 k)
    (q : Bytes) (hq : q ≠ Hdr.receipt) : f1.header.contains q = f.header.contains q := by
  cases h
  · rfl
  · simp only [strip, contains_eq, firstValue_del]; rw [if_neg (fun e => hq e.symm)]
  · simp only [strip, contains_eq, firstValue_del]; rw [if_neg (fun e => hq e.symm)]

theorem Rcpt.command {c : Conn} {ok : Bool} {f : Frame} {c1 : Conn} {f1 : Frame} {k : Bool} (h : Rcpt c ok f c1 f1 k) :
    f1.command = f.command := by cases h <;> rfl

theorem Rcpt.noReceipt {c : Conn} {ok : Bool} {f : Frame} {c1 : Conn} {f1 : Frame} {k : Bool} (h : Rcpt c ok f c1 f1 k) :
    f1.header.contains Hdr.receipt = .none := by
  cases h
  · assumption
  · simp only [strip, contains_eq, firstValue_del, if_true]
  · simp only [strip, contains_eq, firstValue_del, if_true]

theorem Rcpt.frame_eq {c : Conn} {ok : Bool} {f : Frame} {c1 : Conn} {f1 : Frame} {k : Bool} (h : Rcpt c ok f c1 f1 k) :
    f1 = strip Hdr.receipt f := by
  cases h
  · rename_i h
    unfold strip
    rw [contains_eq] at h
    rw [del_of_firstValue_none _ _ h]
  · rfl
  · rfl

/-- The state after a SEND outside a transaction. -/
def sendApply (c : Conn) (f : Frame) : Conn :=
  ({ c with sent := c.sent + 1, effective := c.effective ++ [f] } : Conn).emit
    [.enqueue ⟨⟨c.me, c.sent⟩, { f with command := Cmd.message }⟩]

/-- The commands that can be part of a transaction. -/
def isTxCmd (cmd : Bytes) : Prop := cmd = Cmd.send ∨ cmd = Cmd.ack ∨ cmd = Cmd.nack

/-- Outcomes of `connectedBasic`. -/
inductive Basic (c : Conn) (ok : Bool) (f : Frame) : Conn → Frame → Res → Prop
  | unexpected (e : Err) (he : e = .unexpectedCommand ∨ e = .unknownCommand)
      (h : f.command ∉ [Cmd.disconnect, Cmd.begin_, Cmd.abort, Cmd.send, Cmd.subscribe, Cmd.unsubscribe, Cmd.ack, Cmd.nack]) :
      Basic c ok f c f (.err e)
  | disconnect {c1 : Conn} {f1 : Frame} {k : Bool} (hc : f.command = Cmd.disconnect) (hr : Rcpt c ok f c1 f1 k) :
      Basic c ok f c1 f1 .ok
  | refused (e : Err) (h : f.command ∈ [Cmd.begin_, Cmd.abort, Cmd.subscribe, Cmd.unsubscribe, Cmd.ack, Cmd.nack])
      (hne : e ≠ .write)
      (hwhy : (f.command = Cmd.begin_ ∨ f.command = Cmd.abort) → f.header.contains Hdr.transaction = none)
      (hsub : f.command = Cmd.subscribe → f.header.contains Hdr.id = none ∨ f.header.contains Hdr.destination = none ∨
        ∃ id, f.header.contains Hdr.id = some id ∧ (c.subs.get? id).isSome)
      (hunsub : f.command = Cmd.unsubscribe → f.header.contains Hdr.id = none ∨
        ∃ id, f.header.contains Hdr.id = some id ∧ c.subs.get? id = none)
      (hack : (f.command = Cmd.ack ∨ f.command = Cmd.nack) → (Conn.ackId f).toOption = none) :
      Basic c ok f c f (.err e)
  | writeFail {c1 : Conn} {f1 : Frame} (hc : f.command ∈ [Cmd.begin_, Cmd.abort, Cmd.send, Cmd.ack, Cmd.nack])
      (hr : Rcpt c ok f c1 f1 false) : Basic c ok f c1 f1 (.err .write)
  | txErr {c1 : Conn} {f1 : Frame} (e : Err) (t : Bytes) (ht : f.header.contains Hdr.transaction = some t)
      (he : e = .txAlreadyInProgress ∨ e = .txUnknown)
      (hc : f.command = Cmd.begin_ ∧ (c.tx.get? t).isSome ∨
        (f.command = Cmd.abort ∨ isTxCmd f.command) ∧ c.tx.get? t = none)
      (hr : Rcpt c ok f c1 f1 true) : Basic c ok f c1 f1 (.err e)
  | begin_ {c1 : Conn} {f1 : Frame} (t : Bytes) (ht : f.header.contains Hdr.transaction = some t)
      (hc : f.command = Cmd.begin_) (hn : c.tx.get? t = none)
      (hr : Rcpt c ok f c1 f1 true) : Basic c ok f { c1 with tx := c.tx.set t [] } f1 .ok
  | abort {c1 : Conn} {f1 : Frame} (t : Bytes) (ht : f.header.contains Hdr.transaction = some t)
      (hc : f.command = Cmd.abort) (l : List Frame) (hl : c.tx.get? t = some l)
      (hr : Rcpt c ok f c1 f1 true) : Basic c ok f { c1 with tx := c.tx.del t } f1 .ok
  | store {c1 : Conn} {f1 : Frame} (t : Bytes) (ht : f.header.contains Hdr.transaction = some t)
      (hc : isTxCmd f.command) (hid : f.command ≠ Cmd.send → (Conn.ackId f).toOption.isSome)
      (l : List Frame) (hl : c.tx.get? t = some l)
      (hr : Rcpt c ok f c1 f1 true) :
      Basic c ok f { c1 with tx := c.tx.set t (l ++ [strip Hdr.transaction f1]) } f1 .ok
  | subscribe (hc : f.command = Cmd.subscribe) (id dest : Bytes) (hi : f.header.contains Hdr.id = some id)
      (hd : f.header.contains Hdr.destination = some dest) (hn : c.subs.get? id = none) :
      Basic c ok f (({ c with heap := c.heap ++ [newSubscription dest id ((f.header.contains Hdr.ack).getD ackAuto)],
                              subs := c.subs.set id c.heap.length } : Conn).emit [.subscribe ⟨c.me, c.heap.length⟩]) f .ok
  | unsubscribe (hc : f.command = Cmd.unsubscribe) (id : Bytes) (hi : f.header.contains Hdr.id = some id) (i : Nat)
      (hs : c.subs.get? id = some i) :
      Basic c ok f (({ c with subs := c.subs.del id } : Conn).emit [.unsubscribe ⟨c.me, i⟩]) f .ok
  | send {c1 : Conn} {f1 : Frame} (hc : f.command = Cmd.send) (ht : f.header.contains Hdr.transaction = none)
      (hr : Rcpt c ok f c1 f1 true) : Basic c ok f (sendApply c1 f1) f1 .ok
  | ack {c1 : Conn} {f1 : Frame} (hc : f.command = Cmd.ack) (ht : f.header.contains Hdr.transaction = none)
      (n : Nat) (hid : Conn.ackId f = .ok n) (hr : Rcpt c ok f c1 f1 true) :
      Basic c ok f (({ c1 with effective := c1.effective ++ [f1] } : Conn).applyAck n).1 f1
        (({ c1 with effective := c1.effective ++ [f1] } : Conn).applyAck n).2
  | nack {c1 : Conn} {f1 : Frame} (hc : f.command = Cmd.nack) (ht : f.header.contains Hdr.transaction = none)
      (n : Nat) (hid : Conn.ackId f = .ok n) (hr : Rcpt c ok f c1 f1 true) :
      Basic c ok f (({ c1 with effective := c1.effective ++ [f1] } : Conn).applyNack n) f1 .ok

theorem Rcpt.tx {c : Conn} {ok : Bool} {f : Frame} {c1 : Conn} {f1 : Frame} {k : Bool} (h : Rcpt c ok f c1 f1 k) :
    c1.tx = c.tx := by cases h <;> rfl

theorem cmd_facts : Cmd.connect = b!"CONNECT" ∧ Cmd.stomp = b!"STOMP" ∧ Cmd.disconnect = b!"DISCONNECT" ∧
    Cmd.begin_ = b!"BEGIN" ∧ Cmd.abort = b!"ABORT" ∧ Cmd.send = b!"SEND" ∧ Cmd.subscribe = b!"SUBSCRIBE" ∧
    Cmd.unsubscribe = b!"UNSUBSCRIBE" ∧ Cmd.ack = b!"ACK" ∧ Cmd.nack = b!"NACK" ∧ Cmd.message = b!"MESSAGE" ∧
    Cmd.receipt = b!"RECEIPT" ∧ Cmd.error = b!"ERROR" ∧ Cmd.commit = b!"COMMIT" :=
  ⟨rfl, rfl, rfl, rfl, rfl, rfl, rfl, rfl, rfl, rfl, rfl, rfl, rfl, rfl⟩

theorem basic_begin (c : Conn) (ok : Bool) (f : Frame) (hc : f.command = Cmd.begin_) :
    Basic c ok f (c.handleBegin ok f).1 (c.handleBegin ok f).2.1 (c.handleBegin ok f).2.2 := by
  unfold Conn.handleBegin
  split
  · rename_i h
    refine Basic.refused _ (by simp [hc]) (by simp) (fun _ => h) ?_ ?_ ?_ <;> (rw [hc]; simp [cmd_facts])
  · rename_i t h
    have hr := rcpt c ok f
    generalize c.sendReceipt ok f = x at hr
    obtain ⟨c1, f1, k⟩ := x
    dsimp only at hr ⊢
    cases k with
    | false => exact Basic.writeFail (by simp [hc]) hr
    | true =>
      simp only [Bool.not_true, Bool.false_eq_true, if_false, TxStore.begin, hr.tx]
      cases hg : c.tx.get? t with
      | some l => exact Basic.txErr _ t h (Or.inl rfl) (Or.inl ⟨hc, by simp [hg]⟩) hr
      | none => exact Basic.begin_ t h hc hg hr

theorem basic_abort (c : Conn) (ok : Bool) (f : Frame) (hc : f.command = Cmd.abort) :
    Basic c ok f (c.handleAbort ok f).1 (c.handleAbort ok f).2.1 (c.handleAbort ok f).2.2 := by
  unfold Conn.handleAbort
  split
  · rename_i h
    refine Basic.refused _ (by simp [hc]) (by simp) (fun _ => h) ?_ ?_ ?_ <;> (rw [hc]; simp [cmd_facts])
  · rename_i t h
    have hr := rcpt c ok f
    generalize c.sendReceipt ok f = x at hr
    obtain ⟨c1, f1, k⟩ := x
    dsimp only at hr ⊢
    cases k with
    | false => exact Basic.writeFail (by simp [hc]) hr
    | true =>
      simp only [Bool.not_true, Bool.false_eq_true, if_false, TxStore.abort, hr.tx]
      cases hg : c.tx.get? t with
      | none => exact Basic.txErr _ t h (Or.inr rfl) (Or.inr ⟨Or.inl hc, hg⟩) hr
      | some l => exact Basic.abort t h hc l hg hr

theorem basic_subscribe (c : Conn) (ok : Bool) (f : Frame) (hc : f.command = Cmd.subscribe) :
    Basic c ok f (c.handleSubscribe f).1 (c.handleSubscribe f).2.1 (c.handleSubscribe f).2.2 := by
  unfold Conn.handleSubscribe
  split
  · rename_i h
    refine Basic.refused _ (by simp [hc]) (by simp) ?_ (fun _ => Or.inl h) ?_ ?_ <;> (rw [hc]; simp [cmd_facts])
  · rename_i id hi
    split
    · rename_i h
      refine Basic.refused _ (by simp [hc]) (by simp) ?_ (fun _ => Or.inr (Or.inl h)) ?_ ?_ <;>
        (rw [hc]; simp [cmd_facts])
    · rename_i dest hd
      dsimp only
      split
      · rename_i h
        refine Basic.refused _ (by simp [hc]) (by simp) ?_ (fun _ => Or.inr (Or.inr ⟨id, hi, by simp [h]⟩)) ?_ ?_ <;>
          (rw [hc]; simp [cmd_facts])
      · rename_i h
        exact Basic.subscribe hc id dest hi hd h

theorem basic_unsubscribe (c : Conn) (ok : Bool) (f : Frame) (hc : f.command = Cmd.unsubscribe) :
    Basic c ok f (c.handleUnsubscribe f).1 (c.handleUnsubscribe f).2.1 (c.handleUnsubscribe f).2.2 := by
  unfold Conn.handleUnsubscribe
  split
  · rename_i h
    refine Basic.refused _ (by simp [hc]) (by simp) ?_ ?_ (fun _ => Or.inl h) ?_ <;> (rw [hc]; simp [cmd_facts])
  · rename_i id hi
    split
    · rename_i h
      refine Basic.refused _ (by simp [hc]) (by simp) ?_ ?_ (fun _ => Or.inr ⟨id, hi, h⟩) ?_ <;>
        (rw [hc]; simp [cmd_facts])
    · rename_i i h
      exact Basic.unsubscribe hc id hi i h

theorem ackId_error {f : Frame} {e : Err} (h : Conn.ackId f = .error e) : e ≠ .write := by
  unfold Conn.ackId at h
  repeat' split at h
  all_goals first | (injection h with h; subst h; simp) | cases h

theorem basic_ack (c : Conn) (ok : Bool) (f : Frame) (hc : f.command = Cmd.ack) :
    Basic c ok f (c.handleAck ok f).1 (c.handleAck ok f).2.1 (c.handleAck ok f).2.2 := by
  unfold Conn.handleAck
  split
  · rename_i e h
    refine Basic.refused _ (by simp [hc]) (ackId_error h) ?_ ?_ ?_ (fun _ => by rw [h]; rfl) <;>
      (rw [hc]; simp [cmd_facts])
  · rename_i n h
    have hr := rcpt c ok f
    generalize c.sendReceipt ok f = x at hr
    obtain ⟨c1, f1, k⟩ := x
    dsimp only at hr ⊢
    cases k with
    | false => exact Basic.writeFail (by simp [hc]) hr
    | true =>
      simp only [Bool.not_true, Bool.false_eq_true, if_false]
      rw [hr.contains _ (by decide)]
      cases ht : f.header.contains Hdr.transaction with
      | none => exact Basic.ack hc ht n h hr
      | some t =>
        simp only [TxStore.add, hr.tx]
        cases hg : c.tx.get? t with
        | none => exact Basic.txErr _ t ht (Or.inr rfl) (Or.inr ⟨Or.inr (Or.inr (Or.inl hc)), hg⟩) hr
        | some l => exact Basic.store t ht (Or.inr (Or.inl hc)) (fun _ => by rw [h]; rfl) l hg hr

theorem basic_nack (c : Conn) (ok : Bool) (f : Frame) (hc : f.command = Cmd.nack) :
    Basic c ok f (c.handleNack ok f).1 (c.handleNack ok f).2.1 (c.handleNack ok f).2.2 := by
  unfold Conn.handleNack
  split
  · rename_i e h
    refine Basic.refused _ (by simp [hc]) (ackId_error h) ?_ ?_ ?_ (fun _ => by rw [h]; rfl) <;>
      (rw [hc]; simp [cmd_facts])
  · rename_i n h
    have hr := rcpt c ok f
    generalize c.sendReceipt ok f = x at hr
    obtain ⟨c1, f1, k⟩ := x
    dsimp only at hr ⊢
    cases k with
    | false => exact Basic.writeFail (by simp [hc]) hr
    | true =>
      simp only [Bool.not_true, Bool.false_eq_true, if_false]
      rw [hr.contains _ (by decide)]
      cases ht : f.header.contains Hdr.transaction with
      | none => exact Basic.nack hc ht n h hr
      | some t =>
        simp only [TxStore.add, hr.tx]
        cases hg : c.tx.get? t with
        | none => exact Basic.txErr _ t ht (Or.inr rfl) (Or.inr ⟨Or.inr (Or.inr (Or.inr hc)), hg⟩) hr
        | some l => exact Basic.store t ht (Or.inr (Or.inr hc)) (fun _ => by rw [h]; rfl) l hg hr

theorem basic_send (c : Conn) (ok : Bool) (f : Frame) (hc : f.command = Cmd.send) :
    Basic c ok f (c.handleSend ok f).1 (c.handleSend ok f).2.1 (c.handleSend ok f).2.2 := by
  unfold Conn.handleSend
  have hr := rcpt c ok f
  generalize c.sendReceipt ok f = x at hr
  obtain ⟨c1, f1, k⟩ := x
  dsimp only at hr ⊢
  cases k with
  | false => exact Basic.writeFail (by simp [hc]) hr
  | true =>
    simp only [Bool.not_true, Bool.false_eq_true, if_false]
    rw [hr.contains _ (by decide)]
    cases ht : f.header.contains Hdr.transaction with
    | none => exact Basic.send hc ht hr
    | some t =>
      simp only [TxStore.add, hr.tx]
      cases hg : c.tx.get? t with
      | none => exact Basic.txErr _ t ht (Or.inr rfl) (Or.inr ⟨Or.inr (Or.inl hc), hg⟩) hr
      | some l => exact Basic.store t ht (Or.inl hc) (fun h => absurd hc h) l hg hr

/-- The list of outcomes is complete. -/
theorem basic (c : Conn) (ok : Bool) (f : Frame) :
    Basic c ok f (c.connectedBasic ok f).1 (c.connectedBasic ok f).2.1 (c.connectedBasic ok f).2.2 := by
  unfold Conn.connectedBasic
  split
  · rename_i h
    refine Basic.unexpected _ (Or.inl rfl) ?_
    rcases h with h | h <;> rw [h] <;> decide
  rename_i h0
  split
  · rename_i h
    have hr := rcpt c ok f
    unfold Conn.handleDisconnect
    exact Basic.disconnect h hr
  split
  · rename_i h; exact basic_begin c ok f h
  split
  · rename_i h; exact basic_abort c ok f h
  split
  · rename_i h; exact basic_send c ok f h
  split
  · rename_i h; exact basic_subscribe c ok f h
  split
  · rename_i h; exact basic_unsubscribe c ok f h
  split
  · rename_i h; exact basic_ack c ok f h
  split
  · rename_i h; exact basic_nack c ok f h
  · rename_i h1 h2 h3 h4 h5 h6 h7 h8
    have : f.command ∉ [Cmd.disconnect, Cmd.begin_, Cmd.abort, Cmd.send, Cmd.subscribe, Cmd.unsubscribe, Cmd.ack, Cmd.nack] := by
      simp [h1, h2, h3, h4, h5, h6, h7, h8]
    split
    · exact Basic.unexpected _ (Or.inl rfl) this
    · exact Basic.unexpected _ (Or.inr rfl) this

/-- Fields no handler of the connected state touches. -/
structure Keeps (c c' : Conn) : Prop where
  me : c'.me = c.me
  connected : c'.connected = c.connected
  version : c'.version = c.version
  writeTimeout : c'.writeTimeout = c.writeTimeout
  lastMsgId : c'.lastMsgId = c.lastMsgId
  subCh : c'.subCh = c.subCh
  writeCh : c'.writeCh = c.writeCh
  inq : c'.inq = c.inq
  readDone : c'.readDone = c.readDone
  stage : c'.stage = c.stage
  hist : c'.hist = c.hist
  autoDone : c'.autoDone = c.autoDone
  lost : c'.lost = c.lost

theorem Keeps.refl (c : Conn) : Keeps c c := ⟨rfl, rfl, rfl, rfl, rfl, rfl, rfl, rfl, rfl, rfl, rfl, rfl, rfl⟩

theorem Keeps.trans {a b c : Conn} (h : Keeps a b) (h' : Keeps b c) : Keeps a c :=
  ⟨h'.me.trans h.me, h'.connected.trans h.connected, h'.version.trans h.version, h'.writeTimeout.trans h.writeTimeout,
   h'.lastMsgId.trans h.lastMsgId, h'.subCh.trans h.subCh, h'.writeCh.trans h.writeCh, h'.inq.trans h.inq,
   h'.readDone.trans h.readDone, h'.stage.trans h.stage, h'.hist.trans h.hist, h'.autoDone.trans h.autoDone,
   h'.lost.trans h.lost⟩

theorem Rcpt.keeps {c : Conn} {ok : Bool} {f : Frame} {c1 : Conn} {f1 : Frame} {k : Bool} (h : Rcpt c ok f c1 f1 k) :
    Keeps c c1 := by
  cases h <;> exact ⟨rfl, rfl, rfl, rfl, rfl, rfl, rfl, rfl, rfl, rfl, rfl, rfl, rfl⟩

theorem Basic.keeps {c : Conn} {ok : Bool} {f : Frame} {c' : Conn} {f' : Frame} {r : Res} (h : Basic c ok f c' f' r) :
    Keeps c c' := by
  cases h with
  | unexpected => exact Keeps.refl c
  | refused => exact Keeps.refl c
  | disconnect _ hr => exact hr.keeps
  | writeFail _ hr => exact hr.keeps
  | txErr _ _ _ _ _ hr => exact hr.keeps
  | begin_ _ _ _ _ hr => exact hr.keeps.trans ⟨rfl, rfl, rfl, rfl, rfl, rfl, rfl, rfl, rfl, rfl, rfl, rfl, rfl⟩
  | abort _ _ _ _ _ hr => exact hr.keeps.trans ⟨rfl, rfl, rfl, rfl, rfl, rfl, rfl, rfl, rfl, rfl, rfl, rfl, rfl⟩
  | store _ _ _ _ _ _ hr => exact hr.keeps.trans ⟨rfl, rfl, rfl, rfl, rfl, rfl, rfl, rfl, rfl, rfl, rfl, rfl, rfl⟩
  | subscribe => exact ⟨rfl, rfl, rfl, rfl, rfl, rfl, rfl, rfl, rfl, rfl, rfl, rfl, rfl⟩
  | unsubscribe => exact ⟨rfl, rfl, rfl, rfl, rfl, rfl, rfl, rfl, rfl, rfl, rfl, rfl, rfl⟩
  | send _ _ hr => exact hr.keeps.trans ⟨rfl, rfl, rfl, rfl, rfl, rfl, rfl, rfl, rfl, rfl, rfl, rfl, rfl⟩
  | ack _ _ _ _ hr => exact hr.keeps.trans ⟨rfl, rfl, rfl, rfl, rfl, rfl, rfl, rfl, rfl, rfl, rfl, rfl, rfl⟩
  | nack _ _ _ _ hr => exact hr.keeps.trans ⟨rfl, rfl, rfl, rfl, rfl, rfl, rfl, rfl, rfl, rfl, rfl, rfl, rfl⟩

/-- What is known of a frame held in a transaction. -/
structure Stored (f : Frame) : Prop where
  cmd : isTxCmd f.command
  noReceipt : f.header.contains Hdr.receipt = none
  noTx : f.header.contains Hdr.transaction = none
  ackOk : f.command ≠ Cmd.send → (Conn.ackId f).toOption.isSome

theorem ackId_strip {f : Frame} {k : Bytes} (h1 : k ≠ Hdr.ack) (h2 : k ≠ Hdr.messageId) :
    Conn.ackId (strip k f) = Conn.ackId f := by
  unfold Conn.ackId
  have e1 : (strip k f).header.contains Hdr.ack = f.header.contains Hdr.ack := by
    simp only [strip, contains_eq, firstValue_del]; rw [if_neg h1]
  have e2 : (strip k f).header.contains Hdr.messageId = f.header.contains Hdr.messageId := by
    simp only [strip, contains_eq, firstValue_del]; rw [if_neg h2]
  rw [e1, e2]

theorem stored_of_store {c : Conn} {ok : Bool} {f : Frame} {c1 : Conn} {f1 : Frame} (hr : Rcpt c ok f c1 f1 true)
    (hc : isTxCmd f.command) (hid : f.command ≠ Cmd.send → (Conn.ackId f).toOption.isSome) :
    Stored (strip Hdr.transaction f1) := by
  refine ⟨?_, ?_, ?_, ?_⟩
  · show isTxCmd f1.command; rw [hr.command]; exact hc
  · have := hr.noReceipt
    simp only [strip, contains_eq, firstValue_del] at this ⊢
    rw [if_neg (by decide)]; exact this
  · simp only [strip, contains_eq, firstValue_del, if_true]
  · intro h
    rw [ackId_strip (by decide) (by decide), hr.frame_eq, ackId_strip (by decide) (by decide)]
    exact hid (by rw [← hr.command]; exact h)

/-- The effect of a SEND, ACK or NACK that is not part of a transaction any more. -/
inductive Applied (c : Conn) (f : Frame) : Conn → Res → Prop
  | send (hc : f.command = Cmd.send) : Applied c f (sendApply c f) .ok
  | ack (hc : f.command = Cmd.ack) (n : Nat) (hid : Conn.ackId f = .ok n) :
      Applied c f (({ c with effective := c.effective ++ [f] } : Conn).applyAck n).1
        (({ c with effective := c.effective ++ [f] } : Conn).applyAck n).2
  | nack (hc : f.command = Cmd.nack) (n : Nat) (hid : Conn.ackId f = .ok n) :
      Applied c f (({ c with effective := c.effective ++ [f] } : Conn).applyNack n) .ok

theorem applied_of_stored {c : Conn} {ok : Bool} {f : Frame} (hs : Stored f) :
    Applied c f (c.connectedBasic ok f).1 (c.connectedBasic ok f).2.2 := by
  have hb := basic c ok f
  generalize c.connectedBasic ok f = x at hb
  obtain ⟨c', f', r⟩ := x
  dsimp only at hb ⊢
  have hn : ∀ {c1 : Conn} {f1 : Frame} {k : Bool}, Rcpt c ok f c1 f1 k → c1 = c ∧ f1 = f ∧ k = true := by
    intro c1 f1 k hr
    cases hr with
    | none => exact ⟨rfl, rfl, rfl⟩
    | sent r h => rw [hs.noReceipt] at h; cases h
    | failed r h => rw [hs.noReceipt] at h; cases h
  have hcm : f.command = Cmd.send ∨ f.command = Cmd.ack ∨ f.command = Cmd.nack := hs.cmd
  cases hb with
  | unexpected e he h =>
    exfalso; rcases hcm with h' | h' | h' <;> rw [h'] at h <;> revert h <;> decide
  | disconnect hc hr => exfalso; rw [hc] at hcm; revert hcm; decide
  | refused e h hne hwhy hsub hunsub hack =>
    exfalso
    rcases hcm with h' | h' | h'
    · rw [h'] at h; revert h; decide
    · have h1 := hack (Or.inl h')
      have h2 := hs.ackOk (by rw [h']; decide)
      rw [h1] at h2; cases h2
    · have h1 := hack (Or.inr h')
      have h2 := hs.ackOk (by rw [h']; decide)
      rw [h1] at h2; cases h2
  | writeFail hc hr => exact absurd (hn hr).2.2 (by simp)
  | txErr e t ht he hc hr => rw [hs.noTx] at ht; cases ht
  | begin_ t ht => rw [hs.noTx] at ht; cases ht
  | abort t ht => rw [hs.noTx] at ht; cases ht
  | store t ht => rw [hs.noTx] at ht; cases ht
  | subscribe hc => exfalso; rw [hc] at hcm; revert hcm; decide
  | unsubscribe hc => exfalso; rw [hc] at hcm; revert hcm; decide
  | send hc ht hr => obtain ⟨rfl, rfl, _⟩ := hn hr; exact Applied.send hc
  | ack hc ht n hid hr => obtain ⟨rfl, rfl, _⟩ := hn hr; exact Applied.ack hc n hid
  | nack hc ht n hid hr => obtain ⟨rfl, rfl, _⟩ := hn hr; exact Applied.nack hc n hid

theorem Applied.res {c : Conn} {f : Frame} {c' : Conn} {r : Res} (h : Applied c f c' r) : r = .ok ∨ r = .panic := by
  cases h with
  | send => exact Or.inl rfl
  | nack => exact Or.inl rfl
  | ack hc n hid =>
    unfold Conn.applyAck
    dsimp only
    split
    · exact Or.inr rfl
    · exact Or.inl rfl

/-- Running the frames of a transaction one after the other; a panic ends it. -/
inductive Committed : Conn → List Frame → Conn → Res → Prop
  | nil (c : Conn) : Committed c [] c .ok
  | cons {c c1 c2 : Conn} {f : Frame} {fs : List Frame} {r : Res} (h : Applied c f c1 .ok) (h' : Committed c1 fs c2 r) :
      Committed c (f :: fs) c2 r
  | panic {c c1 : Conn} {f : Frame} {fs : List Frame} (h : Applied c f c1 .panic) : Committed c (f :: fs) c1 .panic

theorem committed (ok : Bool) (fs : List Frame) (c : Conn) (hs : ∀ f ∈ fs, Stored f) :
    Committed c fs (c.commitLoop ok fs).1 (c.commitLoop ok fs).2 := by
  induction fs generalizing c with
  | nil => exact Committed.nil c
  | cons f fs ih =>
    have ha := applied_of_stored (c := c) (ok := ok) (hs f (by simp))
    unfold Conn.commitLoop
    generalize c.connectedBasic ok f = x at ha
    obtain ⟨c1, f1, r⟩ := x
    dsimp only at ha ⊢
    rcases ha.res with rfl | rfl
    · exact Committed.cons ha (ih c1 (fun f hf => hs f (by simp [hf])))
    · exact Committed.panic ha

theorem Applied.keeps {c : Conn} {f : Frame} {c' : Conn} {r : Res} (h : Applied c f c' r) : Keeps c c' := by
  cases h <;> exact ⟨rfl, rfl, rfl, rfl, rfl, rfl, rfl, rfl, rfl, rfl, rfl, rfl, rfl⟩

theorem Committed.keeps {c : Conn} {fs : List Frame} {c' : Conn} {r : Res} (h : Committed c fs c' r) : Keeps c c' := by
  induction h with
  | nil => exact Keeps.refl _
  | cons h _ ih => exact h.keeps.trans ih
  | panic h => exact h.keeps

/-- Outcomes of the state function of a connected connection. -/
inductive Handled (c : Conn) (ok : Bool) (f : Frame) : Conn → Frame → Res → Prop
  | basic {c' : Conn} {f' : Frame} {r : Res} (hc : f.command ≠ Cmd.commit) (h : Basic c ok f c' f' r) :
      Handled c ok f c' f' r
  | commitMissing (hc : f.command = Cmd.commit) (ht : f.header.contains Hdr.transaction = none) :
      Handled c ok f c f (.err (.missingHeader Hdr.transaction))
  | commitWrite {c1 : Conn} {f1 : Frame} (hc : f.command = Cmd.commit) (t : Bytes)
      (ht : f.header.contains Hdr.transaction = some t) (hr : Rcpt c ok f c1 f1 false) :
      Handled c ok f c1 f1 (.err .write)
  | commitUnknown {c1 : Conn} {f1 : Frame} (hc : f.command = Cmd.commit) (t : Bytes)
      (ht : f.header.contains Hdr.transaction = some t) (hn : c.tx.get? t = none) (hr : Rcpt c ok f c1 f1 true) :
      Handled c ok f c1 f1 (.err .txUnknown)
  | commit {c1 c2 : Conn} {f1 : Frame} {r : Res} (hc : f.command = Cmd.commit) (t : Bytes)
      (ht : f.header.contains Hdr.transaction = some t) (l : List Frame) (hl : c.tx.get? t = some l)
      (hr : Rcpt c ok f c1 f1 true) (h : Committed c1 l c2 r) :
      Handled c ok f { c2 with tx := c.tx.del t } f1 r

/-- All frames held in transactions are of the kind that can be there. -/
def TxOk (c : Conn) : Prop := ∀ t l, c.tx.get? t = some l → ∀ f ∈ l, Stored f

theorem handled (cfg : Config) (c : Conn) (ok : Bool) (f : Frame) (hc : c.connected = true) (htx : TxOk c) :
    Handled c ok f (c.stateFunc cfg ok f).1 (c.stateFunc cfg ok f).2.1 (c.stateFunc cfg ok f).2.2 := by
  unfold Conn.stateFunc
  rw [if_neg (by simp [hc])]
  split
  · rename_i hcm
    unfold Conn.handleCommit
    split
    · rename_i h; exact Handled.commitMissing hcm h
    · rename_i t h
      have hr := rcpt c ok f
      generalize c.sendReceipt ok f = x at hr
      obtain ⟨c1, f1, k⟩ := x
      dsimp only at hr ⊢
      cases k with
      | false => exact Handled.commitWrite hcm t h hr
      | true =>
        simp only [Bool.not_true, Bool.false_eq_true, if_false, TxStore.commit, hr.tx]
        cases hg : c.tx.get? t with
        | none => exact Handled.commitUnknown hcm t h hg hr
        | some l => exact Handled.commit hcm t h l hg hr (committed ok l c1 (htx t l hg))
  · rename_i hcm; exact Handled.basic hcm (basic c ok f)

theorem Handled.keeps {c : Conn} {ok : Bool} {f : Frame} {c' : Conn} {f' : Frame} {r : Res} (h : Handled c ok f c' f' r) :
    Keeps c c' := by
  cases h with
  | basic _ h => exact h.keeps
  | commitMissing => exact Keeps.refl c
  | commitWrite _ _ _ hr => exact hr.keeps
  | commitUnknown _ _ _ _ hr => exact hr.keeps
  | commit _ _ _ _ _ hr h =>
    exact (hr.keeps.trans h.keeps).trans ⟨rfl, rfl, rfl, rfl, rfl, rfl, rfl, rfl, rfl, rfl, rfl, rfl, rfl⟩

end Stomp.Server
