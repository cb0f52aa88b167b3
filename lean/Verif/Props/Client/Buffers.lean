import Verif.Model.Client.Buffers
import Verif.Model.Client.Connect
import Verif.Spec.Buffers
import Verif.Props.BufioWriter
/-! # C98: what the options of a connection are good for; sizes of buffers -/
namespace Stomp.Client
open Stomp

/-- Where the options keep a number. -/
def Options.knob (o : Options) : Spec.Knob → Int
  | .heartBeatError => o.heartBeatError
  | .msgSend => o.msgSendTimeout
  | .rcvReceipt => o.rcvReceiptTimeout
  | .disconnectReceipt => o.disconnectReceiptTimeout
  | .unsubscribeReceipt => o.unsubscribeReceiptTimeout
  | .readChannel => o.readChannelCapacity
  | .writeChannel => o.writeChannelCapacity
  | .readBuffer => o.readBufferSize
  | .writeBuffer => o.writeBufferSize

theorem addVersions_knob {vs : List Bytes} {o o' : Options} (h : addVersions o vs = some o') (k : Spec.Knob) : o'.knob k = o.knob k := by
  induction vs generalizing o with
  | nil => cases h; rfl
  | cons v vs ih =>
    unfold addVersions at h
    split at h
    · rw [ih h]; cases k <;> rfl
    · cases h

theorem applyOpt_knob {o o' : Options} {opt : ConnOpt} (h : applyOpt o opt = some o') (k : Spec.Knob) : o'.knob k = (Spec.says k opt).getD (o.knob k) := by
  cases opt with
  | acceptVersion vs => rw [addVersions_knob h k]; cases k <;> rfl
  | _ => cases h; cases k <;> rfl

theorem applyOpts_knob {opts : List ConnOpt} {o o' : Options} (h : applyOpts o opts = some o') (k : Spec.Knob) : o'.knob k = Spec.lastOf (Spec.says k) opts (o.knob k) := by
  induction opts generalizing o with
  | nil => cases h; rfl
  | cons opt rest ih =>
    unfold applyOpts at h
    split at h
    · cases h
    · rename_i o1 h1
      rw [ih h, applyOpt_knob h1 k]
      unfold Spec.lastOf
      cases hs : Spec.says k opt with
      | none => rw [List.filterMap_cons_none hs]; rfl
      | some v =>
        rw [List.filterMap_cons_some hs]
        cases hr : (rest.filterMap (Spec.says k)).getLast? with
        | none => rw [List.getLast?_eq_none_iff.1 hr]; rfl
        | some w => rw [List.getLast?_cons, hr]; rfl

/-- **C98.** Of each of the options with one number the last one given counts; if there is none the standard value is used. -/
theorem C98_last {opts : List ConnOpt} {o : Options} (h : newConnOptions opts = some o) (k : Spec.Knob) : o.knob k = Spec.lastOf (Spec.says k) opts (Spec.standard k) := by
  unfold newConnOptions at h
  split at h
  · cases h
  · rename_i o1 h1
    have h2 := applyOpts_knob h1 k
    have h3 : ({} : Options).knob k = Spec.standard k := by cases k <;> decide
    rw [h3] at h2
    split at h <;> (cases h; rw [← h2])
    cases k <;> rfl

/-- **C98.** The buffer of the reader is as large as asked for (though not below 16 bytes), or 4096 bytes. -/
theorem C98_reader {opts : List ConnOpt} {o : Options} (h : newConnOptions opts = some o) : (buffers o).reader = max 16 (Spec.sized .readBuffer opts 4096) := by
  have h1 : o.readBufferSize = Spec.lastOf (Spec.says .readBuffer) opts 0 := C98_last h .readBuffer
  unfold buffers readerSize Spec.sized
  rw [h1]
  dsimp only
  split <;> rfl

theorem resolveHost_knob (o : Options) (remote : Option Bytes) (k : Spec.Knob) : (resolveHost o remote).knob k = o.knob k := by
  have host : ∀ (x : Options) (h : Bytes), ({ x with host := h } : Options).knob k = x.knob k := fun x h => by cases k <;> rfl
  unfold resolveHost
  by_cases h1 : o.host = []
  · rw [if_pos h1]
    cases remote with
    | none => dsimp only; rw [if_pos h1]; exact host o _
    | some h =>
      dsimp only
      by_cases h2 : h = []
      · rw [if_pos h2]; exact (host { o with host := h } _).trans (host o h)
      · rw [if_neg h2]; exact host o h
  · rw [if_neg h1]

/-- **C98.** So it is with the connection: the timeouts are those asked for, or the standard ones, and the channels to and from `processLoop` have the capacities asked for, or 20. -/
theorem C98_settings {opts : List ConnOpt} {remote : Option Bytes} {ok : Bool} {inp : Bytes} {f : Option Frame} {ci : ConnInfo} (h : connect opts remote ok inp = (f, .ok ci)) :
    ci.msgSendTimeout = Spec.lastOf (Spec.says .msgSend) opts 10000000000 ∧ ci.rcvReceiptTimeout = Spec.lastOf (Spec.says .rcvReceipt) opts 30000000000 ∧
    ci.disconnectReceiptTimeout = Spec.lastOf (Spec.says .disconnectReceipt) opts 30000000000 ∧
    ci.unsubscribeReceiptTimeout = Spec.lastOf (Spec.says .unsubscribeReceipt) opts 30000000000 ∧
    ci.readCap = Spec.sized .readChannel opts 20 ∧ ci.writeCap = Spec.sized .writeChannel opts 20 := by
  unfold connect at h
  split at h
  · cases h
  · rename_i o ho
    have hk : ∀ k, (resolveHost o remote).knob k = Spec.lastOf (Spec.says k) opts (Spec.standard k) := by
      intro k
      rw [← C98_last ho k]
      exact resolveHost_knob o remote k
    dsimp only at h
    split at h
    · cases h
    · injection h with _ h
      have size : ∀ k, Spec.standard k = 0 → (if (resolveHost o remote).knob k > 0 then (resolveHost o remote).knob k else 20) = ((Spec.sized k opts 20 : Nat) : Int) := by
        intro k h0
        rw [hk k, h0]
        unfold Spec.sized
        split
        · omega
        · rfl
      unfold handleResponse at h
      split at h
      · cases h
      · cases h
      · split at h
        · cases h
        · dsimp only at h
          split at h
          · cases h
          · split at h
            · cases h
            · cases h
              exact ⟨hk .msgSend, hk .rcvReceipt, hk .disconnectReceipt, hk .unsubscribeReceipt, size .readChannel rfl, size .writeChannel rfl⟩

/-- The buffer of the writer is as large as asked for, or 4096 bytes. -/
def C98_claim : Prop := ∀ opts o, newConnOptions opts = some o → (buffers o).writer = Spec.sized .writeBuffer opts 4096

/-- **C98** is false of the buffer of the writer: `WriteBufferSize` is taken as a wish for a buffer of the size that `ReadBufferSize` says (`conn.go:121`). -/
theorem C98_false_writer : ¬C98_claim := fun h => absurd (h [.writeBufferSize 8192] _ rfl) (by decide)

/-- **C98** (part). What the buffer of the writer is: if a positive size was asked for, it has the size of the reader's option, or 4096 bytes if that is not given. So it is as large as asked for only if
nothing was asked for, the two options say the same, or the writer's says 4096 and the reader's nothing. Missing: all other options. -/
theorem C98_writer_partial {opts : List ConnOpt} {o : Options} (h : newConnOptions opts = some o) :
    (buffers o).writer = (if Spec.lastOf (Spec.says .writeBuffer) opts 0 > 0 then Spec.sized .readBuffer opts 4096 else 4096) ∧
    ((buffers o).writer = Spec.sized .writeBuffer opts 4096 ↔
      Spec.lastOf (Spec.says .writeBuffer) opts 0 ≤ 0 ∨ Spec.sized .readBuffer opts 4096 = Spec.sized .writeBuffer opts 4096) := by
  have h1 : o.readBufferSize = Spec.lastOf (Spec.says .readBuffer) opts 0 := C98_last h .readBuffer
  have h2 : o.writeBufferSize = Spec.lastOf (Spec.says .writeBuffer) opts 0 := C98_last h .writeBuffer
  have e : (buffers o).writer = (if Spec.lastOf (Spec.says .writeBuffer) opts 0 > 0 then Spec.sized .readBuffer opts 4096 else 4096) := by
    unfold buffers writerSize Spec.sized
    rw [h1, h2]
    dsimp only
    split
    · split
      · rw [if_neg (by omega)]
      · rw [if_pos (by omega)]
    · rfl
  refine ⟨e, ?_⟩
  rw [e]
  by_cases hw : Spec.lastOf (Spec.says .writeBuffer) opts 0 > 0
  · rw [if_pos hw]
    exact ⟨.inr, fun h => h.resolve_left (by omega)⟩
  · rw [if_neg hw]
    refine ⟨fun _ => .inl (by omega), fun _ => ?_⟩
    unfold Spec.sized
    rw [if_neg hw]

end Stomp.Client

namespace Stomp

theorem bwWrite_fits (d : Bool) (fuel : Nat) (p : Bytes) (s : BW) (he : s.err = false) (hl : s.buf.length + p.length ≤ s.cap) :
    bwWrite d (fuel + 1) p s = { s with buf := s.buf ++ p } := by
  unfold bwWrite
  rw [if_neg (by omega), if_neg (by rw [he]; simp)]

theorem bwPieces_fits (ps : List (Bool × Bytes)) (s : BW) (he : s.err = false) (hl : s.buf.length + ((ps.map (·.2)).flatten).length ≤ s.cap) :
    bwPieces ps s = { s with buf := s.buf ++ (ps.map (·.2)).flatten } := by
  induction ps generalizing s with
  | nil => simp [bwPieces]
  | cons x ps ih =>
    obtain ⟨d, p⟩ := x
    simp only [List.map_cons, List.flatten_cons, List.length_append] at hl ⊢
    unfold bwPieces
    rw [bwWrite_fits d _ p s he (by omega)]
    dsimp only
    rw [if_neg (by rw [he]; simp), ih { s with buf := s.buf ++ p } he (by simp only [List.length_append]; omega)]
    simp only [List.append_assoc]

theorem writeFrame_pos (f : Option Frame) : (writeFrame f).length ≠ 0 := by
  cases f with
  | none => decide
  | some f => unfold writeFrame; simp

/-- **C98.** A frame (or heart-beat) that fits into the buffer of the writer is given to the transport by one call of `Write`, with all its bytes; the answer of that call is the answer of the frame. -/
theorem C98_one_piece (f : Option Frame) (s : BW) (he : s.err = false) (hb : s.buf = []) (hl : (writeFrame f).length ≤ s.cap) :
    (bwFrame f s).1 = (s.oracle.head?.getD none).isNone ∧ (bwFrame f s).2.oracle = s.oracle.tail ∧
    (bwFrame f s).2.wire = s.wire ++ (match s.oracle.head?.getD none with | none => writeFrame f | some k => (writeFrame f).take k) := by
  unfold bwFrame
  have h1 : bwPieces (framePieces f) s = { s with buf := writeFrame f } := by
    rw [bwPieces_fits _ s he (by rw [hb, framePieces_flatten]; simpa using hl), framePieces_flatten, hb]; rfl
  rw [h1]
  dsimp only
  rw [if_neg (by rw [he]; simp)]
  unfold bwFlush
  dsimp only
  rw [if_neg (by rw [he]; simp), if_neg (writeFrame_pos f)]
  unfold transportWrite
  cases ho : s.oracle with
  | nil => simp [he]
  | cons a o => cases a <;> simp [he]

/-- With `WriteBufferSize(8192)` and a small buffer for reading, a frame of less than 8192 bytes is not written in one piece: when the transport accepts one write and no other, half of it has been sent. -/
theorem C98_false_one_piece : ¬∀ opts o n f, Client.newConnOptions opts = some o → Client.Spec.lastOf (Client.Spec.says .writeBuffer) opts 0 = (n : Int) → 0 < n →
    (writeFrame f).length ≤ n → (bwFrame f (newWriterSize (Client.buffers o).writer [none, some 0])).1 = true := by
  intro h
  exact absurd (h [.readBufferSize 16, .writeBufferSize 8192] _ 8192 (some ⟨b!"SEND", [(b!"destination", b!"/queue/a")], [7]⟩) rfl (by decide) (by decide) (by decide)) (by decide +kernel)

/-! ## Examples -/

open Client in
example : (newConnOptions [.msgSendTimeout 1, .readBufferSize 100, .msgSendTimeout 2]).map (fun o => (o.knob .msgSend, o.knob .rcvReceipt, buffers o)) = some (2, 30000000000, ⟨100, 4096⟩) := by
  decide
open Client in
-- Nothing asked for; a size for the writer that is ignored; a size for the reader that the writer gets.
example : (newConnOptions []).map buffers = some ⟨4096, 4096⟩ ∧ (newConnOptions [.writeBufferSize 65536]).map buffers = some ⟨4096, 4096⟩ ∧
    (newConnOptions [.readBufferSize 10, .writeBufferSize 65536]).map buffers = some ⟨16, 10⟩ := by decide
open Client in
example : (match connect [.heartBeat 0 0, .readChannelCapacity 3, .writeChannelCapacity (-1), .disconnectReceiptTimeout 7] none true (writeFrame (some ⟨b!"CONNECTED", [], []⟩)) with
    | (_, .ok ci) => some (ci.readCap, ci.writeCap, ci.disconnectReceiptTimeout)
    | _ => none) = some (3, 20, 7) := by decide +kernel
-- C98_one_piece: one of two writes fails.
example : (bwFrame (some ⟨b!"SEND", [(b!"destination", b!"/queue/a")], [7]⟩) (newWriterSize 64 [none, some 0])).1 = true ∧
    (writeFrame (some ⟨b!"SEND", [(b!"destination", b!"/queue/a")], [7]⟩)).length ≤ (newWriterSize 64 [none, some 0]).cap ∧
    (bwFrame (some ⟨b!"SEND", [(b!"destination", b!"/queue/a")], [7]⟩) (newWriterSize 64 [some 5])).2.wire = b!"SEND\n" := by decide +kernel

end Stomp
