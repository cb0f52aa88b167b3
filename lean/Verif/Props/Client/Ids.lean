import Verif.Props.Client.Frames
/-!
# Property C17: the ids in the frames the library makes
-/
namespace Stomp.Client
open Stomp

/-- A call that makes the library choose an id, or not. -/
inductive IdCall
  | begin_
  | finish (tx : Tx) (commit receipt ok : Bool)
  | subscribe (dest : Bytes) (ack : AckMode)
  | send (dest ctype body : Bytes) (receipt : Bool)

/-- The counter after the call, and the frame it makes. -/
def IdCall.go (last : Nat) : IdCall → Nat × Option Frame
  | .begin_ => ((txBegin last).1, some (txBegin last).2.2)
  | .finish tx commit receipt ok =>
    let r := txStep b!"1.2" last tx (if commit then .commit receipt else .abort receipt) ok
    (r.1, r.2.2.1)
  | .subscribe dest ack =>
    match createSubscribeFrame last dest ack [] with
    | some (l, f, _) => (l, some f)
    | none => (last, none)
  | .send dest ctype body receipt =>
    match createSendFrame last dest ctype body (if receipt then [.receipt] else []) with
    | some (l, f) => (l, some f)
    | none => (last, none)

/-- The values of a header entry. -/
def Spec.entries (f : Frame) (k : Bytes) : List Bytes := (f.header.filter (fun e => e.1 = k)).map (·.2)

/-- The ids which the library has chosen, in a frame: the name of the transaction that begins, the id of the subscription, the receipt asked for. -/
def Spec.chosen (f : Frame) : List Bytes :=
  if f.command = b!"BEGIN" then Spec.entries f b!"transaction"
  else if f.command = b!"SUBSCRIBE" then Spec.entries f b!"id"
  else Spec.entries f b!"receipt"

/-- The ids in the frames of calls made one after the other, by whichever goroutines. -/
def Spec.ids : Nat → List IdCall → List Bytes
  | _, [] => []
  | last, c :: cs => ((c.go last).2.map Spec.chosen).getD [] ++ Spec.ids (c.go last).1 cs

theorem go_cases (last : Nat) (c : IdCall) :
    ((c.go last).1 = last ∧ ((c.go last).2.map Spec.chosen).getD [] = []) ∨
    ((c.go last).1 = (allocateId last).1 ∧ ((c.go last).2.map Spec.chosen).getD [] = [(allocateId last).2]) := by
  cases c with
  | begin_ => exact Or.inr ⟨rfl, rfl⟩
  | finish tx commit receipt ok =>
    cases hc : tx.completed with
    | true => left; cases commit <;> simp [IdCall.go, txStep, hc]
    | false =>
      cases receipt with
      | false =>
        left
        cases commit <;> cases ok <;> simp [IdCall.go, txStep, hc] <;> rfl
      | true =>
        right
        cases commit <;> cases ok <;> simp [IdCall.go, txStep, hc] <;> rfl
  | subscribe dest ack => exact Or.inr ⟨rfl, rfl⟩
  | send dest ctype body receipt =>
    cases receipt with
    | false => left; by_cases hc : ctype = [] <;> simp [IdCall.go, createSendFrame, applySendOpts, hc] <;> rfl
    | true => right; by_cases hc : ctype = [] <;> simp [IdCall.go, createSendFrame, applySendOpts, applySendOpt, hc] <;> exact ⟨rfl, rfl⟩

theorem ids_prefix (cs : List IdCall) (last : Nat) : ∃ n, n ≤ cs.length ∧ Spec.ids last cs = allocations last n := by
  induction cs generalizing last with
  | nil => exact ⟨0, Nat.le_refl _, rfl⟩
  | cons c cs ih =>
    obtain ⟨n, hn, h⟩ := ih (c.go last).1
    rcases go_cases last c with ⟨h1, h2⟩ | ⟨h1, h2⟩
    · exact ⟨n, by simp only [List.length_cons]; omega, by rw [Spec.ids, h2, List.nil_append, h, h1]⟩
    · exact ⟨n + 1, by simp only [List.length_cons]; omega, by rw [Spec.ids, h2, h, h1]; rfl⟩

/-- **C17**, in the frames: among up to 2^64 calls of `Begin`, `Commit`, `Abort`, `Subscribe` and `Send`, in any order and wherever the counter starts, no two frames carry the same name of a new transaction, subscription id or
receipt id. -/
theorem C17_frames (last : Nat) (cs : List IdCall) (hn : cs.length ≤ 2 ^ 64) : (Spec.ids last cs).Nodup := by
  obtain ⟨n, h1, h2⟩ := ids_prefix cs last
  rw [h2]
  exact C17_unique last n (by omega)

/-- **C17**, in the frames: `Begin` and `Subscribe` always choose an id, `Commit`, `Abort` and `Send` do when a receipt is asked for. -/
theorem C17_chosen (last : Nat) (dest ctype body : Bytes) (ack : AckMode) (tx : Tx) (ht : tx.completed = false) (commit ok : Bool) :
    (Spec.ids last [.begin_]).length = 1 ∧ (Spec.ids last [.subscribe dest ack]).length = 1 ∧ (Spec.ids last [.send dest ctype body true]).length = 1 ∧
      (Spec.ids last [.finish tx commit true ok]).length = 1 := by
  refine ⟨rfl, rfl, ?_, ?_⟩
  · by_cases hc : ctype = [] <;> simp [Spec.ids, IdCall.go, createSendFrame, applySendOpts, applySendOpt, hc] <;> rfl
  · cases commit <;> cases ok <;> simp [Spec.ids, IdCall.go, txStep, ht] <;> rfl

example : Spec.ids 0 [.begin_, .send b!"/queue/a" [] [] true, .begin_, .subscribe b!"/queue/a" .auto, .finish ⟨b!"1", false⟩ true true true] =
    [b!"1", b!"2", b!"3", b!"4", b!"5"] := by decide

end Stomp.Client
