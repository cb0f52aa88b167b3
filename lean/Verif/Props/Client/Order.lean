import Verif.Proofs.Client.Order
import Verif.Props.Client.Closed
/-!
# C21: frames go out in the order in which they were accepted
-/
namespace Stomp.Client
open Stomp

theorem order_run {cfg : Cfg} {n : Nat} {s : Sys} {es : List Ev} (h : (Sys.init n).run cfg es = some s) : OrderInv s :=
  run_induction (P := OrderInv) (fun _ _ _ hp h => order_step hp (step_cases h).2) es _ _ ⟨rfl, .inl rfl⟩ h

/-- **C21.** What has been written is what goes over the wire for a prefix of the requests accepted so far, in
the order of acceptance: nothing is duplicated, reordered or skipped. -/
theorem C21_prefix {cfg : Cfg} {n : Nat} {es : List Ev} {s : Sys} (h : (Sys.init n).run cfg es = some s) :
    ∃ out rest, Spec.handedOver s = out ++ rest ∧ Spec.written s = out.filterMap (fun r => Spec.wire r.frame) := by
  have hi := order_run h
  have hq : Spec.handedOver s = takenIn s.trace ++ s.writeCh := hi.queue
  rcases hi.wire with hw | ⟨_, pre, r, ht, hw⟩
  · exact ⟨_, _, hq, hw⟩
  · exact ⟨pre, r :: s.writeCh, by rw [hq, ht]; simp, hw⟩

/-- **C21**, nothing held back: unless writing has failed or the connection has ended, all accepted requests
have been written but those still in `writeCh`. -/
theorem C21_all {cfg : Cfg} {n : Nat} {es : List Ev} {s : Sys} (h : (Sys.init n).run cfg es = some s)
    (hl : ∀ f l, s.loop ≠ .fail f l) (hd : s.loop ≠ .done) :
    ∃ out, Spec.handedOver s = out ++ s.writeCh ∧ Spec.written s = out.filterMap (fun r => Spec.wire r.frame) := by
  have hi := order_run h
  rcases hi.wire with hw | ⟨hs, _⟩
  · exact ⟨_, hi.queue, hw⟩
  · cases hc : s.loop <;> simp_all [LoopPc.stopped]

/-! ## Examples -/

namespace Ex

/-- Two SENDs, a subscription to a temporary queue, a SUBSCRIBE and an UNSUBSCRIBE by five callers, with a
heart-beat; the last request is still queued. -/
def five : List Ev :=
  [.call (.send b!"/q" [] b!"x" []), .call (.subscribe b!"/temp" .auto [.header Hdr.replyTo b!"/temp"]),
   .call (.subscribe b!"/q" .auto [.header Hdr.id b!"s1"]), .call (.send b!"/q" [] b!"y" []),
   .thread 3, .thread 3, .thread 1, .thread 1, .loopWrite true [], .thread 2, .thread 2, .loopBeat true [],
   .loopWrite true [], .call (.unsubscribe 1 []), .thread 4, .thread 4, .thread 4, .loopWrite true [], .thread 0,
   .loopWrite true [], .thread 0]

def endFive : Sys := ((Sys.init 0).run cfg five).getD (Sys.init 0)
theorem five_run : (Sys.init 0).run cfg five = some endFive := by decide +kernel

end Ex

example : (Spec.handedOver Ex.endFive).map (·.frame.command) =
    [Cmd.send, Cmd.subscribe, Cmd.subscribe, Cmd.unsubscribe, Cmd.send] := by decide +kernel
example : (Spec.written Ex.endFive).map (fun f => (f.command, f.header.contains Hdr.receipt)) =
    [(Cmd.send, none), (Cmd.subscribe, none), (Cmd.unsubscribe, some b!"s1")] := by decide +kernel
example : Ex.endFive.loop = .select ∧ Ex.endFive.writeCh.length = 1 := by decide +kernel

end Stomp.Client
