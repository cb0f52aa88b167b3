import Verif.Model.Client.System
/-! # Specification: what the client does by itself -/
namespace Stomp.Client.Spec
open Stomp Stomp.Client

/-- What the client does by itself. From outside come the calls, what is read from the network and the end of it, the times at which heart-beats are due, and other uses of the id counter. That the program receives from `C` counts as its own doing. -/
def Own : Ev → Prop
  | .call _ => False
  | .net _ => False
  | .netErr => False
  | .loopBeat .. => False
  | .tick => False
  | _ => True

/-- What the client does by itself without waiting for a timer. -/
def Prompt : Ev → Prop
  | .timeout _ => False
  | .loopTimeout _ => False
  | e => Own e

/-- The client can do nothing by itself unless a timer fires. -/
def Still (cfg : Cfg) (s : Sys) : Prop := ∀ e, Prompt e → s.step cfg e = none

/-- What a call can be waiting for. -/
inductive CallRest (cfg : Cfg) (s : Sys) (th : Thread) : Prop
  /-- it has returned -/
  | returned {r : Res} (h : th.pc = .ret r)
  /-- `closeMutex`, which another call holds -/
  | lock {u : Nat} (h : th.pc = .start ∨ ∃ f, th.pc = .lock f) (hm : s.mutex = some u)
  /-- room in `writeCh` -/
  | full {r : Req} (h : th.pc = .push r) (hf : cfg.writeCap ≤ s.writeCh.length)
  /-- the answer to its request -/
  | answer {n : Nat} (h : th.pc = .wait n) (hc : s.chanClosed n = false)
  /-- `Unsubscribe`: a broadcast -/
  | broadcast {i k : Nat} {o : List SubOpt} {b : Sub} (hc : th.call = .unsubscribe i o) (hb : s.subs[i]? = some b)
      (h : th.pc = .asleep k ∨ (th.pc = .select ∧ th.helper = .asleep k)) (hk : b.notified ≤ k)

/-- A subscription with nothing to do: its `readLoop` waits for a frame or has returned, and the program has received all there was. -/
def SubRest (s : Sys) (b : Sub) : Prop := b.buf = [] ∧ ((b.rl = .recv ∧ s.chanClosed b.chan = false) ∨ b.rl = .done)

end Stomp.Client.Spec
