import Verif.Props.Client.Failure
import Verif.Proofs.Client.Slow
/-!
# C60: a subscription that is not read
-/
namespace Stomp.Client
open Stomp

/-- **C60 fails, in general**: 16 messages are on the channel `C` of a subscription, its `readLoop` has the next one in hand, and `processLoop` is
at the send of a further frame to it. As long as nobody receives from that `C`, in every continuation `processLoop` takes no request, reads no frame,
and writes nothing, heart-beats included; every call that waits for its receipt without a timer keeps waiting, and every other subscription gets
nothing, whatever the server sends. -/
theorem C60_stuck {cfg : Cfg} {n : Nat} {es es' : List Ev} {s s' : Sys} {i c : Nat} {b : Sub} {x : CMsg} {f : Frame}
    (h : (Sys.init n).run cfg es = some s) (hb : s.subs[i]? = some b) (hrl : b.rl = .put x) (hlen : b.buf.length = 16)
    (hn : s.chans[c]? = some ⟨.sub i, false⟩) (hs : Spec.Sending s f c) (ht : Ev.take i ∉ es') (h' : s.run cfg es' = some s') :
    s'.loop = s.loop ∧ Spec.loopLog s' = Spec.loopLog s ∧
    (∀ (u : Nat) (th : Thread) (m : Nat) (o : Owner), s.threads[u]? = some th → th.pc = .wait m → s.chans[m]? = some ⟨o, false⟩ →
      Spec.timer cfg th.call = false → ∃ th', s'.threads[u]? = some th' ∧ th'.pc = .wait m) ∧
    (∀ (j : Nat) (d : Sub) (o : Owner), s.subs[j]? = some d → d.rl = .recv → s.chans[d.chan]? = some ⟨o, false⟩ →
      ∃ d' : Sub, s'.subs[j]? = some d' ∧ d'.rl = .recv) := by
  have hg : Dammed i c s := ⟨uinv_run (uinv_init n) h, ⟨b, x, hb, hrl, by omega⟩, ⟨f, hs⟩, hn⟩
  obtain ⟨_, hr, h3, h4⟩ := dammed_run hg ht h'
  refine ⟨hr.1, loopLog_rests hr, ?_, ?_⟩
  · intro u th m o hu hm ho harm
    obtain ⟨_, th', hu', h1 | ⟨_, h1⟩⟩ := h3 u m ⟨⟨o, ho⟩, th, hu, .inl hm⟩
    · exact ⟨th', hu', h1⟩
    · obtain ⟨th2, h2, hc⟩ := (ext_run h').threads u th hu
      rw [hu'] at h2; cases h2
      rw [hc, ← timer_eq, harm] at h1; cases h1
  · intro j d o hd hdr ho
    obtain ⟨_, d', hd', _, h1⟩ := h4 j d.chan ⟨⟨o, ho⟩, d, hd, rfl, hdr⟩
    exact ⟨d', hd', h1⟩

/-- **C60 fails, in general**: this is where the 18th message leads, of which none was received. -/
theorem C60_reached {cfg : Cfg} {s : Sys} {c : Nat} {k : Bytes} {g : Frame} {rest : List (Option Frame)} (hp : s.crashed = none) (hl : s.loop = .select)
    (hq : s.readCh = some g :: rest) (hg : g.command = Cmd.message) (hk : g.header.contains Hdr.subscription = some k)
    (hc : s.channels.get? k = some c) :
    ∃ s', s.step cfg (.loopRead []) = some s' ∧ Spec.Sending s' g c ∧ s'.chans = s.chans ∧ s'.subs = s.subs := by
  refine ⟨{ s with readCh := rest, trace := s.trace ++ [.took (some g)], loop := .message g c }, ?_, .inr (.inl rfl), rfl, rfl⟩
  have h1 : Cmd.message ≠ Cmd.receipt := by decide
  have h2 : Cmd.message ≠ Cmd.error := by decide
  simp only [Sys.step, hp, Option.isSome_none, Bool.false_eq_true, if_false, hl, if_true, Sys.loopRead, hq, hg, hk, hc, h1, h2]

/-- **C60**, partial: `processLoop` at the send of a frame to a subscription goes on, at once or after `readLoop` has put the message it has in hand
on `C`, as long as fewer than 16 messages are there (and `Unsubscribe` has not closed it after the loss of the connection).

`_partial`: fewer than 16 messages on `C`. Without SUBSCRIBE frames that ask for a receipt, for these are registered twice. -/
theorem C60_goes_on_partial {cfg : Cfg} {n : Nat} {es : List Ev} {s : Sys} {f : Frame} {c i : Nat} {a : Bool} {b : Sub}
    (h : (Sys.init n).run cfg es = some s) (hp : s.crashed = none) (hs : Spec.Sending s f c) (hn : s.chans[c]? = some ⟨.sub i, a⟩)
    (hb : s.subs[i]? = some b) (hlen : b.buf.length < 16) (hcl : b.cClosed = false)
    (hd : ∀ t r, .accepted t r ∈ s.trace → r.frame.command = Cmd.subscribe → r.frame.header.contains Hdr.receipt = none) :
    (∃ s', s.step cfg (.deliver true) = some s') ∨ ∃ s1 s', s.step cfg (.sub i) = some s1 ∧ s1.step cfg (.deliver true) = some s' := by
  rcases C26_send_partial h hp hs hd with h1 | ⟨t, th, h1, _⟩ | ⟨j, d, x, h1, h2, h3⟩
  · exact .inl h1
  · rw [hn] at h1; cases h1
  · rw [hn] at h1; cases h1
    rw [hb] at h2; cases h2
    refine .inr ⟨s.setSub i { b with buf := b.buf ++ [x], got := b.got ++ [x], rl := .recv }, ?_⟩
    have hb1 : (s.setSub i { b with buf := b.buf ++ [x], got := b.got ++ [x], rl := .recv }).subs[i]? =
        some { b with buf := b.buf ++ [x], got := b.got ++ [x], rl := .recv } := set_get hb
    obtain ⟨s2, hs2⟩ := handOver_ready_sub (s := s.setSub i { b with buf := b.buf ++ [x], got := b.got ++ [x], rl := .recv }) (f := f) (b := true) hn hb1 rfl
    obtain ⟨s', hs'⟩ := deliver_of (s := s.setSub i { b with buf := b.buf ++ [x], got := b.got ++ [x], rl := .recv }) (cfg := cfg) hp hs hs2
    refine ⟨s', ?_, hs'⟩
    simp only [Sys.step, hp, Option.isSome_none, Bool.false_eq_true, if_false, Sys.subStep, hb, h3, hcl, hlen, if_true]

namespace Ex

/-- A MESSAGE for a subscription comes and is put on `C`. -/
def arrive (sub : Bytes) (i : Nat) : List Ev := [.net (some (message sub b!"a")), .loopRead [], .deliver true, .sub i]

/-- Two subscriptions, of which the first is not read, and a `Send` that waits for its receipt. 16 messages for the first subscription, another one,
for which there is no room. -/
def unread : List Ev :=
  [.call (.subscribe b!"/q" .auto []), .thread 0, .thread 0, .call (.subscribe b!"/r" .auto []), .thread 1, .thread 1,
   .call receipted, .thread 2, .thread 2, .loopWrite true [], .loopWrite true [], .loopWrite true []] ++ arrive b!"2" 1 ++ [.take 1] ++
  (List.replicate 16 (arrive b!"1" 0)).flatten ++ [.net (some (message b!"1" b!"b")), .loopRead [], .deliver true]

/-- Yet another message for the first subscription. Then a message for the second one, and the RECEIPT. -/
def unread2 : List Ev :=
  [.net (some (message b!"1" b!"c")), .loopRead [], .net (some (message b!"2" b!"d")), .net (some (receiptFrame b!"3"))]

def endUnread1 : Sys := ((Sys.init 0).run cfgPlain unread).getD (Sys.init 0)
theorem unread1_run : (Sys.init 0).run cfgPlain unread = some endUnread1 := by decide +kernel
def endUnread : Sys := ((Sys.init 0).run cfgPlain (unread ++ unread2)).getD (Sys.init 0)
theorem unread_run : (Sys.init 0).run cfgPlain (unread ++ unread2) = some endUnread := by decide +kernel

end Ex

/-- **C60, in full, is false**: the first of two subscriptions is not read. A message for the second one and the RECEIPT for a `Send` have arrived. In no
continuation in which the first one is not read, `Send` returns, the second subscription gets its message, or a heart-beat is written. -/
theorem C60_false : ∃ es s, (Sys.init 0).run Ex.cfgPlain es = some s ∧ s.crashed = none ∧
    s.readCh = [some (Ex.message b!"2" b!"d"), some (Ex.receiptFrame b!"3")] ∧
    ∀ es' s', Ev.take 0 ∉ es' → s.run Ex.cfgPlain es' = some s' →
      (∃ th, s'.threads[2]? = some th ∧ th.pc = .wait 2) ∧ (∃ d, s'.subs[1]? = some d ∧ d.rl = .recv) ∧
      Spec.loopLog s' = Spec.loopLog s := by
  refine ⟨Ex.unread ++ Ex.unread2, Ex.endUnread, Ex.unread_run, by decide +kernel, by decide +kernel, ?_⟩
  intro es' s' ht h'
  obtain ⟨_, h2, h3, h4⟩ := C60_stuck (i := 0) (c := 0) (b := (Ex.endUnread.subs[0]?).getD (Sub.new [] false 0)) (x := .msg (Ex.message b!"1" b!"b"))
    (f := Ex.message b!"1" b!"c") Ex.unread_run (by decide +kernel) (by decide +kernel) (by decide +kernel) (by decide +kernel)
    (.inr (.inl (by decide +kernel))) ht h'
  exact ⟨h3 2 ⟨Ex.receipted, .wait 2, .none⟩ 2 (.caller 2) (by decide +kernel) rfl (by decide +kernel) rfl,
    h4 1 ((Ex.endUnread.subs[1]?).getD (Sub.new [] false 0)) (.sub 1) (by decide +kernel) (by decide +kernel) (by decide +kernel), h2⟩

-- `C60_reached`: the 18th message.
example : ((Sys.init 0).run Ex.cfgPlain (Ex.unread ++ [.net (some (Ex.message b!"1" b!"c"))])).map (fun s =>
    (s.crashed, s.loop, s.readCh, AMap.get? s.channels b!"1")) = some (none, .select, [some (Ex.message b!"1" b!"c")], some 0) := by decide +kernel

-- `C60_goes_on_partial`: the second message comes while the first one is not yet on `C`.
example : ((Sys.init 0).run Ex.cfgPlain (Ex.unread.take 12 ++ [.net (some (Ex.message b!"1" b!"a")), .loopRead [], .deliver true,
    .net (some (Ex.message b!"1" b!"b")), .loopRead []])).map (fun s => (s.crashed, s.loop, s.chans[0]?)) =
    some (none, .message (Ex.message b!"1" b!"b") 0, some ⟨.sub 0, false⟩) := by decide +kernel
example : ((Sys.init 0).run Ex.cfgPlain (Ex.unread.take 12 ++ [.net (some (Ex.message b!"1" b!"a")), .loopRead [], .deliver true,
    .net (some (Ex.message b!"1" b!"b")), .loopRead []])).map (fun s => s.subs.map fun b => (b.buf.length, b.cClosed)) =
    some [(0, false), (0, false)] := by decide +kernel
example : (((Sys.init 0).run Ex.cfgPlain (Ex.unread.take 12 ++ [.net (some (Ex.message b!"1" b!"a")), .loopRead [], .deliver true,
    .net (some (Ex.message b!"1" b!"b")), .loopRead []])).map fun s => s.trace.all fun o => match o with
    | .accepted _ r => !decide (r.frame.command = Cmd.subscribe) || (r.frame.header.contains Hdr.receipt).isNone
    | _ => true) = some true := by decide +kernel

end Stomp.Client
