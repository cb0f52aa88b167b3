import Verif.Proofs.Client.Reader
import Verif.Props.Client.Busy
import Verif.Props.Client.Unsubscribe
import Verif.Props.Client.Messages
/-! # C87: the goroutines of a connection that has ended (the client) -/
namespace Stomp.Client
open Stomp

/-- **C87**, the client. `processLoop` has returned, and the client has come to rest. Then `readLoop` has returned, or more than `readCap` frames were read that `processLoop` has not taken: `readCh` is full of
them and `readLoop` has one more in its hand. The `readLoop` of each subscription has returned, unless its SUBSCRIBE was never taken from `writeCh`. The goroutine that an `Unsubscribe` started to wait for the end of
its subscription has ended, or it has not been woken.

`_partial`: the three exceptions, see `C87_reader_false`, `C87_subscription_false`, `C87_helper_false`; no two requests with the same key. -/
theorem C87_client_partial {cfg : Cfg} {n : Nat} {es : List HSys.Ev} {x : HSys} (h : (HSys.init n).run cfg es = some x) (hc : x.sys.crashed = none)
    (hs : Spec.ReadStill cfg x) (hl : x.sys.loop = .done) (hd : Spec.Distinct x.sys) :
    (x.sys.readDone = true ∨ ((∃ f, x.hand = some f) ∧ cfg.readCap ≤ x.sys.readCh.length ∧ Spec.takenCount x.sys + cfg.readCap ≤ Spec.readCount x.sys)) ∧
    (∀ (i : Nat) (b : Sub), x.sys.subs[i]? = some b → b.rl = .done ∨ (b.rl = .recv ∧ ∀ r, .taken r ∈ x.sys.trace → r.chan ≠ some b.chan)) ∧
    (∀ (t : Nat) (th : Thread), x.sys.threads[t]? = some th → Spec.HelperRest x.sys th) := by
  obtain ⟨es', h'⟩ := rrun_sys h
  change (Sys.init n).run cfg es' = some x.sys at h'
  have hstill : Spec.Still cfg x.sys := by
    intro e he
    have h1 := hs (.other e) he
    cases e <;> first | exact he.elim | simpa [HSys.step] using h1
  refine ⟨?_, ?_, ?_⟩
  · cases hr : x.sys.readDone with
    | true => exact .inl rfl
    | false =>
      right
      cases hh : x.hand with
      | none =>
        have hf := hs .fail (netShut_run h' (C27_closed h' hl))
        simp [HSys.step, hh, Sys.step, hc, hr] at hf
      | some f =>
        have hp := hs .push trivial
        simp only [HSys.step, hh, Sys.step, hc, hr] at hp
        have hcap : cfg.readCap ≤ x.sys.readCh.length := by
          apply Nat.le_of_not_lt
          intro hlt
          rw [if_pos hlt] at hp
          simp at hp
        refine ⟨⟨f, rfl⟩, hcap, ?_⟩
        have hq := congrArg List.length (read_run h').queue
        rw [readCount_eq, takenCount_eq, hq, List.length_append]
        omega
  · intro i b hb
    have hi := end_run h'
    rcases (rest_sub h' hc hstill hb).2 with ⟨h1, h2⟩ | h1
    · refine .inr ⟨h1, ?_⟩
      intro r hr hrn
      have hreg : ∃ k, Spec.Registers r.frame k := by
        obtain ⟨t, ht⟩ := mem_handedIn (tr := x.sys.trace) (r := r)
          (by rw [hi.told.full.all.order.queue]; exact List.mem_append_left _ (List.mem_filterMap.2 ⟨_, hr, rfl⟩))
        exact ⟨b.id, ((own_sub hd hi.told.full.all.origin hi.sub hb).sub t r ht hrn).2 _ |>.2 rfl⟩
      obtain ⟨k, hk⟩ := hreg
      obtain ⟨⟨ow, c⟩, hc, hco⟩ := hi.sub.chan i b hb
      cases hco
      exact told_done hi.told hd hl hr hrn hk ⟨h2, .inr ⟨i, c, b, hc, hb, .inl h1⟩⟩
    · exact .inl h1
  · intro t th ht
    have hi := uinv_run (uinv_init n) h'
    by_cases hn : th.helper = .none
    · exact .absent (.inl hn)
    · obtain ⟨i, o, hcall⟩ := sound_run (sound_init n) h' t th ht (.inr hn)
      obtain ⟨b, hb⟩ := (hi.dom t th ht).sub i o hcall
      have hpc : th.pc ≠ .start ∧ th.pc ≠ .ret .completedSubscription :=
        ⟨fun e => hn ((hi.dom t th ht).fresh (.inl e)), fun e => hn ((hi.dom t th ht).fresh (.inr e))⟩
      have hok := hi.held t i _ _ b (won_call_of ht hcall hpc) hb
      have hhelp : x.sys.helper t = none := by
        have := hstill (.helper t) trivial
        rwa [step_helper hc] at this
      unfold Sys.helper at hhelp
      rw [ht] at hhelp
      simp only [hcall, hb] at hhelp
      cases hh : th.helper with
      | none => exact absurd hh hn
      | done => exact .absent (.inr hh)
      | start => rw [hh] at hhelp; simp only at hhelp; split at hhelp <;> cases hhelp
      | asleep k =>
        rw [hh] at hhelp; simp only at hhelp
        split at hhelp
        · cases hhelp
        · rename_i hk
          exact .asleep hh hcall hb (Nat.le_of_not_lt hk)
      | relock =>
        have hlate : th.pc.late = true := by
          have := hok.helper _ _ rfl
          rw [hh] at this
          simpa using this
        have hlock := hok.lock
        rw [lockedOf_late hlate, hh] at hlock
        have : b.locked = false := by simpa using hlock
        rw [hh] at hhelp
        simp [this] at hhelp

/-- **C87**, `readLoop` exactly. When `processLoop` has returned, `readLoop` can end, unless it has a frame in its hand and `readCh` is full; and then it never ends, whatever happens. -/
theorem C87_reader_exact {cfg : Cfg} {x : HSys} (hc : x.sys.crashed = none) (hl : x.sys.loop = .done) :
    (∃ es' y, x.run cfg es' = some y ∧ y.sys.readDone = true) ↔ (x.sys.readDone = true ∨ x.hand = none ∨ x.sys.readCh.length < cfg.readCap) := by
  constructor
  · rintro ⟨es', y, h1, h2⟩
    cases hr : x.sys.readDone with
    | true => exact .inl rfl
    | false =>
      right
      cases hh : x.hand with
      | none => exact .inl rfl
      | some f =>
        right
        apply Nat.lt_of_not_le
        intro hcap
        have := left_run (f := f) ⟨hl, hr, hh, hcap⟩ h1
        rw [this.2.1] at h2
        cases h2
  · intro hx
    cases hr : x.sys.readDone with
    | true => exact ⟨[], x, rfl, hr⟩
    | false =>
      cases hh : x.hand with
      | none => exact ⟨[.fail], { x with sys := { x.sys with readDone := true } }, by simp [HSys.run, HSys.step, hh, Sys.step, hc, hr], rfl⟩
      | some f =>
        have hlt : x.sys.readCh.length < cfg.readCap := by
          rcases hx with e | e | e
          · rw [hr] at e; cases e
          · rw [hh] at e; cases e
          · exact e
        refine ⟨[.push, .fail], { sys := { ({ x.sys with readCh := x.sys.readCh ++ [f] } : Sys).log (.read f) with readDone := true }, hand := none }, ?_, rfl⟩
        simp [HSys.run, HSys.step, hh, Sys.step, hc, hr, hlt, Sys.log]

/-- **C87**, the goroutine of an `Unsubscribe`: if it has missed the broadcast, it sleeps for ever. -/
theorem C87_helper_lost {cfg : Cfg} {n : Nat} {es : List Ev} {s : Sys} {t : Nat} {th : Thread} {i k : Nat} {o : List SubOpt} {b : Sub}
    (h : (Sys.init n).run cfg es = some s) (ht : s.threads[t]? = some th) (hcall : th.call = .unsubscribe i o) (hb : s.subs[i]? = some b)
    (ho : b.once = .done) (hh : th.helper = .asleep k) (hk : b.notified ≤ k) :
    ∀ es' s', s.run cfg es' = some s' → ∃ th', s'.threads[t]? = some th' ∧ th'.helper = .asleep k := by
  intro es' s' h'
  have hi := uinv_run (uinv_init n) h
  have hpc : th.pc ≠ .start ∧ th.pc ≠ .ret .completedSubscription :=
    ⟨fun e => (by cases hh.symm.trans ((hi.dom t th ht).fresh (.inl e))), fun e => (by cases hh.symm.trans ((hi.dom t th ht).fresh (.inr e)))⟩
  have hwon := won_call_of ht hcall hpc
  rw [hh] at hwon
  obtain ⟨b', pc, _, _, _, hw⟩ := (run_induction (P := fun s => UInv s ∧ HLost t i k s)
    (fun s e s' hp h => ⟨uinv_step hp.1 (step_cases h).2, hlost_step hp.1 hp.2 (step_cases h).2⟩) es' s s'
    ⟨hi, b, th.pc, hb, ho, hk, hwon⟩ h').2
  unfold Sys.won at hw
  cases hx : s'.threads[t]? with
  | none => rw [hx] at hw; cases hw
  | some th' =>
    rw [hx] at hw
    simp only [Option.bind_some, Thread.won] at hw
    split at hw
    · split at hw
      · cases hw
      · simp only [Option.some.injEq, Prod.mk.injEq] at hw
        exact ⟨th', rfl, hw.2.2⟩
    · cases hw

/-! ## Witnesses -/

namespace Ex

/-- A room for two frames in `readCh`. -/
def cfgTwo : Cfg := { cfgPlain with readCap := 2 }

/-- The server sends ERROR, and then goes on sending. -/
def flooded : List HSys.Ev :=
  [.read (some errorFrame), .push, .other (.loopRead []), .other .finish,
   .read (some (message b!"1" b!"a")), .push, .read (some (message b!"1" b!"b")), .push, .read (some (message b!"1" b!"c"))]

def endFlooded : HSys := ((HSys.init 0).run cfgTwo flooded).getD (HSys.init 0)
theorem flooded_run : (HSys.init 0).run cfgTwo flooded = some endFlooded := by decide +kernel

end Ex

/-- **C87 is false** (`readLoop` of the client): the connection has ended by an ERROR frame, `Disconnect` need not be called any more, the network connection is closed, and `readLoop` never ends: three more frames had come. -/
theorem C87_reader_false : ∃ es x, (HSys.init 0).run Ex.cfgTwo es = some x ∧ x.sys.crashed = none ∧ x.sys.loop = .done ∧ x.sys.closed = true ∧ x.sys.netClosed = true ∧ x.sys.threads = [] ∧
    ∀ es' y, x.run Ex.cfgTwo es' = some y → y.sys.readDone = false := by
  refine ⟨Ex.flooded, Ex.endFlooded, Ex.flooded_run, by decide +kernel, by decide +kernel, by decide +kernel, by decide +kernel, by decide +kernel, ?_⟩
  intro es' y h
  exact (left_run (f := some (Ex.message b!"1" b!"c")) ⟨by decide +kernel, by decide +kernel, by decide +kernel, by decide +kernel⟩ h).2.1

/-- **C87 is false** (subscriptions): `Subscribe` has returned, the connection is lost before the request is taken; the `readLoop` of the subscription never ends, not even if the program calls `Unsubscribe`. -/
theorem C87_subscription_false : ∃ es s, (Sys.init 0).run Ex.cfgPlain es = some s ∧ s.crashed = none ∧ s.loop = .done ∧ s.readDone = true ∧
    (∃ b : Sub, s.subs[0]? = some b ∧ b.returned = true) ∧
    ∀ es' s', s.run Ex.cfgPlain es' = some s' → ∃ b : Sub, s'.subs[0]? = some b ∧ b.rl = .recv := by
  refine ⟨Ex.subNotTaken, Ex.endSubNotTaken, Ex.subNotTaken_run, by decide +kernel, by decide +kernel, by decide +kernel,
    ⟨(Ex.endSubNotTaken.subs[0]?).getD (Sub.new [] false 0), by decide +kernel, by decide +kernel⟩, ?_⟩
  intro es' s' h'
  have hd : Deaf 0 0 [] Ex.endSubNotTaken := ⟨uinv_run (uinv_init 0) Ex.subNotTaken_run, by decide +kernel, ⟨.sub 0, by decide +kernel⟩,
    (Ex.endSubNotTaken.subs[0]?).getD (Sub.new [] false 0), by decide +kernel, by decide +kernel, by decide +kernel, .inl (by decide +kernel)⟩
  obtain ⟨b, hb, _, hrl, _⟩ := (deaf_run hd h').sub
  exact ⟨b, hb, hrl⟩

namespace Ex

/-- `Unsubscribe` has returned its timeout error, then `processLoop` finds the connection closed. -/
def lostThenClosed : List Ev := lostWakeup ++ [.helper 1, .timeout 1, .thread 1, .netErr, .loopRead [], .finish]

def endLostThenClosed : Sys := ((Sys.init 0).run cfg lostThenClosed).getD (Sys.init 0)
theorem lostThenClosed_run : (Sys.init 0).run cfg lostThenClosed = some endLostThenClosed := by decide +kernel

/-- A subscription gets a message and then the ERROR; the network goes on for a while. -/
def ended : List HSys.Ev :=
  [.other (.call (.subscribe b!"/q" .auto [])), .other (.thread 0), .other (.thread 0), .other (.loopWrite true []),
   .read (some (message b!"1" b!"a")), .push, .other (.loopRead []), .other (.deliver true), .other (.sub 0),
   .read (some errorFrame), .push, .other (.loopRead [0]), .other (.deliver true), .other .finish,
   .read (some (message b!"1" b!"b")), .push, .fail,
   .other (.sub 0), .other (.sub 0), .other (.sub 0), .other (.sub 0), .other (.sub 0), .other (.sub 0), .other (.take 0), .other (.take 0)]

def endEnded : HSys := ((HSys.init 0).run cfgTwo ended).getD (HSys.init 0)
theorem ended_run : (HSys.init 0).run cfgTwo ended = some endEnded := by decide +kernel

/-- A state in which nothing can be done, checked for the callers and subscriptions there are. -/
theorem still_of {cfg : Cfg} {x : HSys} (hc : x.sys.crashed = none) (hl : x.sys.loop = .done) (hp : x.step cfg .push = none)
    (hf : x.step cfg .fail = none)
    (ht : ∀ t < x.sys.threads.length, x.sys.step cfg (.thread t) = none ∧ x.sys.step cfg (.helper t) = none)
    (hb : ∀ i < x.sys.subs.length, x.sys.step cfg (.sub i) = none ∧ x.sys.step cfg (.take i) = none) : Spec.ReadStill cfg x := by
  intro e he
  cases e with
  | read f => exact he.elim
  | push => exact hp
  | fail => exact hf
  | other e =>
    cases e with
    | thread t =>
      rw [show x.step cfg (.other (.thread t)) = (x.sys.step cfg (.thread t)).map (fun s => { x with sys := s }) from rfl]
      by_cases h : t < x.sys.threads.length
      · rw [(ht t h).1]; rfl
      · simp [Sys.step, hc, Sys.thread, List.getElem?_eq_none (Nat.le_of_not_lt h)]
    | helper t =>
      rw [show x.step cfg (.other (.helper t)) = (x.sys.step cfg (.helper t)).map (fun s => { x with sys := s }) from rfl]
      by_cases h : t < x.sys.threads.length
      · rw [(ht t h).2]; rfl
      · simp [Sys.step, hc, Sys.helper, List.getElem?_eq_none (Nat.le_of_not_lt h)]
    | sub i =>
      rw [show x.step cfg (.other (.sub i)) = (x.sys.step cfg (.sub i)).map (fun s => { x with sys := s }) from rfl]
      by_cases h : i < x.sys.subs.length
      · rw [(hb i h).1]; rfl
      · simp [Sys.step, hc, Sys.subStep, List.getElem?_eq_none (Nat.le_of_not_lt h)]
    | take i =>
      rw [show x.step cfg (.other (.take i)) = (x.sys.step cfg (.take i)).map (fun s => { x with sys := s }) from rfl]
      by_cases h : i < x.sys.subs.length
      · rw [(hb i h).2]; rfl
      · simp [Sys.step, hc, List.getElem?_eq_none (Nat.le_of_not_lt h)]
    | loopRead o => simp [HSys.step, Sys.step, hc, hl]
    | loopWrite k o => simp [HSys.step, Sys.step, hc, hl]
    | deliver k => simp [HSys.step, Sys.step, hc, hl, Sys.deliver]
    | finish => simp [HSys.step, Sys.step, hc, hl, Sys.finish]
    | _ => exact he.elim

end Ex

-- The hypotheses of `C87_client_partial`: a client at rest of which nothing is left behind, and one of which `readLoop` is left behind.
example : Spec.ReadStill Ex.cfgTwo Ex.endEnded := Ex.still_of (by decide +kernel) (by decide +kernel) (by decide +kernel) (by decide +kernel) (by decide +kernel) (by decide +kernel)
example : Spec.Distinct Ex.endEnded.sys := distinct_of (by decide +kernel)
example : Ex.endEnded.sys.crashed = none ∧ Ex.endEnded.sys.loop = .done ∧ Ex.endEnded.sys.readDone = true ∧ Ex.endEnded.sys.subs.map (fun b => (b.rl, b.got.length)) = [(.done, 2)] ∧
    Spec.readCount Ex.endEnded.sys = 3 ∧ Spec.takenCount Ex.endEnded.sys = 2 := by decide +kernel
example : Spec.ReadStill Ex.cfgTwo Ex.endFlooded := Ex.still_of (by decide +kernel) (by decide +kernel) (by decide +kernel) (by decide +kernel) (by decide +kernel) (by decide +kernel)
example : Spec.readCount Ex.endFlooded.sys = 3 ∧ Spec.takenCount Ex.endFlooded.sys = 1 ∧ Ex.endFlooded.hand ≠ none := by decide +kernel

/-- **C87 is false** (`Unsubscribe`): the subscription has ended, `Unsubscribe` has returned, `processLoop` and both `readLoop`s have returned; the goroutine that `Unsubscribe` started sleeps for ever. -/
theorem C87_helper_false : ∃ es s, (Sys.init 0).run Ex.cfg es = some s ∧ s.crashed = none ∧ s.loop = .done ∧ s.readDone = true ∧
    (∃ b : Sub, s.subs[0]? = some b ∧ b.rl = .done ∧ b.once = .done) ∧
    (∃ th, s.threads[1]? = some th ∧ th.call = .unsubscribe 0 [] ∧ th.pc = .ret .unsubTimeout) ∧
    ∀ es' s', s.run Ex.cfg es' = some s' → ∃ th', s'.threads[1]? = some th' ∧ th'.helper = .asleep 0 := by
  refine ⟨Ex.lostThenClosed, Ex.endLostThenClosed, Ex.lostThenClosed_run, by decide +kernel, by decide +kernel, by decide +kernel,
    ⟨(Ex.endLostThenClosed.subs[0]?).getD (Sub.new [] false 0), by decide +kernel, by decide +kernel, by decide +kernel⟩,
    ⟨⟨.unsubscribe 0 [], .ret .unsubTimeout, .asleep 0⟩, by decide +kernel, rfl, rfl⟩, ?_⟩
  refine C87_helper_lost (i := 0) (o := []) (b := (Ex.endLostThenClosed.subs[0]?).getD (Sub.new [] false 0))
    (th := ⟨.unsubscribe 0 [], .ret .unsubTimeout, .asleep 0⟩) Ex.lostThenClosed_run ?_ rfl ?_ ?_ rfl ?_
  all_goals decide +kernel

end Stomp.Client
