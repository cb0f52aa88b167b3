import Verif.Proofs.Client.Isolation
import Verif.Proofs.Client.Library
import Verif.Props.Client.Receipts
/-!
# C23: MESSAGE frames reach the right subscription, in order, once
-/
namespace Stomp.Client
open Stomp

namespace Spec

/-- The MESSAGE frames put on `C`. -/
def messages (b : Sub) : List Frame :=
  b.got.filterMap fun m => match m with
    | .msg f => some f
    | _ => none

/-- The frames that `processLoop` took from the network. -/
def frames (s : Sys) : List Frame :=
  s.trace.filterMap fun o => match o with
    | .took x => x
    | _ => none

/-- The frames read from the network. -/
def framesRead (s : Sys) : List Frame :=
  s.trace.filterMap fun o => match o with
    | .read x => x
    | _ => none

/-- The keys of a request. -/
def keys (f : Frame) : List Bytes :=
  (f.header.contains Hdr.receipt).toList ++
  (if f.command = Cmd.subscribe then [(f.header.contains Hdr.replyTo).getD ((f.header.contains Hdr.id).getD [])] else [])

/-- `Distinct`, as a test. -/
def distinct (s : Sys) : Bool :=
  s.trace.all fun o => match o with
    | .accepted t r =>
      (decide (r.frame.command ≠ Cmd.subscribe) || (r.frame.header.contains Hdr.receipt).isNone) &&
      s.trace.all fun o' => match o' with
        | .accepted t' r' => r.chan.isNone || r'.chan.isNone || decide (t = t') || (keys r.frame).all fun k => !(keys r'.frame).contains k
        | _ => true
    | _ => true

end Spec

theorem mem_keys {f : Frame} {k : Bytes} : k ∈ Spec.keys f ↔ Spec.Registers f k := by
  unfold Spec.keys Spec.Registers
  rw [List.mem_append, Option.mem_toList]
  constructor
  · rintro (h | h)
    · exact .inl h
    · split at h
      · rename_i hc
        exact .inr ⟨hc, (List.mem_singleton.1 h).symm⟩
      · cases h
  · rintro (h | ⟨hc, h⟩)
    · exact .inl h
    · right
      rw [if_pos hc, h]
      exact List.mem_singleton.2 rfl

theorem distinct_of {s : Sys} (h : Spec.distinct s = true) : Spec.Distinct s := by
  unfold Spec.distinct at h
  constructor
  · intro t r t' r' k h1 h2 hn hn' hk hk'
    have := List.all_eq_true.1 h _ h1
    simp only [Bool.and_eq_true] at this
    have := List.all_eq_true.1 this.2 _ h2
    simp only [Bool.or_eq_true, Option.isNone_iff_eq_none, decide_eq_true_eq] at this
    rcases this with ((h3 | h3) | h3) | h3
    · exact absurd h3 hn
    · exact absurd h3 hn'
    · exact h3
    · have := List.all_eq_true.1 h3 k (mem_keys.2 hk)
      simp [mem_keys.2 hk'] at this
  · intro t r h1 hc
    have := List.all_eq_true.1 h _ h1
    simp only [Bool.and_eq_true, Bool.or_eq_true, decide_eq_true_eq] at this
    rcases this.1 with h2 | h2
    · exact absurd hc h2
    · simpa using h2

theorem messages_eq (b : Sub) : Spec.messages b = msgs b.got := by
  unfold Spec.messages msgs
  congr 1

theorem frames_eq (s : Sys) : Spec.frames s = tookFrames s.trace := by
  unfold Spec.frames tookFrames tookIn
  rw [List.filterMap_filterMap]
  congr 1
  funext o
  cases o <;> rfl

/-- **C23.** If no two requests share a key and no SUBSCRIBE asks for a receipt, then what was put on `C` of a
subscription are the MESSAGE frames with its id that `processLoop` took between the registration and the end of
the subscription, unchanged, in this order, each once; at most two of them, the last ones, are still in the hands
of `processLoop` and `readLoop`, none if both are at rest.

`_partial`: the hypothesis. Ids can be chosen by the user, see `C23_false`. -/
theorem C23_exact_partial {cfg : Cfg} {n : Nat} {es : List Ev} {s : Sys} (h : (Sys.init n).run cfg es = some s)
    (hd : Spec.Distinct s) {i : Nat} {b : Sub} (hb : s.subs[i]? = some b) :
    ∃ rest, (Spec.due b.chan b.id s.trace).due = Spec.messages b ++ rest ∧ rest.length ≤ 2 ∧
      (b.rl = .recv → s.loop = .select → rest = []) := by
  have hf := ((flow_run h).flow hd i b hb).due
  refine ⟨(match b.rl with | .put m => msgs [m] | _ => []) ++ pend s.loop b.chan, ?_, ?_, ?_⟩
  · rw [← hf, messages_eq, ← List.append_assoc]
    rfl
  · rw [List.length_append]
    have h1 : (match b.rl with | .put m => msgs [m] | _ => []).length ≤ 1 := by
      split
      · rename_i m _
        exact List.length_filterMap_le CMsg.frame? [m]
      · simp
    have h2 : (pend s.loop b.chan).length ≤ 1 := by
      unfold pend
      split
      · split <;> simp
      · simp
    omega
  · intro h1 h2
    rw [h1, h2]
    rfl

/-- **C17**, no two requests of a connection share an id: in every execution in which the user leaves receipt ids and
subscription ids to the library (`Spec.library`), whatever the interleaving of the callers with each other and with
other users of the counter. This is the hypothesis of `C23_exact_partial`, `C27_callers_partial` and
`C27_subscriptions_partial`. -/
theorem C17_requests {cfg : Cfg} {n : Nat} {es : List Ev} {s : Sys} (h : (Sys.init n).run cfg es = some s)
    (hl : Spec.library cfg [] (Sys.init n) es = true) : Spec.Distinct s :=
  lib_distinct h hl

/-- **C23**, as stated, for the users who leave the ids to the library. -/
theorem C23_library {cfg : Cfg} {n : Nat} {es : List Ev} {s : Sys} (h : (Sys.init n).run cfg es = some s)
    (hl : Spec.library cfg [] (Sys.init n) es = true) {i : Nat} {b : Sub} (hb : s.subs[i]? = some b) :
    ∃ rest, (Spec.due b.chan b.id s.trace).due = Spec.messages b ++ rest ∧ rest.length ≤ 2 ∧
      (b.rl = .recv → s.loop = .select → rest = []) :=
  C23_exact_partial h (C17_requests h hl) hb

/-- **C23**, no message reaches another subscription (whatever ids the user chooses): every message put on `C` of
a subscription is a MESSAGE frame whose subscription header is a key of the SUBSCRIBE made for it, its id if the
SUBSCRIBE does not ask for a receipt. They are on `C` in the order in which they were read from the network, not
more often. -/
theorem C23_isolation {cfg : Cfg} {n : Nat} {es : List Ev} {s : Sys} (h : (Sys.init n).run cfg es = some s)
    {i : Nat} {b : Sub} (hb : s.subs[i]? = some b) :
    (∀ f ∈ Spec.messages b, f.command = Cmd.message ∧
      ∃ t r k, Spec.Logged s [.accepted t r] ∧ r.chan = some b.chan ∧ r.frame.command = Cmd.subscribe ∧
        f.header.contains Hdr.subscription = some k ∧ (k = b.id ∨ r.frame.header.contains Hdr.receipt = some k)) ∧
    (Spec.messages b).Sublist (Spec.frames s) ∧ Spec.frames s <+: Spec.framesRead s := by
  have hi := iso_run h
  have hiso := hi.iso i b hb
  have hsub : (Spec.messages b).Sublist (b.out ++ pend s.loop b.chan) := by
    rw [messages_eq]
    unfold Sub.out
    rw [List.append_assoc]
    exact List.sublist_append_left _ _
  refine ⟨?_, ?_, ?_⟩
  · intro f hf
    obtain ⟨h1, k, h2, t, r, h3, h4, h5⟩ := hiso.key f (hsub.subset hf)
    obtain ⟨g1, g2, _⟩ := chan_sub hi.all.all.origin hi.all.sub hb (acceptedIn_mem h3) h4
    refine ⟨h1, t, r, k, List.singleton_sublist.2 h3, h4, g1, h2, ?_⟩
    rcases h5 with h5 | h5
    · exact .inr h5
    · exact .inl (h5.2.symm.trans g2)
  · rw [frames_eq]
    exact hsub.trans hiso.sub
  · have hq := (read_run h).queue
    have h1 : Spec.framesRead s = (readIn s.trace).filterMap id := by
      unfold Spec.framesRead readIn
      rw [List.filterMap_filterMap]
      congr 1
      funext o
      cases o <;> rfl
    rw [h1, frames_eq, hq, List.filterMap_append]
    exact List.prefix_append _ _

namespace Ex

def message (sub body : Bytes) : Frame := { Frame.new Cmd.message [(Hdr.subscription, sub)] with body := body }

/-- Two subscriptions (ids 1 and 2), a SEND with a receipt (id 3); messages for both and for nobody, one before
the registration, an ended subscription. -/
def twoSubs : List Ev :=
  [.net (some (message b!"1" b!"early")), .loopRead [],
   .call (.subscribe b!"/q" .auto []), .thread 0, .thread 0, .call (.subscribe b!"/r" .auto []), .thread 1, .thread 1,
   .loopWrite true [], .loopWrite true [],
   .net (some (message b!"1" b!"a")), .net (some (message b!"2" b!"b")), .net (some (message b!"9" b!"c")),
   .call receipted, .thread 2, .thread 2, .loopWrite true [],
   .net (some (message b!"1" b!"d")), .net (some (receiptFrame b!"3")),
   .loopRead [], .deliver true, .loopRead [], .deliver true, .loopRead [], .sub 0, .loopRead [], .deliver true,
   .loopRead [], .deliver true, .sub 1, .take 1, .call (.unsubscribe 0 []), .thread 3, .thread 3, .thread 3, .loopWrite true [],
   .net (some (message b!"1" b!"e")), .net (some (receiptFrame b!"1")), .net (some (message b!"1" b!"late")),
   .sub 0, .loopRead [], .deliver true, .sub 0, .loopRead [], .deliver true, .loopRead [], .sub 0, .sub 0]

def endTwoSubs : Sys := ((Sys.init 0).run cfg twoSubs).getD (Sys.init 0)
theorem twoSubs_run : (Sys.init 0).run cfg twoSubs = some endTwoSubs := by decide +kernel

/-- Two subscriptions for which the user has chosen the same id. -/
def sameId : List Ev :=
  [.call (.subscribe b!"/q" .auto [.id b!"a"]), .thread 0, .thread 0, .call (.subscribe b!"/r" .auto [.id b!"a"]), .thread 1, .thread 1,
   .loopWrite true [], .loopWrite true [], .net (some (message b!"a" b!"x")), .loopRead [], .deliver true, .sub 1]

def endSameId : Sys := ((Sys.init 0).run cfg sameId).getD (Sys.init 0)
theorem sameId_run : (Sys.init 0).run cfg sameId = some endSameId := by decide +kernel

end Ex

/-- **C23, in full, is false**: of two subscriptions with the same id, chosen by the user, the first one gets no
messages, although they are due to it and everybody is at rest. -/
theorem C23_false : ∃ es s b, (Sys.init 0).run Ex.cfg es = some s ∧ s.subs[0]? = some b ∧ b.id = b!"a" ∧
    (Spec.due b.chan b.id s.trace).due = [Ex.message b!"a" b!"x"] ∧ b.rl = .recv ∧ s.loop = .select ∧ s.readCh = [] ∧
    Spec.messages b = [] := by
  refine ⟨Ex.sameId, Ex.endSameId, (Ex.endSameId.subs[0]?).getD (Sub.new [] false 0), Ex.sameId_run, ?_, ?_, ?_, ?_, ?_, ?_, ?_⟩ <;>
    decide +kernel

/-! ## Examples -/

example : Spec.library Ex.cfg [] (Sys.init 0) Ex.twoSubs = true := by decide +kernel
-- With the SEND of a transaction, whose receipt id was made beforehand, and the id counter used by another connection.
example : Spec.library Ex.cfg [] (Sys.init 0) [.tick, .tick,
    .call (.frame (Frame.new Cmd.send [(Hdr.receipt, b!"1"), (Hdr.transaction, b!"2")])), .thread 0, .call (.subscribe b!"/q" .auto []),
    .thread 0, .thread 1] = true := by decide +kernel
-- Not so with an id that was not made by the library, or used twice.
example : Spec.library Ex.cfg [] (Sys.init 0) [.tick, .call (.frame (Frame.new Cmd.send [(Hdr.receipt, b!"2")]))] = false ∧
    Spec.library Ex.cfg [] (Sys.init 0) Ex.sameId = false := by decide +kernel
example : Spec.Distinct Ex.endTwoSubs := distinct_of (by decide +kernel)
example : Ex.endTwoSubs.subs.map Spec.messages =
    [[Ex.message b!"1" b!"a", Ex.message b!"1" b!"d", Ex.message b!"1" b!"e"], [Ex.message b!"2" b!"b"]] := by decide +kernel
example : Ex.endTwoSubs.subs.map (fun b => (Spec.due b.chan b.id Ex.endTwoSubs.trace)) =
    [⟨false, [Ex.message b!"1" b!"a", Ex.message b!"1" b!"d", Ex.message b!"1" b!"e"]⟩, ⟨true, [Ex.message b!"2" b!"b"]⟩] := by
  decide +kernel
example : (Spec.frames Ex.endTwoSubs).length = 9 ∧ Ex.endTwoSubs.crashed = none := by decide +kernel

end Stomp.Client
