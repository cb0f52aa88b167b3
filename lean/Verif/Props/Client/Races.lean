import Verif.Proofs.Client.RacesRun
import Verif.Proofs.Client.Places
/-!
# C99: no data races in the client

`C99_no_race` is the claim. The others say that what it is about is what the system does: `closed` changes only where a write is listed, only goroutines said to take part in a step move in it, the steps said to correspond on a channel hand over the same thing, the
frame given to a caller or a subscription is the one `processLoop` took last, and what happens before is a strict order that agrees with the run.
-/
namespace Stomp.Client
open Stomp Stomp.Client.Spec

/-- Two goroutines that access the same thing, one of them writing, do so in an order given by the synchronisation. -/
theorem C99_no_race {cfg : Cfg} {n : Nat} {l : List Moment} (hf : Follows cfg (Sys.init n) l) {i j : Nat} {g g' : Goroutine} {c : Cell} {w w' : Bool}
    (h : Touches l i g c w) (h' : Touches l j g' c w') (hne : g ≠ g') (hw : w = true ∨ w' = true) : HappensBefore l i g j g' ∨ HappensBefore l j g' i g :=
  ordered hf h h' hne hw

/-- A step that changes `closed` is listed as a write of it. -/
theorem C99_closed_written {cfg : Cfg} {s s' : Sys} {e : Ev} (h : s.step cfg e = some s') (hc : s'.closed ≠ s.closed) : ∃ g, takesPart s e g ∧ (g, true) ∈ closedIn s e := by
  obtain ⟨g, hg⟩ := closed_written h hc
  exact ⟨g, (closedIn_critical hg).1, hg⟩

/-- A goroutine that is not said to take part in a step stays where it is: callers, their helpers (which the caller starts), the `readLoop`s of the subscriptions, `processLoop`, `readLoop`. -/
theorem C99_places {cfg : Cfg} {s s' : Sys} {e : Ev} (h : s.step cfg e = some s') :
    (∀ t th, s.threads[t]? = some th → ∃ th', s'.threads[t]? = some th' ∧ (¬takesPart s e (.caller t) → th'.pc = th.pc) ∧
      (¬takesPart s e (.helper t) → th'.helper = th.helper ∨ takesPart s e (.caller t) ∧ th'.helper = .start)) ∧
    (∀ i b, s.subs[i]? = some b → ∃ b', s'.subs[i]? = some b' ∧ (¬takesPart s e (.sub i) → b'.rl = b.rl)) ∧
    (¬takesPart s e .loop → s'.loop = s.loop) ∧ (¬takesPart s e .read → s'.readDone = s.readDone) := Places.places h

/-- Steps that correspond on `writeCh`: the request taken is the one that was put there. -/
theorem C99_writeCh {cfg : Cfg} {n : Nat} {l : List Moment} (hf : Follows cfg (Sys.init n) l) {p j : Nat} (h : Corresponds pushes pops l p j) :
    p < j ∧ ∃ a b t th r rest ok o, l[p]? = some a ∧ l[j]? = some b ∧ a.ev = .thread t ∧ a.before.threads[t]? = some th ∧ th.pc = .push r ∧
      b.ev = .loopWrite ok o ∧ b.before.writeCh = r :: rest := by
  obtain ⟨hlt, a, b, r, ha, hb, hp, hg⟩ := fifo (writeChannel cfg) pushed_iff popped_iff hf h
  refine ⟨hlt, a, b, ?_⟩
  simp only [writeChannel, pushed, popped] at hp hg
  split at hp
  · rename_i t he
    split at hp
    · rename_i c r' hh ht
      split at hp
      · cases hp
      · cases hp
        split at hg
        · rename_i ok o heb
          cases hq : b.before.writeCh with
          | nil => rw [hq] at hg; cases hg
          | cons x rest =>
            rw [hq] at hg
            cases hg
            exact ⟨t, _, _, rest, ok, o, ha, hb, he, ht, rfl, heb, rfl⟩
        · cases hg
    · cases hp
  · cases hp

/-- Steps that correspond on `readCh`: what is taken is what was read. -/
theorem C99_readCh {cfg : Cfg} {n : Nat} {l : List Moment} (hf : Follows cfg (Sys.init n) l) {p j : Nat} (h : Corresponds brings takes l p j) :
    p < j ∧ ∃ a b x rest o, l[p]? = some a ∧ l[j]? = some b ∧ a.ev = .net x ∧ b.ev = .loopRead o ∧ b.before.readCh = x :: rest := by
  obtain ⟨hlt, a, b, x, ha, hb, hp, hg⟩ := fifo (readChannel cfg) gotten_iff taken_iff hf h
  refine ⟨hlt, a, b, x, ?_⟩
  simp only [readChannel, gotten, taken] at hp hg
  split at hp
  · rename_i y he
    cases hp
    split at hg
    · rename_i o heb
      cases hq : b.before.readCh with
      | nil => rw [hq] at hg; cases hg
      | cons z rest =>
        rw [hq] at hg
        cases hg
        exact ⟨rest, o, ha, hb, he, heb, rfl⟩
    · cases hg
  · cases hp

/-- The frame `processLoop` has in hand is the one it took last from `readCh`. -/
theorem C99_in_hand {cfg : Cfg} {n : Nat} {l : List Moment} (hf : Follows cfg (Sys.init n) l) {i : Nat} {m : Moment} {f : Frame} (h : l[i]? = some m) (hi : InHand m.before f) :
    ∃ k a o rest, k < i ∧ l[k]? = some a ∧ a.ev = .loopRead o ∧ a.before.readCh = some f :: rest ∧ (l.take k).countP takes + 1 = (l.take i).countP takes := by
  obtain ⟨k, a, h1, h2, h3, h4⟩ := took_last hf h hi
  unfold taken at h3
  split at h3
  · rename_i o he
    cases hq : a.before.readCh with
    | nil => rw [hq] at h3; cases h3
    | cons z rest =>
      rw [hq] at h3
      cases h3
      exact ⟨k, a, o, rest, h1, h2, he, hq, h4⟩
  · cases h3

/-- What happens before something else is earlier in the run, or is the sender's part of the same step. -/
theorem C99_order {cfg : Cfg} {n : Nat} {l : List Moment} (hf : Follows cfg (Sys.init n) l) {i j : Nat} {g g' : Goroutine} (h : HappensBefore l i g j g') :
    (i < j ∨ i = j ∧ g ≠ g') ∧ ¬HappensBefore l j g' i g := by
  have h1 := earlier hf h
  refine ⟨h1.imp id fun ⟨a, b, c⟩ => ⟨a, fun hg => c (hg ▸ b)⟩, fun h' => ?_⟩
  rcases h1 with h1 | ⟨h1, h2, h3⟩ <;> rcases earlier hf h' with h4 | ⟨h4, h5, h6⟩
  · omega
  · omega
  · omega
  · exact h6 h2

/-! ## Examples -/

namespace ExRaces

/-- The steps of a run. -/
def moments (cfg : Cfg) (s : Sys) : List Ev → List Moment
  | [] => []
  | e :: es =>
    match s.step cfg e with
    | some s' => ⟨s, e, s'⟩ :: moments cfg s' es
    | none => []

theorem follows_moments (cfg : Cfg) : ∀ (es : List Ev) (s : Sys), Follows cfg s (moments cfg s es) := by
  intro es
  induction es with
  | nil => intro s; trivial
  | cons e es ih =>
    intro s
    unfold moments
    split
    · rename_i s' h
      exact ⟨rfl, h, ih s'⟩
    · trivial

def cfg : Cfg :=
  { readCap := 20, writeCap := 20, sendTimeout := true, receiptTimeout := true, disconnectTimeout := true, unsubTimeout := true, readTimeout := true, writeTimeout := true }

/-- A SEND, a `Disconnect` that gets its receipt, another `Send`, the end of the connection. -/
def goodbye : List Moment := moments cfg (Sys.init 0)
  [.call (.send b!"/q" [] b!"x" []), .thread 0, .thread 0, .call .disconnect, .thread 1, .thread 1, .loopWrite true [], .loopWrite true [],
   .net (some (Frame.new Cmd.receipt [(Hdr.receiptId, b!"1")])), .loopRead [], .deliver true,
   .call (.send b!"/q" [] b!"y" []), .thread 2, .netErr, .loopRead [], .finish]

/-- A subscription gets a message, then the network fails. -/
def failed : List Moment := moments cfg (Sys.init 0)
  [.call (.subscribe b!"/q" .auto []), .thread 0, .thread 0, .loopWrite true [], .net (some (Frame.new Cmd.message [(Hdr.subscription, b!"1")])), .loopRead [], .deliver true, .sub 0,
   .netErr, .loopRead [0], .deliver true]

theorem goodbye_length : goodbye.length = 16 := by decide +kernel
theorem failed_length : failed.length = 11 := by decide +kernel
theorem goodbye_at (i : Nat) (h : i < goodbye.length) : goodbye[i]? = some goodbye[i] := List.getElem?_eq_getElem h
theorem failed_at (i : Nat) (h : i < failed.length) : failed[i]? = some failed[i] := List.getElem?_eq_getElem h

-- `Disconnect` writes `closed` in the step in which it gets the receipt; the `Send` that finds the connection closed reads it afterwards; the loop at its end too.
theorem writes : Touches goodbye 10 (.caller 1) .closed true := .closed 10 _ (goodbye_at 10 (by decide +kernel)) _ _ (by decide +kernel)
theorem finds : Touches goodbye 12 (.caller 2) .closed false := .closed 12 _ (goodbye_at 12 (by decide +kernel)) _ _ (by decide +kernel)
theorem ends : Touches goodbye 15 .loop .closed false := .closed 15 _ (goodbye_at 15 (by decide +kernel)) _ _ (by decide +kernel)

example : HappensBefore goodbye 10 (.caller 1) 12 (.caller 2) := by
  have hf : Follows cfg (Sys.init 0) goodbye := follows_moments _ _ _
  rcases C99_no_race hf writes finds (by decide) (.inl rfl) with h | h
  · exact h
  · exact absurd (C99_order hf h).1 (by decide)

example : HappensBefore goodbye 10 (.caller 1) 15 .loop := by
  have hf : Follows cfg (Sys.init 0) goodbye := follows_moments _ _ _
  rcases C99_no_race hf writes ends (by decide) (.inl rfl) with h | h
  · exact h
  · exact absurd (C99_order hf h).1 (by decide)

-- The frame of the first `Send`: the caller makes it in step 1 and puts it on `writeCh` in step 2, the loop takes it in step 6, that of `Disconnect` in step 7.
theorem first : Corresponds pushes pops goodbye 2 6 :=
  ⟨⟨_, goodbye_at 2 (by decide +kernel), by decide +kernel⟩, ⟨_, goodbye_at 6 (by decide +kernel), by decide +kernel⟩, by decide +kernel⟩
example : Corresponds pushes pops goodbye 5 7 :=
  ⟨⟨_, goodbye_at 5 (by decide +kernel), by decide +kernel⟩, ⟨_, goodbye_at 7 (by decide +kernel), by decide +kernel⟩, by decide +kernel⟩
example : Touches goodbye 6 .loop (.request 0) true := .process 2 6 first _ (goodbye_at 2 (by decide +kernel)) 0 (by decide +kernel)
example : Touches goodbye 1 (.caller 0) (.request 0) true :=
  .prepare 1 _ (goodbye_at 1 (by decide +kernel)) 0 ⟨.send b!"/q" [] b!"x" [], .start, .none⟩ (by decide +kernel) (by decide +kernel) (.inl rfl)

-- The RECEIPT: read in step 8, looked at in step 9, given to `Disconnect` in step 10.
example : Touches goodbye 8 .read (.incoming 0) true := .arrive 8 _ (goodbye_at 8 (by decide +kernel)) (by decide +kernel)
example : Corresponds brings takes goodbye 8 9 :=
  ⟨⟨_, goodbye_at 8 (by decide +kernel), by decide +kernel⟩, ⟨_, goodbye_at 9 (by decide +kernel), by decide +kernel⟩, by decide +kernel⟩
theorem given : InHand (goodbye[10]'(by decide +kernel)).before (Frame.new Cmd.receipt [(Hdr.receiptId, b!"1")]) := .inl ⟨b!"1", 0, by decide +kernel⟩
example : Touches goodbye 10 (.caller 1) (.incoming 0) false :=
  .answer 10 _ (goodbye_at 10 (by decide +kernel)) true (by decide +kernel) _ (by decide +kernel)
    (fun ⟨_, _, h⟩ => by rcases given with ⟨_, _, h'⟩ | ⟨_, h'⟩ | ⟨_, h'⟩ <;> (rw [h] at h'; cases h')) 0 (by decide +kernel)

-- `closed` does change in step 10.
example : (goodbye[10]'(by decide +kernel)).after.closed ≠ (goodbye[10]'(by decide +kernel)).before.closed := by decide +kernel

-- The `readLoop` of the subscription does move when it gets the MESSAGE, in a step of `processLoop`.
example : (failed[6]'(by decide +kernel)).ev = .deliver true ∧ (failed[6]'(by decide +kernel)).before.receiver = some (.sub 0) ∧
    (failed[6]'(by decide +kernel)).after.subs.map (·.rl) ≠ (failed[6]'(by decide +kernel)).before.subs.map (·.rl) := by decide +kernel

-- The ERROR frame `sendError` makes in step 9 is given to the subscription in step 10.
example : Touches failed 9 .loop .failure true :=
  .fail 9 _ (failed_at 9 (by decide +kernel)) (fun ⟨_, _, h⟩ => by
    rw [show (failed[9]'(by decide +kernel)).before.loop = .select by decide +kernel] at h; cases h)
    ⟨errFrame b!"connection closed", [0], by decide +kernel⟩
example : Touches failed 10 (.sub 0) .failure false :=
  .told 10 _ (failed_at 10 (by decide +kernel)) true (by decide +kernel) _ (by decide +kernel) ⟨errFrame b!"connection closed", [0], by decide +kernel⟩

end ExRaces
end Stomp.Client
