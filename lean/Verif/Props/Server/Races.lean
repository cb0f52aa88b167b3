import Verif.Proofs.Server.HappensBefore
import Verif.Proofs.Server.RaceWrites
import Verif.Props.Server.Conservation
/-!
# Property C83: the goroutines of the server do not race for subscriptions and messages

`Spec.touched` says what a step may read or write, `Spec.HappensBefore` is the order of the Go Memory Model, restricted to the order within
goroutines and the two kinds of channels by which subscriptions and messages are handed on.
-/
namespace Stomp.Server
open Stomp

/-- **C83**. In every run of the server, if two steps of different goroutines access the same subscription or the same frame, and one of them
writes, then the earlier happens before the later. -/
theorem C83_no_race (cfg : Config) (l : List Moment) (h : Spec.Follows cfg Sys.init l) (i j : Nat) (a b : Moment) (x : Cell) (wa wb : Bool)
    (ha : l[i]? = some a) (hb : l[j]? = some b) (hij : i < j) (hxa : (x, wa) ∈ Spec.touched a) (hxb : (x, wb) ∈ Spec.touched b)
    (hw : wa = true ∨ wb = true) (hd : Spec.doer a ≠ Spec.doer b) : Spec.HappensBefore l i j := by
  have h1 := ordered_run l [] Sys.init {} (SInv.init cfg)
    (fun t => by simp [total, made, Sys.init, reqTags, storeSum, AMap.sum, todoTags, castTags, connSum]) winv_init rfl hinv_init
    (by intro i j a b x wa wb ha; simp at ha) h
  exact (h1 i j a b x wa wb ha hb hij hxa hxb hw).resolve_right hd

/-- **C83**. The accesses are those the server makes: whatever a step changes of a subscription, it writes to it; and if it changes the
message allocated to a subscription, it writes to the frame. -/
theorem C83_writes (cfg : Config) (es : List Sys.Ev) (m : Moment) (h : Sys.init.run cfg es = some m.before) (hs : m.before.step cfg m.ev = some m.after)
    (hc : m.after.crashed = false) (r : SubRef) :
    (Spec.subscription m.after r ≠ Spec.subscription m.before r → (.sub r, true) ∈ Spec.touched m) ∧
    (∀ y y' o o', Spec.subscription m.before r = some y → Spec.subscription m.after r = some y' → y.frame = some o → y'.frame = some o' → o ≠ o' →
      (.frame o.tag, true) ∈ Spec.touched m) := by
  obtain ⟨s, e, s'⟩ := m
  have hI : SInv cfg s := (sys_induction (P := fun _ => True) trivial (fun _ _ _ _ _ _ => trivial) es s h (sys_crashed_step hs)).1
  rcases (sys_step hI.refs hs).2 with hcr | hst
  · dsimp only at hc; rw [hcr] at hc; cases hc
  · exact step_writes hI hst r

/-- **C83**. The step that makes a message writes to it. -/
theorem C83_makes (cfg : Config) (es : List Sys.Ev) (m : Moment) (h : Sys.init.run cfg es = some m.before) (hs : m.before.step cfg m.ev = some m.after)
    (hc : m.after.crashed = false) (t : Tag) (h0 : ¬Spec.hasMade m.before t) (h1 : Spec.hasMade m.after t) : (.frame t, true) ∈ Spec.touched m := by
  obtain ⟨s, e, s'⟩ := m
  have hI : SInv cfg s := (sys_induction (P := fun _ => True) trivial (fun _ _ _ _ _ _ => trivial) es s h (sys_crashed_step hs)).1
  rcases (sys_step hI.refs hs).2 with hcr | hst
  · dsimp only at hc; rw [hcr] at hc; cases hc
  · refine step_makes hI hst t ?_ ?_
    · unfold made
      split
      · rfl
      · rename_i k hk
        exact if_neg (fun hl => h0 ⟨k, hk, hl⟩)
    · obtain ⟨k, hk, hl⟩ := h1
      unfold made
      dsimp only at hk
      rw [hk]
      exact if_pos hl

/-- The steps of a run. -/
def moments (cfg : Config) : Sys → List Sys.Ev → List Moment
  | _, [] => []
  | s, e :: es =>
    match s.step cfg e with
    | none => []
    | some s' => ⟨s, e, s'⟩ :: moments cfg s' es

theorem moments_follow (cfg : Config) (s : Sys) (es : List Sys.Ev) : Spec.Follows cfg s (moments cfg s es) := by
  induction es generalizing s with
  | nil => trivial
  | cons e es ih =>
    unfold moments
    split
    · trivial
    · rename_i s' hs; exact ⟨rfl, hs, ih s'⟩

/-- A subscriber gets a message, acknowledges it, and is subscribed again; then it goes, and another message stays. -/
def raceRun : List Sys.Ev :=
  handRun b!"client" ++ [.conn 0 (.sub true), .conn 0 (.recv ⟨b!"ACK", [(b!"id", b!"1"), (b!"subscription", b!"1"), (b!"message-id", b!"1")], []⟩),
    .conn 0 (.frame true true), .flush 0, .proc]

-- C83_no_race: the subscription is written to by the connection, the processor, the connection and the processor again; the frame by both connections
-- and the processor.
example : ((moments sampleCfg Sys.init raceRun).map (fun m => (Spec.doer m, Spec.touched m))).filter (fun x => decide ((.sub ⟨0, 0⟩, true) ∈ x.2)) =
    [(.loop 0, [(.sub ⟨0, 0⟩, true)]), (.processor, [(.sub ⟨0, 0⟩, true)]), (.processor, [(.frame ⟨1, 0⟩, true), (.sub ⟨0, 0⟩, true)]),
     (.loop 0, [(.sub ⟨0, 0⟩, true), (.frame ⟨1, 0⟩, true)]), (.loop 0, [(.sub ⟨0, 0⟩, true)]), (.processor, [(.sub ⟨0, 0⟩, true)])] := by decide +kernel

-- C83_makes: the connection that sends the message, the processor, the connection that gets it
example : ((moments sampleCfg Sys.init raceRun).map (fun m => (Spec.doer m, Spec.touched m))).filter (fun x => decide ((.frame ⟨1, 0⟩, true) ∈ x.2)) =
    [(.loop 1, [(.frame ⟨1, 0⟩, true)]), (.processor, [(.frame ⟨1, 0⟩, true), (.sub ⟨0, 0⟩, true)]),
     (.loop 0, [(.sub ⟨0, 0⟩, true), (.frame ⟨1, 0⟩, true)])] := by decide +kernel

/-- Two messages are sent within a transaction, which is committed. -/
def commitRun : List Sys.Ev :=
  [.accept, .conn 0 (.recv sampleConnect), .conn 0 (.frame true true), .flush 0, .proc,
    .conn 0 (.recv ⟨b!"BEGIN", [(b!"transaction", b!"1")], []⟩), .conn 0 (.frame true true),
    .conn 0 (.recv ⟨b!"SEND", [(b!"destination", b!"/queue/a"), (b!"transaction", b!"1")], [1]⟩), .conn 0 (.frame true true),
    .conn 0 (.recv ⟨b!"SEND", [(b!"destination", b!"/queue/a"), (b!"transaction", b!"1")], [2]⟩), .conn 0 (.frame true true),
    .conn 0 (.recv ⟨b!"COMMIT", [(b!"transaction", b!"1")], []⟩), .conn 0 (.frame true true), .flush 0, .flush 0, .proc, .proc]

-- The second message may be written to until the first has been handed to the processor.
example : ((moments sampleCfg Sys.init commitRun).map (fun m => (Spec.doer m, Spec.touched m))).filter (fun x => !x.2.isEmpty) =
    [(.loop 0, [(.frame ⟨0, 0⟩, true), (.frame ⟨0, 1⟩, true)]), (.loop 0, [(.frame ⟨0, 1⟩, true)]), (.processor, [(.frame ⟨0, 0⟩, true)]),
     (.processor, [(.frame ⟨0, 1⟩, true)])] := by decide +kernel

-- A client goes with a message not acknowledged: the processor gets the message back.
example : ((moments sampleCfg Sys.init (handRun b!"client" ++ [.conn 0 (.sub true), .conn 0 .readErr, .conn 0 .readClosed, .conn 0 .clean, .conn 0 (.cleanUnsub [0]), .flush 0,
      .conn 0 .clean, .flush 0, .proc, .proc])).map (fun m => (Spec.doer m, Spec.touched m))).filter (fun x => decide ((.frame ⟨1, 0⟩, true) ∈ x.2)) =
    [(.loop 1, [(.frame ⟨1, 0⟩, true)]), (.processor, [(.frame ⟨1, 0⟩, true), (.sub ⟨0, 0⟩, true)]), (.loop 0, [(.sub ⟨0, 0⟩, true), (.frame ⟨1, 0⟩, true)]),
     (.processor, [(.frame ⟨1, 0⟩, true)])] := by decide +kernel

example : Spec.Follows sampleCfg Sys.init (moments sampleCfg Sys.init raceRun) ∧ (moments sampleCfg Sys.init raceRun).length = raceRun.length :=
  ⟨moments_follow _ _ _, by decide +kernel⟩

-- Not every step happens before a later one: the goroutine of a connection that reads a frame knows nothing of the connection accepted meanwhile.
example : ¬Spec.HappensBefore (moments sampleCfg Sys.init [.accept, .conn 0 (.recv sampleConnect), .accept]) 1 2 := by
  have key : ∀ i j, Spec.HappensBefore (moments sampleCfg Sys.init [.accept, .conn 0 (.recv sampleConnect), .accept]) i j → i = 0 ∧ j = 2 := by
    intro i j h
    induction h with
    | program i j a b ha hb hd hij =>
      have h3 : (moments sampleCfg Sys.init [.accept, .conn 0 (.recv sampleConnect), .accept]).map Spec.doer = [.listen, .read 0, .listen] := by decide +kernel
      have hi : [Goroutine.listen, .read 0, .listen][i]? = some (Spec.doer a) := by rw [← h3, List.getElem?_map, ha]; rfl
      have hj : [Goroutine.listen, .read 0, .listen][j]? = some (Spec.doer b) := by rw [← h3, List.getElem?_map, hb]; rfl
      have h4 : ∀ i < 3, ∀ j < 3, i < j → [Goroutine.listen, .read 0, .listen][i]? = [Goroutine.listen, .read 0, .listen][j]? → i = 0 ∧ j = 2 := by decide +kernel
      exact h4 i (List.getElem?_eq_some_iff.1 hi).1 j (List.getElem?_eq_some_iff.1 hj).1 hij (by rw [hi, hj, hd])
    | request i j h =>
      obtain ⟨⟨m, hm, hs⟩, _⟩ := h
      have h4 : ∀ f ∈ (moments sampleCfg Sys.init [.accept, .conn 0 (.recv sampleConnect), .accept]).map Spec.sendsReq, f = false := by decide +kernel
      rw [h4 _ (List.mem_map.2 ⟨m, List.mem_of_getElem? hm, rfl⟩)] at hs
      cases hs
    | subscription c i j h =>
      obtain ⟨⟨m, hm, hs⟩, _⟩ := h
      have h4 : ∀ g ∈ (moments sampleCfg Sys.init [.accept, .conn 0 (.recv sampleConnect), .accept]).map Spec.doer, g ≠ .processor := by decide +kernel
      refine absurd ?_ (h4 _ (List.mem_map.2 ⟨m, List.mem_of_getElem? hm, rfl⟩))
      unfold Spec.sendsSub at hs
      unfold Spec.doer
      split at hs
      · rename_i he _; rw [he]; rfl
      · cases hs
    | trans i j k _ _ ih ih' => omega
  intro h
  have := key _ _ h
  omega

-- C83_writes: the step in which the subscription gets the message.
example : ∃ m, (moments sampleCfg Sys.init raceRun)[17]? = some m ∧ m.after.crashed = false ∧
    (Spec.subscription m.before ⟨0, 0⟩).map (·.frame.isSome) = some false ∧ (Spec.subscription m.after ⟨0, 0⟩).map (·.frame.isSome) = some true :=
  ⟨_, rfl, by decide +kernel, by decide +kernel, by decide +kernel⟩

end Stomp.Server
