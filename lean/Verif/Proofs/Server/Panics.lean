import Verif.Proofs.Server.SubFrom
/-! # What can make the server panic -/
namespace Stomp.Server
open Stomp
open Stomp.Spec (firstValue)

/-- A subscription to a queue whose messages have to be acknowledged. -/
def Explicit (x : Sub) : Prop := x.ack ≠ ackAuto ∧ isQueueDestination x.dest = true

theorem Explicit.of_fixed {x y : Sub} (h : Explicit x) (e : y.fixed = x.fixed) : Explicit y := by
  have e1 : y.ack = x.ack := by have := congrArg Sub.ack e; exact this
  have e2 : y.dest = x.dest := by have := congrArg Sub.dest e; exact this
  unfold Explicit; rw [e1, e2]; exact h

/-- An ACK or NACK has taken effect on a connection with such a subscription. -/
def Rude (k : Conn) : Prop :=
  (∃ f ∈ k.effective, f.command = Cmd.ack ∨ f.command = Cmd.nack) ∧ ∃ i, i < k.heap.length ∧ Explicit (deref k.heap i)

theorem Rude.mono {k k' : Conn} (h : Rude k) (he : ∀ f ∈ k.effective, f ∈ k'.effective) (hl : k.heap.length ≤ k'.heap.length)
    (hf : ∀ i, i < k.heap.length → (deref k'.heap i).fixed = (deref k.heap i).fixed) : Rude k' := by
  obtain ⟨⟨f, h1, h2⟩, i, h3, h4⟩ := h
  exact ⟨⟨f, he f h1, h2⟩, i, by omega, h4.of_fixed (hf i h3)⟩

theorem Rude.evol {k k' : Conn} (h : Rude k) (e : Evol k.core k'.core) : Rude k' := by
  refine h.mono (fun f hf => ?_) e.len e.fixed
  obtain ⟨l, hl⟩ := e.effective
  have hl : k'.effective = k.effective ++ l := hl
  rw [hl]; exact List.mem_append_left _ hf

/-- Unless the client has been rude: subscriptions marked as being in a list are in one, and no panic is coming. -/
structure Tidy (Q : Nat → Prop) (k : Conn) : Prop where
  listed : ∀ i, (deref k.heap i).inList = true → i ∈ k.subList ∨ Q i ∨ Rude k
  modes : ∀ i ∈ k.subList, Explicit (deref k.heap i)
  panic : .panic ∈ k.outbox → Rude k

theorem Tidy.mono {Q : Nat → Prop} {k k' : Conn} (h : Tidy Q k) (e : Evol k.core k'.core) (hr : Rude k → Rude k')
    (hl : ∀ i, (deref k'.heap i).inList = true → (deref k.heap i).inList = true ∧ (i ∈ k.subList → i ∈ k'.subList))
    (hs : ∀ i ∈ k'.subList, i ∈ k.subList) (hx : ∀ i ∈ k.subList, i < k.heap.length) (hp : .panic ∈ k'.outbox → .panic ∈ k.outbox) : Tidy Q k' := by
  refine ⟨fun i hi => ?_, fun i hi => ?_, fun hi => hr (h.panic (hp hi))⟩
  · obtain ⟨h1, h2⟩ := hl i hi
    rcases h.listed i h1 with h3 | h3 | h3
    · exact Or.inl (h2 h3)
    · exact Or.inr (Or.inl h3)
    · exact Or.inr (Or.inr (hr h3))
  · exact (h.modes i (hs i hi)).of_fixed (e.fixed i (hx i (hs i hi)))

theorem Tidy.rude {Q : Nat → Prop} {k : Conn} (hr : Rude k) (hm : ∀ i ∈ k.subList, Explicit (deref k.heap i)) : Tidy Q k :=
  ⟨fun _ _ => Or.inr (Or.inr hr), hm, fun _ => hr⟩

theorem ackLoop_panic {heap : List Sub} {n : Nat} {l : List Nat} (h : (ackLoop heap n l).2.2 = true) : l ≠ [] := by
  rintro rfl; simp [ackLoop] at h

theorem Applied.tidy {Q : Nat → Prop} {c : Conn} {f : Frame} {c' : Conn} {r : Res} (h : Applied c f c' r) (hl : Loc c.core) (ht : Tidy Q c) :
    Tidy Q c' ∧ (r = .panic → Rude c') := by
  have ev := (h.mics hl).evol
  have hx : ∀ i ∈ c.subList, i < c.heap.length := fun i hi => hl.idx i (by
    unfold Core.tok; have := count_pos_iff.2 (show i ∈ c.core.subList from hi); omega)
  cases h with
  | send hc =>
    refine ⟨ht.mono ev (fun h => h.evol ev) (fun i hi => ⟨hi, id⟩) (fun i hi => hi) hx (fun hp => ?_), nofun⟩
    have : .panic ∈ c.outbox ++ List.map Out.req _ := hp
    rcases List.mem_append.1 this with h | h
    · exact h
    · obtain ⟨_, _, h⟩ := List.mem_map.1 h; cases h
  | ack hc n hid =>
    by_cases hn : c.subList = []
    · refine ⟨?_, fun hp => ?_⟩
      · have e : ackLoop c.heap n c.subList = ([], [], false) := by rw [hn]; rfl
        have e1 : (({ c with effective := c.effective ++ [f] } : Conn).applyAck n).1.heap = c.heap := by
          unfold Conn.applyAck; dsimp only [Conn.emit]; rw [e]; rfl
        have e2 : (({ c with effective := c.effective ++ [f] } : Conn).applyAck n).1.subList = c.subList := by
          unfold Conn.applyAck; dsimp only [Conn.emit]; rw [e, hn]
        have e3 : (({ c with effective := c.effective ++ [f] } : Conn).applyAck n).1.outbox = c.outbox := by
          unfold Conn.applyAck; dsimp only [Conn.emit]; rw [e]; simp
        exact ht.mono ev (fun h => h.evol ev) (fun i hi => ⟨by rw [← e1]; exact hi, by rw [e2]; exact id⟩) (fun i hi => by rw [← e2]; exact hi) hx
          (fun hp => by rw [← e3]; exact hp)
      · exfalso
        unfold Conn.applyAck at hp
        dsimp only at hp
        rw [hn] at hp
        simp [ackLoop] at hp
    · obtain ⟨i, hi⟩ := List.exists_mem_of_ne_nil _ hn
      have hr : Rude (({ c with effective := c.effective ++ [f] } : Conn).applyAck n).1 := by
        refine ⟨⟨f, ?_, Or.inl hc⟩, i, ?_, (ht.modes i hi).of_fixed (ev.fixed i (hx i hi))⟩
        · show f ∈ c.effective ++ [f]; simp
        · have := ev.len; have := hx i hi; exact Nat.lt_of_lt_of_le (hx i hi) ev.len
      exact ⟨Tidy.rude hr (fun j hj => by
        have hj : j ∈ c.subList := (ackLoop_mem _ _ _).1 j hj
        exact (ht.modes j hj).of_fixed (ev.fixed j (hx j hj))), fun _ => hr⟩
  | nack hc n hid =>
    refine ⟨?_, nofun⟩
    by_cases hn : c.subList = []
    · have e : nackLoop c.heap n c.subList = ([], []) := by rw [hn]; rfl
      have e1 : (({ c with effective := c.effective ++ [f] } : Conn).applyNack n).heap = c.heap := by
        unfold Conn.applyNack; dsimp only [Conn.emit]; rw [e]; rfl
      have e2 : (({ c with effective := c.effective ++ [f] } : Conn).applyNack n).subList = c.subList := by
        unfold Conn.applyNack; dsimp only [Conn.emit]; rw [e, hn]
      have e3 : (({ c with effective := c.effective ++ [f] } : Conn).applyNack n).outbox = c.outbox := by
        unfold Conn.applyNack; dsimp only [Conn.emit]; rw [e]; simp
      exact ht.mono ev (fun h => h.evol ev) (fun i hi => ⟨by rw [← e1]; exact hi, by rw [e2]; exact id⟩) (fun i hi => by rw [← e2]; exact hi) hx
        (fun hp => by rw [← e3]; exact hp)
    · obtain ⟨i, hi⟩ := List.exists_mem_of_ne_nil _ hn
      have hr : Rude (({ c with effective := c.effective ++ [f] } : Conn).applyNack n) := by
        refine ⟨⟨f, ?_, Or.inr hc⟩, i, ?_, (ht.modes i hi).of_fixed (ev.fixed i (hx i hi))⟩
        · show f ∈ c.effective ++ [f]; simp
        · exact Nat.lt_of_lt_of_le (hx i hi) ev.len
      exact Tidy.rude hr (fun j hj => by
        have hj : j ∈ c.subList := nackLoop_mem _ _ _ j hj
        exact (ht.modes j hj).of_fixed (ev.fixed j (hx j hj)))

theorem Committed.tidy {Q : Nat → Prop} {c : Conn} {fs : List Frame} {c' : Conn} {r : Res} (h : Committed c fs c' r) (hl : Loc c.core) (ht : Tidy Q c) :
    Tidy Q c' ∧ (r = .panic → Rude c') := by
  induction h with
  | nil => exact ⟨ht, nofun⟩
  | cons h _ ih => exact ih (hl.mics (h.mics hl)) (h.tidy hl ht).1
  | panic h => exact h.tidy hl ht

theorem Rude.same {k k' : Conn} (h : Rude k) (h1 : k'.effective = k.effective) (h2 : k'.heap = k.heap) : Rude k' :=
  h.mono (fun f hf => by rw [h1]; exact hf) (by rw [h2]; exact Nat.le_refl _) (fun i _ => by rw [h2])

theorem Tidy.same {Q : Nat → Prop} {k k' : Conn} (h : Tidy Q k) (h1 : k'.effective = k.effective) (h2 : k'.heap = k.heap) (h3 : k'.subList = k.subList)
    (h4 : .panic ∈ k'.outbox → .panic ∈ k.outbox) : Tidy Q k' := by
  refine ⟨fun i hi => ?_, fun i hi => ?_, fun hp => (h.panic (h4 hp)).same h1 h2⟩
  · rw [h2] at hi; rw [h3]
    exact (h.listed i hi).imp_right (fun h => h.imp_right (fun h => h.same h1 h2))
  · rw [h2]; rw [h3] at hi; exact h.modes i hi

theorem Rcpt.tidy {Q : Nat → Prop} {c : Conn} {ok : Bool} {f : Frame} {c1 : Conn} {f1 : Frame} {k : Bool} (h : Rcpt c ok f c1 f1 k) (ht : Tidy Q c) : Tidy Q c1 := by
  cases h with
  | none => exact ht
  | sent => exact ht.same rfl rfl rfl id
  | failed => exact ht.same rfl rfl rfl id

theorem panic_emit {o : List Out} {l : List Req} (h : Out.panic ∈ o ++ l.map .req) : .panic ∈ o := by
  rcases List.mem_append.1 h with h | h
  · exact h
  · obtain ⟨_, _, h⟩ := List.mem_map.1 h; cases h

theorem Handled.tidy {Q : Nat → Prop} {c : Conn} {ok : Bool} {f : Frame} {c' : Conn} {f' : Frame} {r : Res} (h : Handled c ok f c' f' r) (hl : Loc c.core)
    (ht : Tidy Q c) : Tidy Q c' ∧ (r = .panic → Rude c') := by
  have app : ∀ {c1 c2 : Conn} {f1 : Frame} {k : Bool} {r : Res}, Rcpt c ok f c1 f1 k → Applied c1 f1 c2 r → Tidy Q c2 ∧ (r = .panic → Rude c2) := by
    intro c1 c2 f1 k r hr ha
    exact ha.tidy (by rw [hr.core]; exact hl) (hr.tidy ht)
  cases h with
  | commitMissing => exact ⟨ht, nofun⟩
  | commitWrite _ _ _ hr => exact ⟨hr.tidy ht, nofun⟩
  | commitUnknown _ _ _ _ hr => exact ⟨hr.tidy ht, nofun⟩
  | commit _ _ _ _ _ hr hcm =>
    have := hcm.tidy (by rw [hr.core]; exact hl) (hr.tidy ht)
    exact ⟨this.1.same rfl rfl rfl id, fun hp => (this.2 hp).same rfl rfl⟩
  | basic hnc hb =>
    cases hb with
    | unexpected => exact ⟨ht, nofun⟩
    | disconnect hc hr => exact ⟨hr.tidy ht, nofun⟩
    | refused => exact ⟨ht, nofun⟩
    | writeFail hc hr => exact ⟨hr.tidy ht, nofun⟩
    | txErr _ _ _ _ _ hr => exact ⟨hr.tidy ht, nofun⟩
    | begin_ _ _ _ _ hr => exact ⟨(hr.tidy ht).same rfl rfl rfl id, nofun⟩
    | abort _ _ _ _ _ hr => exact ⟨(hr.tidy ht).same rfl rfl rfl id, nofun⟩
    | store _ _ _ _ _ _ hr => exact ⟨(hr.tidy ht).same rfl rfl rfl id, nofun⟩
    | subscribe hc id dest =>
      have hx : ∀ i ∈ c.subList, i < c.heap.length := fun i hi => hl.idx i (by
        unfold Core.tok; have := count_pos_iff.2 (show i ∈ c.core.subList from hi); omega)
      have hd : ∀ i, i < c.heap.length → ∀ x, deref (c.heap ++ [x]) i = deref c.heap i := fun i hi x => deref_append_lt _ _ _ hi
      have up : Rude c → Rude (({ c with heap := c.heap ++ [newSubscription dest id ((f.header.contains Hdr.ack).getD ackAuto)], subs := c.subs.set id c.heap.length } : Conn).emit [.subscribe ⟨c.me, c.heap.length⟩]) :=
        fun h => h.mono (fun f hf => hf) (by simp [Conn.emit]) (fun i hi => by rw [show (Conn.emit _ _).heap = c.heap ++ [_] from rfl, hd i hi])
      refine ⟨⟨fun i hi => ?_, fun i hi => ?_, fun hp => up (ht.panic (panic_emit hp))⟩, nofun⟩
      · have hi : (deref (c.heap ++ [newSubscription dest id ((f.header.contains Hdr.ack).getD ackAuto)]) i).inList = true := hi
        by_cases hlt : i < c.heap.length
        · rw [hd i hlt] at hi
          exact (ht.listed i hi).imp_right (fun h => h.imp_right up)
        · exfalso
          by_cases he : i = c.heap.length
          · subst he; rw [deref_append_eq] at hi; cases hi
          · rw [deref_ge _ _ (by simp; omega)] at hi; cases hi
      · have hi : i ∈ c.subList := hi
        show Explicit (deref (c.heap ++ _) i)
        rw [hd i (hx i hi)]; exact ht.modes i hi
    | unsubscribe hc id hi i hg => exact ⟨ht.same rfl rfl rfl panic_emit, nofun⟩
    | send hc _ hr => exact app hr (Applied.send (by rw [hr.command]; exact hc))
    | ack hc _ n hid hr =>
      refine app hr (Applied.ack (by rw [hr.command]; exact hc) n ?_)
      rw [hr.frame_eq]; rw [← hid]; exact ackId_strip (by decide) (by decide)
    | nack hc _ n hid hr =>
      refine app hr (Applied.nack (by rw [hr.command]; exact hc) n ?_)
      rw [hr.frame_eq]; rw [← hid]; exact ackId_strip (by decide) (by decide)

theorem inList_putFrame (heap : List Sub) (i j : Nat) (m : Option Msg) : (deref (putFrame heap i m) j).inList = (deref heap j).inList := by
  rw [deref_putFrame]; split <;> rfl

theorem inList_foldl (l : List Nat) (heap : List Sub) (j : Nat) (h : (deref (l.foldl (fun h i => putInList h i false) heap) j).inList = true) :
    (deref heap j).inList = true ∧ j ∉ l := by
  induction l generalizing heap with
  | nil => exact ⟨h, by simp⟩
  | cons i l ih =>
    obtain ⟨h1, h2⟩ := ih _ h
    rw [deref_putInList] at h1
    split at h1
    · cases h1
    · rename_i hn
      refine ⟨h1, ?_⟩
      rw [List.mem_cons]
      rintro (rfl | h3)
      · by_cases hlt : j < heap.length
        · exact hn ⟨rfl, hlt⟩
        · rw [deref_ge _ _ (by omega)] at h1; cases h1
      · exact h2 h3

/-- The steps of a connection keep it tidy. -/
theorem tidy_step {cfg : Config} {Q : Nat → Prop} {c : Conn} {e : Conn.Ev} {c' : Conn} (hg : Gate cfg c) (hl : Loc c.core) (hs : SubsOk c)
    (hh : c.core.Held QueueFor QueueMsg) (hQ : ∀ i ∈ c.subCh, ¬Q i) (hi : Sys.internal e = true) (h : Step cfg c e c') (ht : Tidy Q c) : Tidy Q c' := by
  have ev := (mics_step hg hl hs hi h).evol
  have hx : ∀ i ∈ c.subList, i < c.heap.length := fun i hi => hl.idx i (by
    unfold Core.tok; have := count_pos_iff.2 (show i ∈ c.core.subList from hi); omega)
  have full : ∀ {i l}, c.subCh = i :: l → ∃ m, (deref c.heap i).frame = some m := by
    intro i l h
    exact Option.isSome_iff_exists.1 (hl.full i (Or.inl (by show i ∈ c.subCh; rw [h]; simp)))
  have notin : ∀ {i l}, c.subCh = i :: l → i ∉ c.subList := by
    intro i l h hm
    have h1 : 0 < c.core.subCh.count i := count_pos_iff.2 (by show i ∈ c.subCh; rw [h]; simp)
    have h2 : 0 < c.core.subList.count i := count_pos_iff.2 hm
    have := hl.tok i
    unfold Core.tok at this; omega
  cases h with
  | recv => exact ht.same rfl rfl rfl id
  | readErr => exact ht.same rfl rfl rfl id
  | frame ok1 ok2 f q c1 _ f' r ha hq hsf hfin =>
    rcases frame_cases hg hsf hfin with ⟨_, v, cx, cy, _, ⟨_, rfl⟩ | ⟨_, rfl⟩⟩ | ⟨_, _, e, v, ⟨_, rfl⟩ | ⟨_, rfl⟩⟩ | ⟨_, hh', hf⟩
    · exact ht.same rfl rfl rfl panic_emit
    · exact ht.same rfl rfl rfl panic_emit
    · exact ht.same rfl rfl rfl id
    · exact ht.same rfl rfl rfl id
    · have h1 := hh'.tidy (Q := Q) hl (ht.same rfl rfl rfl id)
      cases hf with
      | ok => exact h1.1
      | panic =>
        have hr := h1.2 rfl
        exact Tidy.rude (hr.same rfl rfl) h1.1.modes
      | err => exact h1.1.same rfl rfl rfl id
      | errFail => exact h1.1.same rfl rfl rfl id
  | readClosed => exact ht.same rfl rfl rfl id
  | wrOk => exact ht.same rfl rfl rfl id
  | wrErr => exact ht.same rfl rfl rfl id
  | wrFail => exact ht.same rfl rfl rfl id
  | subGone => exact ht.same rfl rfl rfl panic_emit
  | subNil ok i l j _ hc _ hf => obtain ⟨m, hm⟩ := full hc; rw [hm] at hf; cases hf
  | subFail => exact ht.mono ev (fun h => h.evol ev) (fun i hi => ⟨by rw [inList_putFrame] at hi; exact hi, id⟩) (fun i hi => hi) hx id
  | subAuto =>
    refine ht.mono ev (fun h => h.evol ev) (fun i hi => ⟨?_, id⟩) (fun i hi => hi) hx panic_emit
    rw [show (Conn.emit _ _).heap = putFrame (putFrame c.heap _ _) _ _ from rfl, inList_putFrame, inList_putFrame] at hi; exact hi
  | subPanic i l j m _ hc _ hm _ hk hin =>
    have hr : Rude c := by
      rcases ht.listed i hin with h | h | h
      · exact absurd h (notin hc)
      · exact absurd h (hQ i (by rw [hc]; simp))
      · exact h
    exact Tidy.rude (hr.evol ev) (fun j hj => (ht.modes j hj).of_fixed (ev.fixed j (hx j hj)))
  | subAdd i l j m _ hc _ hm _ hk hin =>
    refine ⟨fun n hn => ?_, fun n hn => ?_, fun hp => (ht.panic hp).evol ev⟩
    · rw [deref_putInList] at hn
      split at hn
      · rename_i he; rw [← he.1]; exact Or.inl (by simp)
      · rw [inList_putFrame] at hn
        rcases ht.listed n hn with h | h | h
        · exact Or.inl (List.mem_append_left _ h)
        · exact Or.inr (Or.inl h)
        · exact Or.inr (Or.inr (h.evol ev))
    · have hn : n ∈ c.subList ++ [i] := hn
      have hi : i < c.heap.length := lt_of_frame hm
      rcases List.mem_append.1 hn with hn | hn
      · exact (ht.modes n hn).of_fixed (ev.fixed n (hx n hn))
      · rw [List.mem_singleton] at hn; subst hn
        have : Explicit (deref c.heap n) := ⟨hk, (hh.heap n m hm).2.2⟩
        exact this.of_fixed (ev.fixed n hi)
  | timerOk => exact ht.same rfl rfl rfl id
  | timerFail => exact ht.same rfl rfl rfl id
  | discard => exact ht.same rfl rfl rfl id
  | discardEnd => exact ht.same rfl rfl rfl id
  | acklist =>
    refine ⟨fun n hn => ?_, fun n hn => ?_, fun hp => (ht.panic (panic_emit hp)).evol ev⟩
    · obtain ⟨h1, h2⟩ := inList_foldl c.subList c.heap n hn
      rcases ht.listed n h1 with h | h | h
      · exact absurd h h2
      · exact Or.inr (Or.inl h)
      · exact Or.inr (Or.inr (h.evol ev))
    · cases hn
  | drain => exact ht.same rfl rfl rfl panic_emit
  | drainEnd => exact ht.same rfl rfl rfl id
  | announce => exact ht.same rfl rfl rfl panic_emit
  | unsub => exact ht.same rfl rfl rfl panic_emit
  | flushed => cases hi
  | setFrame => cases hi
  | setInList => cases hi
  | pushSub => cases hi
  | pushTopic => cases hi

/-- The subscription is in the list of some queue. -/
def InQueue (s : Sys) (r : SubRef) : Prop := ∃ d, r ∈ s.queues.list d

/-- All connections are tidy. -/
def TidySys (s : Sys) : Prop := ∀ (c : Nat) (k : Conn), s.conns[c]? = some k → Tidy (fun i => InQueue s ⟨c, i⟩) k

theorem Tidy.env {Q Q' : Nat → Prop} {k k' : Conn} (h : Tidy Q k) (h1 : k'.effective = k.effective) (h2 : k'.subList = k.subList)
    (h3 : .panic ∈ k'.outbox → .panic ∈ k.outbox) (hlen : k'.heap.length = k.heap.length)
    (hf : ∀ i, (deref k'.heap i).fixed = (deref k.heap i).fixed)
    (hl : ∀ i, (deref k'.heap i).inList = true → ((deref k.heap i).inList = true ∧ (Q i → Q' i)) ∨ Q' i) : Tidy Q' k' := by
  have up : Rude k → Rude k' := fun h => h.mono (fun f hf => by rw [h1]; exact hf) (by omega) (fun i _ => hf i)
  refine ⟨fun i hi => ?_, fun i hi => ?_, fun hp => up (h.panic (h3 hp))⟩
  · rcases hl i hi with ⟨h4, h5⟩ | h4
    · rw [h2]
      rcases h.listed i h4 with h | h | h
      · exact Or.inl h
      · exact Or.inr (Or.inl (h5 h))
      · exact Or.inr (Or.inr (up h))
    · exact Or.inr (Or.inl h4)
  · rw [h2] at hi; exact (h.modes i hi).of_fixed (hf i)

theorem inQueue_sum {q : AMap (List SubRef)} {r : SubRef} {d : Bytes} (h : r ∈ q.list d) : 0 < AMap.sum (List.count r) q :=
  Nat.lt_of_lt_of_le (List.count_pos_iff.2 h) (AMap.le_sum_list (List.count r) rfl q d)

theorem tidySys_step {cfg : Config} {s s' : Sys} {e : Sys.Ev} (hi : SInv cfg s) (ha : Addr s) (hp : TidySys s) (hs : SysStep cfg s e s') : TidySys s' := by
  have same : ∀ {s' : Sys}, s'.conns = s.conns → s'.queues = s.queues → TidySys s' := by
    intro s' h1 h2 c k hk
    rw [h1] at hk
    exact (hp c k hk).env rfl rfl id rfl (fun _ => rfl) (fun i hi => Or.inl ⟨hi, fun ⟨d, hd⟩ => ⟨d, by rw [h2]; exact hd⟩⟩)
  have one : ∀ {s' : Sys} {j : Nat} {k1 k2 : Conn}, s.conns[j]? = some k1 → s'.conns = s.conns.set j k2 → s'.queues = s.queues →
      Tidy (fun i => InQueue s ⟨j, i⟩) k2 → TidySys s' := by
    intro s' j k1 k2 h1 h2 h3 h4 c k hk
    have same : ∀ r, InQueue s r → InQueue s' r := fun r ⟨d, hd⟩ => ⟨d, by rw [h3]; exact hd⟩
    rw [h2, get_set h1] at hk
    split at hk
    · rename_i hj; injection hk with hk; subst hk hj
      exact h4.env rfl rfl id rfl (fun _ => rfl) (fun i hi => Or.inl ⟨hi, same _⟩)
    · exact (hp c k hk).env rfl rfl id rfl (fun _ => rfl) (fun i hi => Or.inl ⟨hi, same _⟩)
  -- a change of the list of a queue, and of one subscription
  have move : ∀ {s' : Sys} {r : SubRef} {k1 k2 : Conn}, s.conns[r.conn]? = some k1 → s'.conns = s.conns.set r.conn k2 →
      (∀ r', r' ≠ r → InQueue s r' → InQueue s' r') → k2.effective = k1.effective → k2.subList = k1.subList →
      k2.outbox = k1.outbox → k2.heap.length = k1.heap.length → (∀ i, (deref k2.heap i).fixed = (deref k1.heap i).fixed) →
      (∀ i, i ≠ r.idx → (deref k2.heap i).inList = (deref k1.heap i).inList) →
      ((deref k2.heap r.idx).inList = true → InQueue s' r) → TidySys s' := by
    intro s' r k1 k2 h1 h2 h3 h4 h5 h6 h7 h8 h9 h10 c k hk
    rw [h2, get_set h1] at hk
    split at hk
    · rename_i hj; injection hk with hk; subst hk hj
      refine (hp _ k1 h1).env h4 h5 (fun h => by rw [← h6]; exact h) h7 h8 (fun i hi => ?_)
      by_cases he : i = r.idx
      · subst he; exact Or.inr (h10 hi)
      · rw [h9 i he] at hi
        exact Or.inl ⟨hi, h3 _ (fun e => he (congrArg SubRef.idx e))⟩
    · rename_i hj
      exact (hp c k hk).env rfl rfl id rfl (fun _ => rfl) (fun i hi => Or.inl ⟨hi, h3 _ (fun e => hj (congrArg SubRef.conn e).symm)⟩)
  cases hs with
  | accept =>
    intro c k hk
    have hk : (s.conns ++ [Conn.init s.conns.length])[c]? = some k := hk
    rw [List.getElem?_append] at hk
    split at hk
    · exact (hp c k hk).env rfl rfl id rfl (fun _ => rfl) (fun i hi => Or.inl ⟨hi, id⟩)
    · have hm := List.mem_of_getElem? hk
      rw [List.mem_singleton] at hm; subst hm
      refine ⟨fun i hi => ?_, fun i hi => ?_, fun h => ?_⟩
      · rw [deref_ge _ _ (by simp [Conn.init])] at hi; cases hi
      · cases hi
      · cases h
  | conn c e k k' hk hint hs =>
    obtain ⟨ces, hr⟩ := hi.run c k hk
    refine one hk rfl rfl (tidy_step (gate_run cfg c ces k hr) (hi.loc c k hk) (subsOk_run hr) (ha.core c k hk) ?_ hint (step_of _ _ _ _ hs) (hp c k hk))
    rintro i hsub ⟨d, hd⟩
    have h1 := hi.tok ⟨c, i⟩
    have h2 : 0 < held s.conns ⟨c, i⟩ := by
      rw [held_of (r := ⟨c, i⟩) hk]; unfold Core.tok
      have := count_pos_iff.2 (show i ∈ k.core.subCh from hsub); dsimp only; omega
    have h3 := inQueue_sum hd
    unfold waiting at h1; omega
  | flush c k r o hk ho =>
    exact one hk rfl rfl ((hp c k hk).same rfl rfl rfl (fun h => by rw [ho]; exact List.mem_cons_of_mem _ h))
  | skip => exact same rfl rfl
  | joinTopic => exact same rfl rfl
  | wait r rs k dest ht hr hk hidx hd hq he hl =>
    refine move hk rfl (fun r' hne ⟨d, hd⟩ => ?_) rfl rfl rfl (putInList_length _ _ _) (fun i => fixed_putInList _ _ _ _)
      (fun i hne => by rw [deref_putInList_ne _ _ (fun h => hne h.symm)]) (fun _ => ⟨dest, by simp [AMap.list_set]⟩)
    refine ⟨d, ?_⟩
    show r' ∈ AMap.list (AMap.set _ _ _) d
    rw [AMap.list_set]
    split
    · rename_i he; subst he; exact List.mem_append_left _ hd
    · exact hd
  | take r rs k dest m l ht hr hk hidx hd hq hm hf =>
    exact one hk rfl rfl ((hp _ k hk).env rfl rfl id (putFrame_length _ _ _) (fun i => fixed_putFrame _ _ _ _)
      (fun i hi => Or.inl ⟨by rw [inList_putFrame] at hi; exact hi, id⟩))
  | leaveQueue r rs k dest ht hr hk hidx hd hq hm =>
    refine move hk rfl (fun r' hne ⟨d, hd⟩ => ?_) rfl rfl rfl (putInList_length _ _ _) (fun i => fixed_putInList _ _ _ _)
      (fun i hne => by rw [deref_putInList_ne _ _ (fun h => hne h.symm)]) (fun h => ?_)
    · refine ⟨d, ?_⟩
      show r' ∈ AMap.list (AMap.set _ _ _) d
      rw [AMap.list_set]
      split
      · rename_i he; subst he; exact (List.mem_erase_of_ne hne).2 hd
      · exact hd
    · rw [deref_putInList, if_pos ⟨rfl, hidx⟩] at h; cases h
  | absent => exact same rfl rfl
  | leaveTopic => exact same rfl rfl
  | store => exact same rfl rfl
  | give front m rs dest r q k ht hr hd hq he hk hidx hf =>
    refine move hk rfl (fun r' hne ⟨d, hd⟩ => ?_) rfl rfl rfl (by dsimp only; rw [putFrame_length, putInList_length])
      (fun i => by dsimp only; rw [fixed_putFrame, fixed_putInList])
      (fun i hne => by dsimp only; rw [inList_putFrame, deref_putInList_ne _ _ (fun h => hne h.symm)]) (fun h => ?_)
    · refine ⟨d, ?_⟩
      show r' ∈ AMap.list (AMap.set _ _ _) d
      rw [AMap.list_set]
      split
      · rename_i hde; subst hde; rw [he] at hd
        rcases List.mem_cons.1 hd with h | h
        · exact absurd h hne
        · exact h
      · exact hd
    · dsimp only at h; rw [inList_putFrame, deref_putInList, if_pos ⟨rfl, hidx⟩] at h; cases h
  | cast => exact same rfl rfl
  | drop => exact same rfl rfl
  | pushQueue r t k ht hk => exact one hk rfl rfl ((hp _ k hk).same rfl rfl rfl id)
  | pushTopic dest r m t k ht hk => exact one hk rfl rfl ((hp _ k hk).same rfl rfl rfl id)

theorem tidySys_run {cfg : Config} {es : List Sys.Ev} {s : Sys} (h : Sys.init.run cfg es = some s) (hc : s.crashed = false) : TidySys s := by
  have := (sys_induction (cfg := cfg) (P := fun s => Addr s ∧ TidySys s) ⟨Addr.init, by intro c k hk; simp [Sys.init] at hk⟩
    (fun s e s' hi hp hs => ⟨addr_step hi hp.1 hs, tidySys_step hi hp.1 hp.2 hs⟩) es s h hc).2.2
  exact this

/-! ## The panics -/

/-- Every panic of the server is one of three. -/
theorem crash_cases {cfg : Config} {s s' : Sys} {e : Sys.Ev} (hi : SInv cfg s) (ha : Addr s) (h : s.step cfg e = some s') (hc : s'.crashed = true) :
    s'.conns = s.conns ∧ ((∃ (c : Nat) (k : Conn), s.conns[c]? = some k ∧ .panic ∈ k.outbox) ∨
    (∃ (r : SubRef) (k : Conn), .subscribe r ∈ s.reqCh ∧ s.conns[r.conn]? = some k ∧ (deref k.heap r.idx).inList = true) ∨
    (∃ m, .enqueue m ∈ s.reqCh ∧ firstValue m.frame.header Hdr.destination = none)) := by
  have hnc := sys_crashed_step h
  have hR := hi.refs
  unfold Sys.step at h
  rw [if_neg (by rw [hnc]; simp)] at h
  have put : ∀ (front : Bool) (m : Msg) (rs : List Req) (dest : Bytes), s.reqCh = putReq front m :: rs → ({ s with reqCh := rs } : Sys).queuePut front dest m = s' → False := by
    intro front m rs dest hr h
    unfold Sys.queuePut at h
    dsimp only at h
    cases he : s.queues.list dest with
    | nil => rw [he] at h; rw [← h] at hc; dsimp only at hc; rw [hnc] at hc; cases hc
    | cons r q =>
      rw [he] at h
      dsimp only at h
      obtain ⟨k, hk, hidx⟩ := hR.queue dest r (by rw [he]; simp)
      obtain ⟨x, hx, hx2⟩ := hi.empty r (by
        have := inQueue_sum (q := s.queues) (r := r) (d := dest) (by rw [he]; simp)
        unfold waiting; omega)
      rw [look_of hk hidx] at hx; injection hx with hx; subst hx
      have hlt : r.conn < s.conns.length := (List.getElem?_eq_some_iff.1 hk).1
      have hk2 : (s.conns.set r.conn { k with heap := putInList k.heap r.idx false })[r.conn]? = some { k with heap := putInList k.heap r.idx false } := by
        rw [List.getElem?_set]; simp [hlt]
      have hsc := send_cases ({ s with reqCh := rs, queues := s.queues.set dest q, conns := s.conns.set r.conn { k with heap := putInList k.heap r.idx false }, qlog := s.qlog ++ [(dest, .put front m.tag)] }) dest r m _ hk2
      have e3 : ({ s with reqCh := rs, queues := s.queues.set dest q, conns := s.conns.set r.conn { k with heap := putInList k.heap r.idx false }, qlog := s.qlog ++ [(dest, .put front m.tag)] } : Sys).sendQueueFrame dest r m = s' := by
        rw [← h]
        dsimp only [Sys.setSub]
        rw [modify_eq_set _ _ _ _ hk]
        rfl
      rw [e3] at hsc
      dsimp only at hsc
      rw [frame_putInList] at hsc
      rcases hsc with ⟨h1, _⟩ | ⟨_, h1⟩
      · rw [hx2] at h1; cases h1
      · rw [h1] at hc; dsimp only at hc; rw [hnc] at hc; cases hc
  cases e with
  | accept => dsimp only at h; injection h with h; subst h; dsimp only at hc; rw [hnc] at hc; cases hc
  | conn c e =>
    dsimp only at h
    split at h
    · split at h
      · cases h
      · split at h
        · cases h
        · injection h with h; subst h; dsimp only at hc; rw [hnc] at hc; cases hc
    · cases h
  | flush c =>
    dsimp only at h
    split at h
    · cases h
    · rename_i k hk
      split at h
      · cases h
      · rename_i o ho; injection h with h; exact ⟨by rw [← h], Or.inl ⟨c, k, hk, by rw [ho]; simp⟩⟩
      · split at h
        · split at h
          · cases h
          · injection h with h; subst h; dsimp only at hc; rw [hnc] at hc; cases hc
        · cases h
  | proc =>
    dsimp only at h
    split at h
    · rename_i r rs ht hr
      injection h with h
      unfold Sys.handle at h
      cases r with
      | subscribe r =>
        obtain ⟨k, hk, hidx⟩ := hR.sub r (by rw [hr]; simp)
        have es : Sys.sub { s with reqCh := rs } r = deref k.heap r.idx := Sys.sub_eq (s := { s with reqCh := rs }) hk
        dsimp only at h
        rw [es] at h
        split at h
        · unfold Sys.queueSubscribe at h
          rcases Store.dequeue_cases s.store (deref k.heap r.idx).dest with ⟨he, hdq⟩ | ⟨m, l, hm, hdq⟩
          · rw [hdq] at h
            dsimp only at h
            rw [es] at h
            split at h
            · rename_i hin; exact ⟨by rw [← h], Or.inr (Or.inl ⟨r, k, by rw [hr]; simp, hk, hin⟩)⟩
            · rw [← h] at hc; dsimp only [Sys.setSub] at hc; rw [hnc] at hc; cases hc
          · rw [hdq] at h
            dsimp only at h
            have hsc := send_cases ({ s with reqCh := rs, store := s.store.set (deref k.heap r.idx).dest l }) (deref k.heap r.idx).dest r m k hk
            rw [h] at hsc
            obtain ⟨x, hx, hx2⟩ := hi.empty r (by
              have := count_reqSubs_mem (l := s.reqCh) (r := r) (by rw [hr]; simp)
              unfold waiting; omega)
            rw [look_of hk hidx] at hx; injection hx with hx; subst hx
            rcases hsc with ⟨h1, _⟩ | ⟨_, h1⟩
            · rw [hx2] at h1; cases h1
            · rw [h1] at hc; dsimp only at hc; rw [hnc] at hc; cases hc
        · rw [← h] at hc; dsimp only [Sys.topicSubscribe] at hc; rw [hnc] at hc; cases hc
      | unsubscribe r =>
        dsimp only at h
        split at h
        · unfold Sys.queueUnsubscribe at h
          split at h
          · rw [← h] at hc; dsimp only [Sys.setSub] at hc; rw [hnc] at hc; cases hc
          · rw [← h] at hc; dsimp only at hc; rw [hnc] at hc; cases hc
        · rw [← h] at hc; dsimp only [Sys.topicUnsubscribe] at hc; rw [hnc] at hc; cases hc
      | enqueue m =>
        dsimp only at h
        split at h
        · rename_i hd; exact ⟨by rw [← h], Or.inr (Or.inr ⟨m, by rw [hr]; simp, by rw [← contains_eq]; exact hd⟩)⟩
        · rename_i dest hd
          split at h
          · exact (put false m rs dest hr h).elim
          · rw [← h] at hc; dsimp only [Sys.topicEnqueue] at hc; rw [hnc] at hc; cases hc
      | requeue m =>
        cases m with
        | none => exact absurd (by rw [hr]; simp) hi.nil
        | some m =>
          dsimp only at h
          split at h
          · rename_i hd
            obtain ⟨d, h1, _⟩ := ha.req m (by rw [hr]; simp)
            rw [contains_eq, h1] at hd; cases hd
          · rename_i dest hd
            split at h
            · exact (put true m rs dest hr h).elim
            · rw [← h] at hc; dsimp only at hc; rw [hnc] at hc; cases hc
      | connected c => rw [← h] at hc; dsimp only at hc; rw [hnc] at hc; cases hc
      | disconnected c => rw [← h] at hc; dsimp only at hc; rw [hnc] at hc; cases hc
    · cases h
  | push =>
    dsimp only at h
    split at h
    · cases h
    · split at h
      · cases h
      · split at h
        · cases h
        · injection h with h; subst h; dsimp only at hc; rw [hnc] at hc; cases hc
    · rename_i dest r m t ht
      split at h
      · cases h
      · rename_i k hk
        split at h
        · rename_i hf
          exfalso
          have h1 := hi.due dest r m (by rw [ht]; simp)
          obtain ⟨h2, x, h3, h4⟩ := ha.t dest r h1
          obtain ⟨k0, hk0, hidx, hd⟩ := look_some h3
          rw [hk] at hk0; injection hk0 with hk0; subst hk0
          obtain ⟨m0, hm0⟩ := Option.isSome_iff_exists.1 hf
          have h5 := ((ha.core _ k hk).heap r.idx m0 hm0).2.2
          have h6 : (deref k.heap r.idx).fixed.dest = dest := by rw [← h4, ← hd]; rfl
          rw [show (deref k.core.heap r.idx).fixed.dest = (deref k.heap r.idx).fixed.dest from rfl, h6, h2] at h5; cases h5
        · split at h
          · cases h
          · injection h with h; subst h; dsimp only at hc; rw [hnc] at hc; cases hc

theorem sysRun_none {cfg : Config} {es es' : List Sys.Ev} {s : Sys} (h : s.run cfg es = none) : s.run cfg (es ++ es') = none := by
  induction es generalizing s with
  | nil => simp only [Sys.run] at h; cases h
  | cons e es ih =>
    simp only [List.cons_append, Sys.run] at h ⊢
    split
    · rfl
    · rename_i s1 h1; rw [h1] at h; exact ih h

/-- The last event of a run that crashes. -/
theorem crash_last {cfg : Config} {es : List Sys.Ev} {s : Sys} (h : Sys.init.run cfg es = some s) (hc : s.crashed = true) :
    ∃ es0 e s0, es = es0 ++ [e] ∧ Sys.init.run cfg es0 = some s0 ∧ s0.step cfg e = some s := by
  rcases List.eq_nil_or_concat es with rfl | ⟨es0, e, rfl⟩
  · simp only [Sys.run, Option.some.injEq] at h; subst h; cases hc
  · cases h0 : Sys.init.run cfg es0 with
    | none => exact absurd h (by rw [List.concat_eq_append, sysRun_none h0]; nofun)
    | some s0 =>
      rw [List.concat_eq_append, sysRun_append es0 [e] _ _ h0] at h
      refine ⟨es0, e, s0, by simp, h0, ?_⟩
      simp only [Sys.run] at h
      split at h
      · cases h
      · rename_i s1 h1; injection h with h; subst h; exact h1

/-- Whoever crashes the server has sent a SEND frame without destination, or an ACK or NACK on a connection with a subscription that needs them. -/
theorem crash_culprit {cfg : Config} {es : List Sys.Ev} {s : Sys} (h : Sys.init.run cfg es = some s) (hc : s.crashed = true) :
    ∃ (c : Nat) (k : Conn), s.conns[c]? = some k ∧
      ((∃ f ∈ k.effective, f.command = b!"SEND" ∧ firstValue f.header b!"destination" = none) ∨
       (∃ f ∈ k.effective, f.command = b!"ACK" ∨ f.command = b!"NACK") ∧ ∃ x ∈ k.heap, Explicit x ∧ ∃ q ∈ k.hist, MadeBy x q) := by
  obtain ⟨es0, e, s0, -, h0, hs⟩ := crash_last h hc
  have hnc := sys_crashed_step hs
  have hi := (sys_induction (P := fun _ => True) trivial (fun _ _ _ _ _ _ => trivial) es0 s0 h0 hnc).1
  obtain ⟨hk, hcc⟩ := crash_cases hi (addr_run h0 hnc) hs hc
  have ht := tidySys_run h0 hnc
  have rude : ∀ (c : Nat) (k : Conn), s0.conns[c]? = some k → Rude k → ∃ (c : Nat) (k : Conn), s.conns[c]? = some k ∧
      ((∃ f ∈ k.effective, f.command = b!"SEND" ∧ firstValue f.header b!"destination" = none) ∨
       (∃ f ∈ k.effective, f.command = b!"ACK" ∨ f.command = b!"NACK") ∧ ∃ x ∈ k.heap, Explicit x ∧ ∃ q ∈ k.hist, MadeBy x q) := by
    rintro c k h1 ⟨h2, i, h3, h4⟩
    obtain ⟨ces, hr, _⟩ := conn_run h0 hnc h1
    have hm : deref k.heap i ∈ k.heap := by
      unfold deref; rw [List.getD_eq_getElem?_getD, List.getElem?_eq_getElem h3]; exact List.getElem_mem _
    exact ⟨c, k, by rw [hk]; exact h1, Or.inr ⟨h2, _, hm, h4, heapFrom_run hr _ hm⟩⟩
  rcases hcc with ⟨c, k, h1, h2⟩ | ⟨r, k, h1, h2, h3⟩ | ⟨m, h1, h2⟩
  · exact rude c k h1 ((ht c k h1).panic h2)
  · rcases (ht _ k h2).listed r.idx h3 with h4 | ⟨d, h4⟩ | h4
    · exfalso
      have h5 := hi.tok r
      have h6 := count_reqSubs_mem h1
      have h7 : 0 < held s0.conns r := by
        rw [held_of h2]; unfold Core.tok
        have := count_pos_iff.2 (show r.idx ∈ k.core.subList from h4); omega
      unfold waiting at h5; omega
    · exfalso
      have h5 := hi.tok r
      have h6 := count_reqSubs_mem h1
      have h7 := inQueue_sum h4
      unfold waiting at h5
      have e : (⟨r.conn, r.idx⟩ : SubRef) = r := rfl
      rw [e] at h7
      omega
    · exact rude _ k h2 h4
  · obtain ⟨k, o, h3, h4, _, _, _, h5⟩ := (origin_run h0 hnc).enq m h1
    obtain ⟨f, h6, h7, h8⟩ := messages_from h4
    refine ⟨_, k, by rw [hk]; exact h3, Or.inl ⟨f, h6, h7, ?_⟩⟩
    have h9 := others_value h5 (k := Hdr.destination) (by decide)
    rw [h2, h8] at h9
    exact h9.symm

end Stomp.Server
