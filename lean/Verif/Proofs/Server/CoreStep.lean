import Verif.Proofs.Server.Core
import Verif.Model.Server.System
/-! # The steps of a connection as sequences of elementary operations -/
namespace Stomp.Server
open Stomp

theorem putFrame_putFrame (heap : List Sub) (i : Nat) (m m' : Option Msg) : putFrame (putFrame heap i m) i m' = putFrame heap i m' := by
  unfold putFrame
  induction heap generalizing i with
  | nil => simp
  | cons s h ih =>
    cases i with
    | zero => rfl
    | succ i => show s :: _ = s :: _; exact congrArg _ (ih i)

theorem mics_ack (heap0 : List Sub) (n : Nat) (l pre : List Nat) (a : Core) (hl : a.subList = pre ++ l) (hn : l.Nodup)
    (hf : ∀ i ∈ l, (deref a.heap i).frame = (deref heap0 i).frame) (hs : ∀ i ∈ l, (deref heap0 i).frame.isSome) :
    Mics a { a with subList := pre ++ (ackLoop heap0 n l).1, heap := Conn.clearFrames a.heap (ackLoop heap0 n l).2.1,
                    acked := a.acked ++ Conn.frameTags heap0 (ackLoop heap0 n l).2.1,
                    pend := a.pend ++ (ackLoop heap0 n l).2.1.map (fun i => .subscribe ⟨a.me, i⟩) } := by
  induction l generalizing pre a with
  | nil =>
    simp only [ackLoop, Conn.clearFrames, Conn.frameTags, List.foldl_nil, List.filterMap_nil, List.append_nil, List.map_nil]
    rw [List.append_nil] at hl
    rw [← hl]
    exact Mics.refl a
  | cons i l ih =>
    obtain ⟨hi, hn⟩ := List.nodup_cons.1 hn
    unfold ackLoop
    cases hk : (deref heap0 i).isAckedBy n with
    | none =>
      simp only [Conn.clearFrames, Conn.frameTags, List.foldl_nil, List.filterMap_nil, List.append_nil, List.map_nil]
      rw [← hl]
      exact Mics.refl a
    | some b =>
      cases b with
      | false =>
        dsimp only
        have := ih (pre ++ [i]) a (by rw [hl]; simp) hn (fun j hj => hf j (by simp [hj])) (fun j hj => hs j (by simp [hj]))
        rw [List.append_assoc, List.singleton_append] at this
        exact this
      | true =>
        dsimp only
        obtain ⟨m, hm⟩ := Option.isSome_iff_exists.1 (hs i (by simp))
        have hm' : (deref a.heap i).frame = some m := by rw [hf i (by simp), hm]
        refine (Mic.ack i pre l m hl hm').one.trans ?_
        have := ih pre { a with subList := pre ++ l, heap := putFrame a.heap i none, acked := a.acked ++ [m.tag], pend := a.pend ++ [.subscribe ⟨a.me, i⟩] } rfl hn (fun j hj => by
            dsimp only
            rw [deref_putFrame_ne]
            · exact hf j (by simp [hj])
            · rintro rfl; exact hi hj) (fun j hj => hs j (by simp [hj]))
        simp only [Conn.clearFrames, Conn.frameTags, List.foldl_cons, List.map_cons] at this ⊢
        rw [List.filterMap_cons_some (b := m.tag) (by rw [hm]; rfl)]
        rw [List.append_assoc, List.append_assoc] at this
        exact this

theorem mics_nack (heap0 : List Sub) (n : Nat) (l pre : List Nat) (a : Core) (hl : a.subList = pre ++ l) (hn : l.Nodup)
    (hf : ∀ i ∈ l, (deref a.heap i).frame = (deref heap0 i).frame) (hs : ∀ i ∈ l, (deref heap0 i).frame.isSome) :
    Mics a { a with subList := pre ++ (nackLoop heap0 n l).1, heap := Conn.clearFrames a.heap (nackLoop heap0 n l).2,
                    pend := a.pend ++ (nackLoop heap0 n l).2.flatMap (fun i => [.requeue (deref heap0 i).frame, .subscribe ⟨a.me, i⟩]) } := by
  induction l generalizing pre a with
  | nil =>
    simp only [nackLoop, Conn.clearFrames, List.foldl_nil, List.append_nil, List.flatMap_nil]
    rw [List.append_nil] at hl
    rw [← hl]
    exact Mics.refl a
  | cons i l ih =>
    obtain ⟨hi, hn⟩ := List.nodup_cons.1 hn
    unfold nackLoop
    dsimp only
    by_cases hk : (deref heap0 i).isNackedBy n = true
    · rw [if_pos hk]
      dsimp only
      obtain ⟨m, hm⟩ := Option.isSome_iff_exists.1 (hs i (by simp))
      have hm' : (deref a.heap i).frame = some m := by rw [hf i (by simp), hm]
      refine (Mic.nack i pre l m hl hm').one.trans ?_
      have := ih pre { a with subList := pre ++ l, heap := putFrame a.heap i none, pend := a.pend ++ [.requeue (some m), .subscribe ⟨a.me, i⟩] } rfl hn (fun j hj => by
          dsimp only
          rw [deref_putFrame_ne]
          · exact hf j (by simp [hj])
          · rintro rfl; exact hi hj) (fun j hj => hs j (by simp [hj]))
      simp only [Conn.clearFrames, List.foldl_cons, List.flatMap_cons, hm] at this ⊢
      rw [List.append_assoc] at this
      exact this
    · rw [if_neg hk]
      dsimp only
      have := ih (pre ++ [i]) a (by rw [hl]; simp) hn (fun j hj => hf j (by simp [hj])) (fun j hj => hs j (by simp [hj]))
      rw [List.append_assoc, List.singleton_append] at this
      exact this

theorem mics_release (heap0 : List Sub) (l : List Nat) (a : Core) (hl : a.subList = l)
    (hf : ∀ i, (deref a.heap i).frame = (deref heap0 i).frame) (hs : ∀ i ∈ l, (deref heap0 i).frame.isSome) :
    Mics a { a with subList := [], heap := l.foldl (fun h i => putInList h i false) a.heap,
                    pend := a.pend ++ l.map (fun i => .requeue (deref heap0 i).frame) } := by
  induction l generalizing a with
  | nil =>
    simp only [List.foldl_nil, List.append_nil, List.map_nil]
    rw [← hl]
    exact Mics.refl a
  | cons i l ih =>
    obtain ⟨m, hm⟩ := Option.isSome_iff_exists.1 (hs i (by simp))
    have hm' : (deref a.heap i).frame = some m := by rw [hf i, hm]
    refine (Mic.release i l m hl hm').one.trans ?_
    have := ih { a with subList := l, heap := putInList a.heap i false, pend := a.pend ++ [.requeue (some m)] } rfl
      (fun j => by dsimp only; rw [frame_putInList]; exact hf j) (fun j hj => hs j (by simp [hj]))
    simp only [List.foldl_cons, List.map_cons, hm] at this ⊢
    rw [List.append_assoc] at this
    exact this

theorem mics_unsub (l : List Nat) (a : Core) (hs : ∀ i ∈ l, i < a.heap.length) :
    Mics a { a with pend := a.pend ++ l.map (fun i => .unsubscribe ⟨a.me, i⟩) } := by
  induction l generalizing a with
  | nil => simp only [List.map_nil, List.append_nil]; exact Mics.refl a
  | cons i l ih =>
    refine (Mic.unsub i (hs i (by simp))).one.trans ?_
    have := ih { a with pend := a.pend ++ [.unsubscribe ⟨a.me, i⟩] } (fun j hj => hs j (by simp [hj]))
    simp only [List.map_cons] at this ⊢
    rw [List.append_assoc] at this
    exact this

theorem Loc.subList_nodup {a : Core} (h : Loc a) : a.subList.Nodup := by
  rw [List.nodup_iff_count]
  intro i
  have := h.tok i
  unfold Core.tok at this
  omega

theorem core_emit (c : Conn) (l : List Req) : (c.emit l).core = { c.core with pend := c.core.pend ++ l } := by
  unfold Conn.core Conn.emit
  simp only [pending_append, pending_map]

theorem core_panic (c : Conn) : ({ c with outbox := c.outbox ++ [.panic] } : Conn).core = c.core := by
  unfold Conn.core
  simp only [pending_append]
  simp [pending]

theorem core_pend (c : Conn) : c.core.pend = pending c.outbox := rfl

theorem Applied.mics {c : Conn} {f : Frame} {c' : Conn} {r : Res} (h : Applied c f c' r) (hl : Loc c.core) : Mics c.core c'.core := by
  cases h with
  | send hc =>
    unfold sendApply
    rw [core_emit]
    exact (Mic.send f hc).one
  | ack hc n hid =>
    have h0 : Mics c.core ({ c with effective := c.effective ++ [f] } : Conn).core := (Mic.effect f (by rw [hc]; decide)).one
    refine h0.trans ?_
    have := mics_ack c.heap n c.subList [] ({ c with effective := c.effective ++ [f] } : Conn).core rfl hl.subList_nodup (fun i _ => rfl)
      (fun i hi => hl.full i (Or.inr hi))
    unfold Conn.applyAck
    dsimp only
    rw [core_emit]
    exact this
  | nack hc n hid =>
    have h0 : Mics c.core ({ c with effective := c.effective ++ [f] } : Conn).core := (Mic.effect f (by rw [hc]; decide)).one
    refine h0.trans ?_
    have := mics_nack c.heap n c.subList [] ({ c with effective := c.effective ++ [f] } : Conn).core rfl hl.subList_nodup (fun i _ => rfl)
      (fun i hi => hl.full i (Or.inr hi))
    unfold Conn.applyNack
    dsimp only
    rw [core_emit]
    exact this

theorem Committed.mics {c : Conn} {fs : List Frame} {c' : Conn} {r : Res} (h : Committed c fs c' r) (hl : Loc c.core) :
    Mics c.core c'.core := by
  induction h with
  | nil => exact Mics.refl _
  | cons h _ ih => exact (h.mics hl).trans (ih (hl.mics (h.mics hl)))
  | panic h => exact h.mics hl

theorem Rcpt.core {c : Conn} {ok : Bool} {f : Frame} {c1 : Conn} {f1 : Frame} {k : Bool} (h : Rcpt c ok f c1 f1 k) : c1.core = c.core := by
  cases h <;> rfl

theorem Handled.mics {c : Conn} {ok : Bool} {f : Frame} {c' : Conn} {f' : Frame} {r : Res} (h : Handled c ok f c' f' r)
    (hl : Loc c.core) (hs : SubsOk c) : Mics c.core c'.core := by
  have eq : ∀ {x : Conn}, x.core = c.core → Mics c.core x.core := by intro x h; rw [h]; exact Mics.refl _
  have key : ∀ {c1 : Conn} {f1 : Frame} {k : Bool}, Rcpt c ok f c1 f1 k → Mics c.core c1.core := fun hr => eq hr.core
  have app : ∀ {c1 c2 : Conn} {f1 : Frame} {k : Bool} {r : Res}, Rcpt c ok f c1 f1 k → Applied c1 f1 c2 r → Mics c.core c2.core := by
    intro c1 c2 f1 k r hr ha
    rw [← hr.core]
    exact ha.mics (by rw [hr.core]; exact hl)
  cases h with
  | commitMissing => exact Mics.refl _
  | commitWrite _ _ _ hr => exact key hr
  | commitUnknown _ _ _ _ hr => exact key hr
  | commit _ _ _ _ _ hr hcm =>
    have := hcm.mics (by rw [hr.core]; exact hl)
    rw [hr.core] at this
    exact this
  | basic hnc hb =>
    cases hb with
    | unexpected => exact Mics.refl _
    | disconnect hc hr => exact key hr
    | refused => exact Mics.refl _
    | writeFail hc hr => exact key hr
    | txErr _ _ _ _ _ hr => exact key hr
    | begin_ _ _ _ _ hr => exact (have := key hr; this)
    | abort _ _ _ _ _ hr => exact (have := key hr; this)
    | store _ _ _ _ _ _ hr => exact (have := key hr; this)
    | subscribe hc id dest =>
      rw [core_emit]
      exact (Mic.newSub dest id _).one
    | unsubscribe hc id hi i hg =>
      rw [core_emit]
      exact (Mic.unsub i (hs.ids (id, i) (AMap.mem_of_get? hg)).1).one
    | send hc _ hr => exact app hr (Applied.send (by rw [hr.command]; exact hc))
    | ack hc _ n hid hr =>
      refine app hr (Applied.ack (by rw [hr.command]; exact hc) n ?_)
      rw [hr.frame_eq]; rw [← hid]; exact ackId_strip (by decide) (by decide)
    | nack hc _ n hid hr =>
      refine app hr (Applied.nack (by rw [hr.command]; exact hc) n ?_)
      rw [hr.frame_eq]; rw [← hid]; exact ackId_strip (by decide) (by decide)

/-- Every step of a connection's own goroutines is a sequence of elementary operations. -/
theorem mics_step {cfg : Config} {c : Conn} {e : Conn.Ev} {c' : Conn} (hg : Gate cfg c) (hl : Loc c.core) (hs : SubsOk c)
    (hi : Sys.internal e = true) (h : Step cfg c e c') : Mics c.core c'.core := by
  have full : ∀ {i l}, c.subCh = i :: l → ∃ m, (deref c.heap i).frame = some m := by
    intro i l h
    exact Option.isSome_iff_exists.1 (hl.full i (Or.inl (by show i ∈ c.subCh; rw [h]; simp)))
  cases h with
  | recv => exact Mics.refl _
  | readErr => exact Mics.refl _
  | frame ok1 ok2 f q c1 _ f' r ha hq hsf hfin =>
    rcases frame_cases hg hsf hfin with ⟨_, v, cx, cy, _, ⟨_, rfl⟩ | ⟨_, rfl⟩⟩ | ⟨_, _, e, v, ⟨_, rfl⟩ | ⟨_, rfl⟩⟩ | ⟨_, hh', hf⟩
    · rw [core_emit]; exact Mic.connected.one
    · rw [core_emit]; exact Mic.connected.one
    · exact Mics.refl _
    · exact Mics.refl _
    · have h1 : Mics c.core c1.core := hh'.mics hl ⟨hs.nodup, hs.ids⟩
      cases hf with
      | ok => exact h1
      | panic => rw [core_panic]; exact h1
      | err => exact h1
      | errFail => exact h1
  | readClosed => exact Mics.refl _
  | wrOk m w _ hw => exact (Mic.dropWrite m w hw).one
  | wrErr m w _ hw => exact (Mic.dropWrite m w hw).one
  | wrFail ok m w _ hw => exact (Mic.dropWrite m w hw).one
  | subGone ok i l _ hc =>
    obtain ⟨m, hm⟩ := full hc
    rw [core_emit, hm]
    exact (Mic.back i l m hc hm).one
  | subNil ok i l j _ hc _ hf =>
    obtain ⟨m, hm⟩ := full hc
    rw [hm] at hf; cases hf
  | subFail ok i l j m _ hc _ hm => exact (Mic.lose i l m c.lastMsgId hc hm).one
  | subAuto i l j m _ hc _ hm =>
    rw [core_emit]
    simp only [putFrame_putFrame]
    exact (Mic.auto i l m hc hm).one
  | subPanic i l j m _ hc _ hm =>
    have := (Mic.lose (a := c.core) i l m c.lastMsgId hc hm).one
    have e := core_panic { c with subCh := l, heap := putFrame c.heap i (some (m.alloc c.lastMsgId (some (deref c.heap i).ack))), lost := c.lost ++ [m.tag] }
    have e2 : ∀ (x y : Conn), x.core = y.core → Mics c.core y.core → Mics c.core x.core := by intro x y h; rw [h]; exact id
    exact e2 _ _ e this
  | subAdd i l j m _ hc _ hm => exact (Mic.hold i l m c.lastMsgId hc hm).one
  | timerOk => exact Mics.refl _
  | timerFail => exact Mics.refl _
  | discard m w _ _ hw => exact (Mic.dropWrite m w hw).one
  | discardEnd => exact Mics.refl _
  | acklist =>
    rw [core_emit]
    exact mics_release c.heap c.subList c.core rfl (fun _ => rfl) (fun i hi => hl.full i (Or.inr hi))
  | drain i l _ _ hc =>
    obtain ⟨m, hm⟩ := full hc
    rw [core_emit, hm]
    exact (Mic.back i l m hc hm).one
  | drainEnd => exact Mics.refl _
  | announce => rw [core_emit]; exact Mic.disconnected.one
  | unsub order _ _ hp =>
    rw [core_emit]
    refine mics_unsub order c.core (fun i hi => ?_)
    have := hp.mem_iff.1 hi
    obtain ⟨e, he, rfl⟩ := List.mem_map.1 this
    exact (hs.ids e he).1
  | flushed => cases hi
  | setFrame => cases hi
  | setInList => cases hi
  | pushSub => cases hi
  | pushTopic => cases hi

end Stomp.Server
