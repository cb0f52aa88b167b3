import Verif.Proofs.Server.Panics
import Verif.Props.Server.Session
/-! # Messages waiting for their acknowledgement -/
namespace Stomp.Server
open Stomp
open Stomp.Spec (firstValue)

/-- The message was written to the client with the number `n`. -/
structure Written (k : Conn) (m : Msg) (n : Nat) : Prop where
  command : m.frame.command = Cmd.message
  lt : n < 2 ^ 64
  id : firstValue m.frame.header b!"message-id" = some (fmtUint n)
  ack : firstValue m.frame.header b!"ack" = some (fmtUint n)
  out : ⟨some m.frame, some m.tag⟩ ∈ k.out

/-- Every message waiting for its acknowledgement was written to the client. -/
def PendOk (k : Conn) : Prop := ∀ i ∈ k.subList, ∀ m, (deref k.heap i).frame = some m → ∃ n, Written k m n

theorem PendOk.mono {k k' : Conn} (h : PendOk k) (ho : ∃ new, k'.out = k.out ++ new)
    (hf : ∀ i ∈ k'.subList, i ∈ k.subList ∧ ∀ m, (deref k'.heap i).frame = some m → (deref k.heap i).frame = some m) : PendOk k' := by
  intro i hi m hm
  obtain ⟨h1, h2⟩ := hf i hi
  obtain ⟨n, hw⟩ := h i h1 m (h2 m hm)
  obtain ⟨new, hn⟩ := ho
  exact ⟨n, hw.command, hw.lt, hw.id, hw.ack, by rw [hn]; exact List.mem_append_left _ hw.out⟩

/-- What processing a frame does to the pending messages. -/
def Fewer (c c' : Conn) : Prop :=
  ∀ i ∈ c'.subList, i ∈ c.subList ∧ ∀ m, (deref c'.heap i).frame = some m → (deref c.heap i).frame = some m

theorem Fewer.same {c c' : Conn} (h1 : c'.subList = c.subList) (h2 : c'.heap = c.heap) : Fewer c c' := by
  intro i hi; rw [h1] at hi; rw [h2]; exact ⟨hi, fun _ h => h⟩

theorem Fewer.trans {a b c : Conn} (h : Fewer a b) (h' : Fewer b c) : Fewer a c := by
  intro i hi
  obtain ⟨h1, h2⟩ := h' i hi
  obtain ⟨h3, h4⟩ := h i h1
  exact ⟨h3, fun m hm => h4 m (h2 m hm)⟩

theorem Applied.fewer {c : Conn} {f : Frame} {c' : Conn} {r : Res} (h : Applied c f c' r) : Fewer c c' := by
  cases h with
  | send => exact Fewer.same rfl rfl
  | ack hc n hid => exact fun i hi => ⟨(ackLoop_mem _ _ _).1 i hi, fun m hm => clearFrames_frame _ _ _ _ hm⟩
  | nack hc n hid => exact fun i hi => ⟨nackLoop_mem _ _ _ i hi, fun m hm => clearFrames_frame _ _ _ _ hm⟩

theorem Committed.fewer {c : Conn} {fs : List Frame} {c' : Conn} {r : Res} (h : Committed c fs c' r) : Fewer c c' := by
  induction h with
  | nil => exact Fewer.same rfl rfl
  | cons h _ ih => exact h.fewer.trans ih
  | panic h => exact h.fewer

theorem Rcpt.fewer {c : Conn} {ok : Bool} {f : Frame} {c1 : Conn} {f1 : Frame} {k : Bool} (h : Rcpt c ok f c1 f1 k) : Fewer c c1 := by
  cases h <;> exact Fewer.same rfl rfl

theorem Handled.fewer {c : Conn} {ok : Bool} {f : Frame} {c' : Conn} {f' : Frame} {r : Res} (h : Handled c ok f c' f' r) (hl : Loc c.core) :
    Fewer c c' := by
  cases h with
  | commitMissing => exact Fewer.same rfl rfl
  | commitWrite _ _ _ hr => exact hr.fewer
  | commitUnknown _ _ _ _ hr => exact hr.fewer
  | commit _ _ _ _ _ hr hcm => exact hr.fewer.trans hcm.fewer
  | basic hnc hb =>
    cases hb with
    | unexpected => exact Fewer.same rfl rfl
    | disconnect hc hr => exact hr.fewer
    | refused => exact Fewer.same rfl rfl
    | writeFail hc hr => exact hr.fewer
    | txErr _ _ _ _ _ hr => exact hr.fewer
    | begin_ _ _ _ _ hr => exact hr.fewer
    | abort _ _ _ _ _ hr => exact hr.fewer
    | store _ _ _ _ _ _ hr => exact hr.fewer
    | subscribe hc id dest =>
      intro i hi
      have hi : i ∈ c.subList := hi
      have hx : i < c.heap.length := hl.idx i (by
        unfold Core.tok; have := count_pos_iff.2 (show i ∈ c.core.subList from hi); omega)
      refine ⟨hi, fun m hm => ?_⟩
      have hm : (deref (c.heap ++ [_]) i).frame = some m := hm
      rw [deref_append_lt _ _ _ hx] at hm
      exact hm
    | unsubscribe => exact Fewer.same rfl rfl
    | send hc _ hr => exact hr.fewer.trans (Fewer.same rfl rfl)
    | ack hc _ n hid hr =>
      exact hr.fewer.trans (fun i hi => ⟨(ackLoop_mem _ _ _).1 i hi, fun m hm => clearFrames_frame _ _ _ _ hm⟩)
    | nack hc _ n hid hr =>
      exact hr.fewer.trans (fun i hi => ⟨nackLoop_mem _ _ _ i hi, fun m hm => clearFrames_frame _ _ _ _ hm⟩)

theorem alloc_ids (m : Msg) (n : Nat) (a : Bytes) (hm : m.frame.command = Cmd.message) (ha : a ≠ ackAuto) :
    firstValue (m.alloc n (some a)).frame.header b!"message-id" = some (fmtUint ((n + 1) % 2 ^ 64)) ∧
    firstValue (m.alloc n (some a)).frame.header b!"ack" = some (fmtUint ((n + 1) % 2 ^ 64)) := by
  unfold Msg.alloc allocFrame
  dsimp only
  rw [if_pos (Or.inl hm), if_neg ha]
  constructor
  · rw [firstValue_set, if_neg (by decide), firstValue_set, if_neg (by decide), firstValue_set, if_pos (by rfl)]
  · rw [firstValue_set, if_pos (by rfl)]

/-- The steps of a connection keep this. -/
theorem pend_step {cfg : Config} {c : Conn} {e : Conn.Ev} {c' : Conn} (hg : Gate cfg c) (hl : Loc c.core)
    (hm : ∀ i m, (deref c.heap i).frame = some m → m.frame.command = Cmd.message) (hi : Sys.internal e = true) (h : Step cfg c e c') (hp : PendOk c) :
    PendOk c' := by
  obtain ⟨new, hout, -⟩ := out_tagged hg h
  have ho : ∃ new, c'.out = c.out ++ new := ⟨new, hout⟩
  have same : c'.subList = c.subList → c'.heap = c.heap → PendOk c' := fun h1 h2 => hp.mono ho (Fewer.same h1 h2)
  have notin : ∀ {i l}, c.subCh = i :: l → i ∉ c.subList := by
    intro i l h hm
    have h1 : 0 < c.core.subCh.count i := count_pos_iff.2 (by show i ∈ c.subCh; rw [h]; simp)
    have h2 : 0 < c.core.subList.count i := count_pos_iff.2 hm
    have := hl.tok i
    unfold Core.tok at this; omega
  have put : ∀ {i : Nat} {l : List Nat} {heap : List Sub} {x : Option Msg}, c.subCh = i :: l → (∀ j ∈ c.subList, ∀ m, (deref heap j).frame = some m → (deref c.heap j).frame = some m) →
      ∀ j ∈ c.subList, ∀ m, (deref (putFrame heap i x) j).frame = some m → (deref c.heap j).frame = some m := by
    intro i l heap x hc hh j hj m hm
    rw [deref_putFrame, if_neg (by rintro ⟨rfl, _⟩; exact notin hc hj)] at hm
    exact hh j hj m hm
  cases h with
  | recv => exact same rfl rfl
  | readErr => exact same rfl rfl
  | frame ok1 ok2 f q c1 _ f' r ha hq hsf hfin =>
    rcases frame_cases hg hsf hfin with ⟨_, v, cx, cy, _, ⟨_, rfl⟩ | ⟨_, rfl⟩⟩ | ⟨_, _, e, v, ⟨_, rfl⟩ | ⟨_, rfl⟩⟩ | ⟨_, hh', hf⟩
    · exact same rfl rfl
    · exact same rfl rfl
    · exact same rfl rfl
    · exact same rfl rfl
    · refine hp.mono ho ?_
      have h1 : Fewer c c1 := Fewer.trans (b := { c with inq := q, hist := c.hist ++ [f] }) (Fewer.same rfl rfl) (hh'.fewer hl)
      cases hf with
      | ok => exact h1
      | panic => exact h1.trans (Fewer.same rfl rfl)
      | err => exact h1.trans (Fewer.same rfl rfl)
      | errFail => exact h1.trans (Fewer.same rfl rfl)
  | readClosed => exact same rfl rfl
  | wrOk => exact same rfl rfl
  | wrErr => exact same rfl rfl
  | wrFail => exact same rfl rfl
  | subGone => exact same rfl rfl
  | subNil => exact same rfl rfl
  | subFail ok i l j m ha hc => exact hp.mono ho (fun j hj => ⟨hj, put hc (fun _ _ _ h => h) j hj⟩)
  | subAuto i l j m ha hc => exact hp.mono ho (fun j hj => ⟨hj, put hc (put hc (fun _ _ _ h => h)) j hj⟩)
  | subPanic i l j m ha hc => exact hp.mono ho (fun j hj => ⟨hj, put hc (fun _ _ _ h => h) j hj⟩)
  | subAdd i l j m ha hc hg' hf hw hk hin =>
    intro n hn mm hmm
    have hn : n ∈ c.subList ++ [i] := hn
    have hmm : (deref (putInList (putFrame c.heap i (some (m.alloc c.lastMsgId (some (deref c.heap i).ack)))) i true) n).frame = some mm := hmm
    rw [frame_putInList] at hmm
    by_cases hni : n = i
    · subst hni
      rw [deref_putFrame, if_pos ⟨rfl, lt_of_frame hf⟩] at hmm
      injection hmm with hmm; subst hmm
      have hcm := hm n m hf
      obtain ⟨h1, h2⟩ := alloc_ids m c.lastMsgId _ hcm hk
      exact ⟨(c.lastMsgId + 1) % 2 ^ 64, (allocFrame_command _ _ _).trans hcm, Nat.mod_lt _ (by decide), h1, h2, by
        show _ ∈ c.out ++ [_]; exact List.mem_append_right _ (List.mem_singleton.2 rfl)⟩
    · rcases List.mem_append.1 hn with hn | hn
      · obtain ⟨v, hw⟩ := hp n hn mm (put hc (fun _ _ _ h => h) n hn mm hmm)
        exact ⟨v, hw.command, hw.lt, hw.id, hw.ack, by show _ ∈ c.out ++ [_]; exact List.mem_append_left _ hw.out⟩
      · exact absurd (List.mem_singleton.1 hn) hni
  | timerOk => exact same rfl rfl
  | timerFail => exact same rfl rfl
  | discard => exact same rfl rfl
  | discardEnd => exact same rfl rfl
  | acklist => intro i hi; cases hi
  | drain => exact same rfl rfl
  | drainEnd => exact same rfl rfl
  | announce => exact same rfl rfl
  | unsub => exact same rfl rfl
  | flushed => cases hi
  | setFrame => cases hi
  | setInList => cases hi
  | pushSub => cases hi
  | pushTopic => cases hi

theorem pendSys_step {cfg : Config} {s s' : Sys} {e : Sys.Ev} (hi : SInv cfg s) (ha : s.All (fun m => m.frame.command = Cmd.message))
    (hp : ∀ (c : Nat) (k : Conn), s.conns[c]? = some k → PendOk k) (hs : SysStep cfg s e s') :
    ∀ (c : Nat) (k : Conn), s'.conns[c]? = some k → PendOk k := by
  have one : ∀ {s' : Sys} {j : Nat} {k1 k2 : Conn}, s.conns[j]? = some k1 → s'.conns = s.conns.set j k2 → PendOk k2 →
      ∀ (c : Nat) (k : Conn), s'.conns[c]? = some k → PendOk k := by
    intro s' j k1 k2 h1 h2 h4 c k hk
    rw [h2, get_set h1] at hk
    split at hk
    · injection hk with hk; subst hk; exact h4
    · exact hp c k hk
  have free : ∀ {r : SubRef} {k : Conn}, s.conns[r.conn]? = some k → (deref k.heap r.idx).frame = none → r.idx ∉ k.subList := by
    intro r k hk hf hm
    have := (hi.loc _ k hk).full r.idx (Or.inr hm)
    rw [show (deref k.core.heap r.idx).frame = (deref k.heap r.idx).frame from rfl, hf] at this; cases this
  cases hs with
  | accept =>
    intro c k hk
    have hk : (s.conns ++ [Conn.init s.conns.length])[c]? = some k := hk
    rw [List.getElem?_append] at hk
    split at hk
    · exact hp c k hk
    · have hm := List.mem_of_getElem? hk
      rw [List.mem_singleton] at hm; subst hm
      intro i hi; cases hi
  | conn c e k k' hk hint hs =>
    obtain ⟨ces, hr⟩ := hi.run c k hk
    exact one hk rfl (pend_step (gate_run cfg c ces k hr) (hi.loc c k hk) (fun i m hm => (ha.core c k hk).heap i m hm) hint (step_of _ _ _ _ hs) (hp c k hk))
  | flush c k r o hk ho => exact one hk rfl ((hp c k hk).mono ⟨[], by simp⟩ (Fewer.same rfl rfl))
  | skip => exact hp
  | joinTopic => exact hp
  | wait r rs k dest ht hr hk hidx hd hq he hl =>
    exact one hk rfl ((hp _ k hk).mono ⟨[], by simp⟩ (fun j hj => ⟨hj, fun m hm => by rw [frame_putInList] at hm; exact hm⟩))
  | take r rs k dest m l ht hr hk hidx hd hq hm hf =>
    refine one hk rfl ((hp _ k hk).mono ⟨[], by simp⟩ (fun j hj => ⟨hj, fun m hm => ?_⟩))
    rw [deref_putFrame, if_neg (by rintro ⟨h, _⟩; exact free hk (by simpa using hf) (by rw [h]; exact hj))] at hm
    exact hm
  | leaveQueue r rs k dest ht hr hk hidx hd hq hm =>
    exact one hk rfl ((hp _ k hk).mono ⟨[], by simp⟩ (fun j hj => ⟨hj, fun m hm => by rw [frame_putInList] at hm; exact hm⟩))
  | absent => exact hp
  | leaveTopic => exact hp
  | store => exact hp
  | give front m rs dest r q k ht hr hd hq he hk hidx hf =>
    refine one hk rfl ((hp _ k hk).mono ⟨[], by simp⟩ (fun j hj => ⟨hj, fun m hm => ?_⟩))
    dsimp only at hm
    rw [deref_putFrame, if_neg (by rintro ⟨h, _⟩; exact free hk (by simpa using hf) (by rw [h]; exact hj)), frame_putInList] at hm
    exact hm
  | cast => exact hp
  | drop => exact hp
  | pushQueue r t k ht hk => exact one hk rfl ((hp _ k hk).mono ⟨[], by simp⟩ (Fewer.same rfl rfl))
  | pushTopic dest r m t k ht hk => exact one hk rfl ((hp _ k hk).mono ⟨[], by simp⟩ (Fewer.same rfl rfl))

theorem pend_run {cfg : Config} {es : List Sys.Ev} {s : Sys} (h : Sys.init.run cfg es = some s) (hc : s.crashed = false) {c : Nat} {k : Conn}
    (hk : s.conns[c]? = some k) : PendOk k := by
  refine (sys_induction (cfg := cfg) (P := fun s => s.All (Origin s.conns) ∧ ∀ (c : Nat) (k : Conn), s.conns[c]? = some k → PendOk k)
    ⟨Sys.All.init _, by intro c k hk; simp [Sys.init] at hk⟩
    (fun s e s' hi hp hs => ⟨origin_step hi hp.1 hs, pendSys_step hi (hp.1.mono (fun m h => h.command)) hp.2 hs⟩) es s h hc).2.2 c k hk

/-! ## The effect of an ACK -/

theorem ackLoop_zero {heap : List Sub} (h0 : ∀ i, (deref heap i).msgId = 0) (n : Nat) (l : List Nat)
    (hm : ∀ i ∈ l, (deref heap i).ack = ackClient ∨ (deref heap i).ack = ackClientIndividual) :
    ackLoop heap n l = (l.filter (fun i => decide ((deref heap i).ack = ackClientIndividual ∧ n ≠ 0)),
      l.filter (fun i => decide (¬((deref heap i).ack = ackClientIndividual ∧ n ≠ 0))), false) := by
  induction l with
  | nil => rfl
  | cons i l ih =>
    have ih := ih (fun j hj => hm j (List.mem_cons_of_mem _ hj))
    have hi := hm i (by simp)
    unfold ackLoop
    rw [ih]
    have key : (deref heap i).isAckedBy n = some (decide (¬((deref heap i).ack = ackClientIndividual ∧ n ≠ 0))) := by
      unfold Sub.isAckedBy
      rw [h0 i]
      rcases hi with hi | hi
      · rw [hi, if_neg (by decide), if_pos rfl]
        have : ackClient ≠ ackClientIndividual := by decide
        simp [this]
      · rw [hi, if_neg (by decide), if_neg (by decide), if_pos rfl]
        simp
    rw [key]
    by_cases hx : (deref heap i).ack = ackClientIndividual ∧ n ≠ 0
    · simp [hx]
    · simp only [List.filter_cons, decide_eq_true hx]
      simp [hx]

theorem nackLoop_zero {heap : List Sub} (h0 : ∀ i, (deref heap i).msgId = 0) (n : Nat) (l : List Nat) :
    nackLoop heap n l = if n = 0 then ([], l) else (l, []) := by
  induction l with
  | nil => unfold nackLoop; split <;> rfl
  | cons i l ih =>
    unfold nackLoop
    rw [ih]
    unfold Sub.isNackedBy
    rw [h0 i]
    by_cases hn : n = 0
    · simp [hn]
    · simp [hn]

theorem clearFrames_ne {heap : List Sub} {l : List Nat} {i : Nat} (h : i ∉ l) : deref (Conn.clearFrames heap l) i = deref heap i := by
  unfold Conn.clearFrames
  induction l generalizing heap with
  | nil => rfl
  | cons j l ih =>
    rw [List.mem_cons, not_or] at h
    refine (ih h.2).trans ?_
    show deref (putFrame heap j none) i = deref heap i
    rw [deref_putFrame, if_neg (fun h' => h.1 h'.1.symm)]

/-- Processing an ACK outside a transaction. -/
theorem ack_step {cfg : Config} {k k' : Conn} {ok1 ok2 : Bool} {f : Frame} {q : List Frame} {n : Nat} (hg : Gate cfg k)
    (hs : k.step cfg (.frame ok1 ok2) = some k') (hq : k.inq = f :: q) (hc : k.connected = true) (hf : f.command = Cmd.ack)
    (ht : firstValue f.header Hdr.transaction = none) (hr : firstValue f.header Hdr.receipt = none ∨ ok1 = true ∧ k.wfail = false)
    (hid : Conn.ackId f = .ok n) :
    k'.subList = (ackLoop k.heap n k.subList).1 ∧ k'.heap = Conn.clearFrames k.heap (ackLoop k.heap n k.subList).2.1 ∧
    k'.acked = k.acked ++ Conn.frameTags k.heap (ackLoop k.heap n k.subList).2.1 ∧ k'.stage = .run := by
  obtain ⟨hst, hob, c1, f', r, hh, hfin⟩ := frame_step hg hs hq hc
  have fld : ∀ {cx : Conn} {f1 : Frame}, Rcpt { k with inq := q, hist := k.hist ++ [f] } ok1 f cx f1 true →
      c1 = (({ cx with effective := cx.effective ++ [f1] } : Conn).applyAck n).1 → r = (({ cx with effective := cx.effective ++ [f1] } : Conn).applyAck n).2 →
      k'.subList = (ackLoop k.heap n k.subList).1 ∧ k'.heap = Conn.clearFrames k.heap (ackLoop k.heap n k.subList).2.1 ∧
    k'.acked = k.acked ++ Conn.frameTags k.heap (ackLoop k.heap n k.subList).2.1 ∧ k'.stage = .run := by
    intro cx f1 hrc h1 h2
    have h0 := hrc.frame
    have eh : cx.heap = k.heap := h0.2.2.2.1
    have es : cx.subList = k.subList := h0.2.2.2.2.1
    have ea : cx.acked = k.acked := h0.2.2.2.2.2.2.2.1
    have eg : cx.stage = k.stage := h0.2.2.2.2.2.2.2.2.2.2
    have : c1.subList = (ackLoop k.heap n k.subList).1 ∧ c1.heap = Conn.clearFrames k.heap (ackLoop k.heap n k.subList).2.1 ∧
        c1.acked = k.acked ++ Conn.frameTags k.heap (ackLoop k.heap n k.subList).2.1 ∧ c1.stage = .run := by
      rw [h1, ← eh, ← es, ← ea]
      exact ⟨rfl, rfl, rfl, eg.trans hst⟩
    have hr : r = .ok ∨ r = .panic := by
      rw [h2]; unfold Conn.applyAck; dsimp only; split
      · exact Or.inr rfl
      · exact Or.inl rfl
    cases hfin with
    | ok => exact this
    | panic => exact this
    | err => rcases hr with h | h <;> cases h
    | errFail => rcases hr with h | h <;> cases h
  cases hh with
  | commitMissing h => rw [hf] at h; exact absurd h (by decide)
  | commitWrite h => rw [hf] at h; exact absurd h (by decide)
  | commitUnknown h => rw [hf] at h; exact absurd h (by decide)
  | commit h => rw [hf] at h; exact absurd h (by decide)
  | basic hnc hb =>
    cases hb with
    | unexpected e he h => exact absurd (by rw [hf]; decide) h
    | disconnect h => rw [hf] at h; exact absurd h (by decide)
    | refused e h _ _ _ _ hack =>
      have := hack (Or.inl hf); rw [hid] at this; cases this
    | writeFail h hrc =>
      cases hrc with
      | failed r h1 h2 =>
        exfalso
        rw [contains_eq] at h1
        rcases hr with h3 | ⟨h3, h4⟩
        · rw [h3] at h1; cases h1
        · rcases h2 with h2 | h2
          · rw [h3] at h2; cases h2
          · have h2 : k.wfail = true := h2
            rw [h4] at h2; cases h2
    | txErr e t h => rw [contains_eq, ht] at h; cases h
    | begin_ t h => rw [contains_eq, ht] at h; cases h
    | abort t h => rw [contains_eq, ht] at h; cases h
    | store t h => rw [contains_eq, ht] at h; cases h
    | subscribe h => rw [hf] at h; exact absurd h (by decide)
    | unsubscribe h => rw [hf] at h; exact absurd h (by decide)
    | send h => rw [hf] at h; exact absurd h (by decide)
    | ack h _ n' hid' hrc => rw [hid] at hid'; injection hid' with hid'; subst hid'; exact fld hrc rfl rfl
    | nack h => rw [hf] at h; exact absurd h (by decide)

/-- Processing a NACK outside a transaction. -/
theorem nack_step {cfg : Config} {k k' : Conn} {ok1 ok2 : Bool} {f : Frame} {q : List Frame} {n : Nat} (hg : Gate cfg k)
    (hs : k.step cfg (.frame ok1 ok2) = some k') (hq : k.inq = f :: q) (hc : k.connected = true) (hf : f.command = Cmd.nack)
    (ht : firstValue f.header Hdr.transaction = none) (hr : firstValue f.header Hdr.receipt = none ∨ ok1 = true ∧ k.wfail = false)
    (hid : Conn.ackId f = .ok n) :
    k'.subList = (nackLoop k.heap n k.subList).1 ∧ k'.heap = Conn.clearFrames k.heap (nackLoop k.heap n k.subList).2 ∧ k'.stage = .run := by
  obtain ⟨hst, hob, c1, f', r, hh, hfin⟩ := frame_step hg hs hq hc
  have fld : ∀ {cx : Conn} {f1 : Frame}, Rcpt { k with inq := q, hist := k.hist ++ [f] } ok1 f cx f1 true →
      c1 = (({ cx with effective := cx.effective ++ [f1] } : Conn).applyNack n) → r = .ok →
      k'.subList = (nackLoop k.heap n k.subList).1 ∧ k'.heap = Conn.clearFrames k.heap (nackLoop k.heap n k.subList).2 ∧ k'.stage = .run := by
    intro cx f1 hrc h1 h2
    have h0 := hrc.frame
    have eh : cx.heap = k.heap := h0.2.2.2.1
    have es : cx.subList = k.subList := h0.2.2.2.2.1
    have eg : cx.stage = k.stage := h0.2.2.2.2.2.2.2.2.2.2
    have : c1.subList = (nackLoop k.heap n k.subList).1 ∧ c1.heap = Conn.clearFrames k.heap (nackLoop k.heap n k.subList).2 ∧ c1.stage = .run := by
      rw [h1, ← eh, ← es]
      exact ⟨rfl, rfl, eg.trans hst⟩
    cases hfin with
    | ok => exact this
    | panic => exact this
    | err => cases h2
    | errFail => cases h2
  cases hh with
  | commitMissing h => rw [hf] at h; exact absurd h (by decide)
  | commitWrite h => rw [hf] at h; exact absurd h (by decide)
  | commitUnknown h => rw [hf] at h; exact absurd h (by decide)
  | commit h => rw [hf] at h; exact absurd h (by decide)
  | basic hnc hb =>
    cases hb with
    | unexpected e he h => exact absurd (by rw [hf]; decide) h
    | disconnect h => rw [hf] at h; exact absurd h (by decide)
    | refused e h _ _ _ _ hack =>
      have := hack (Or.inr hf); rw [hid] at this; cases this
    | writeFail h hrc =>
      cases hrc with
      | failed r h1 h2 =>
        exfalso
        rw [contains_eq] at h1
        rcases hr with h3 | ⟨h3, h4⟩
        · rw [h3] at h1; cases h1
        · rcases h2 with h2 | h2
          · rw [h3] at h2; cases h2
          · have h2 : k.wfail = true := h2
            rw [h4] at h2; cases h2
    | txErr e t h => rw [contains_eq, ht] at h; cases h
    | begin_ t h => rw [contains_eq, ht] at h; cases h
    | abort t h => rw [contains_eq, ht] at h; cases h
    | store t h => rw [contains_eq, ht] at h; cases h
    | subscribe h => rw [hf] at h; exact absurd h (by decide)
    | unsubscribe h => rw [hf] at h; exact absurd h (by decide)
    | send h => rw [hf] at h; exact absurd h (by decide)
    | ack h => rw [hf] at h; exact absurd h (by decide)
    | nack h _ n' hid' hrc => rw [hid] at hid'; injection hid' with hid'; subst hid'; exact fld hrc rfl rfl

end Stomp.Server
