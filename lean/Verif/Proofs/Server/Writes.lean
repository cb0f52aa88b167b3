import Verif.Proofs.Server.Origin
/-! # What has been written about the messages -/
namespace Stomp.Server
open Stomp
open Stomp.Spec (firstValue)

/-! ## Tagged writes -/

/-- A tagged write comes from the channels of the connection. -/
theorem out_tagged {cfg : Config} {c : Conn} {e : Conn.Ev} {c' : Conn} (hg : Gate cfg c) (h : Step cfg c e c') :
    ∃ new, c'.out = c.out ++ new ∧ ∀ w ∈ new, ∀ t, w.tag = some t → ∃ m n, m.tag = t ∧
      ((m ∈ c.writeCh ∧ w = ⟨some (m.alloc n none).frame, some t⟩) ∨
       ∃ i, i ∈ c.subCh ∧ (deref c.heap i).frame = some m ∧ w = ⟨some (m.alloc n (some (deref c.heap i).ack)).frame, some t⟩) := by
  have z : c.out = c.out ++ [] := (List.append_nil _).symm
  have zz : ∀ w ∈ ([] : List Wr), ∀ t, w.tag = some t → ∃ m n, m.tag = t ∧
      ((m ∈ c.writeCh ∧ w = ⟨some (m.alloc n none).frame, some t⟩) ∨
       ∃ i, i ∈ c.subCh ∧ (deref c.heap i).frame = some m ∧ w = ⟨some (m.alloc n (some (deref c.heap i).ack)).frame, some t⟩) := by simp
  cases h with
  | frame ok1 ok2 f q c1 _ f' r ha hq hsf hfin =>
    have none_ : ∀ g : Option Frame, ∀ w ∈ ([⟨g, none⟩] : List Wr), ∀ t, w.tag = some t → ∃ m n, m.tag = t ∧
      ((m ∈ c.writeCh ∧ w = ⟨some (m.alloc n none).frame, some t⟩) ∨
       ∃ i, i ∈ c.subCh ∧ (deref c.heap i).frame = some m ∧ w = ⟨some (m.alloc n (some (deref c.heap i).ack)).frame, some t⟩) := by
      intro g w hw t ht
      rw [List.mem_singleton] at hw; subst hw; cases ht
    rcases frame_cases hg hsf hfin with ⟨_, v, cx, cy, _, ⟨_, rfl⟩ | ⟨_, rfl⟩⟩ | ⟨_, _, e, v, ⟨_, rfl⟩ | ⟨_, rfl⟩⟩ | ⟨_, hh, hf⟩
    · exact ⟨_, rfl, none_ _⟩
    · exact ⟨[], z, zz⟩
    · exact ⟨_, rfl, none_ _⟩
    · exact ⟨[], z, zz⟩
    · have h1 : ∃ new, c1.out = c.out ++ new ∧ ∀ w ∈ new, w.tag = none := by
        rcases hh.out with ⟨h, _⟩ | ⟨v, _, h, _⟩ | ⟨h, _⟩
        · exact ⟨[], by simp [h], by simp⟩
        · exact ⟨_, h, by simp⟩
        · exact ⟨[], by simp [h], by simp⟩
      obtain ⟨new, h1, h2⟩ := h1
      have h3 : ∃ new, c'.out = c.out ++ new ∧ ∀ w ∈ new, w.tag = none := by
        cases hf with
        | ok => exact ⟨new, h1, h2⟩
        | panic => exact ⟨new, h1, h2⟩
        | err e =>
          refine ⟨new ++ [⟨some (errorFrame cfg e f'), none⟩], ?_, ?_⟩
          · show c1.out ++ _ = _; rw [h1, List.append_assoc]
          · intro w hw
            rcases List.mem_append.1 hw with hw | hw
            · exact h2 w hw
            · rw [List.mem_singleton] at hw; subst hw; rfl
        | errFail e => exact ⟨new, h1, h2⟩
      obtain ⟨new, h3, h4⟩ := h3
      exact ⟨new, h3, fun w hw t ht => by rw [h4 w hw] at ht; cases ht⟩
  | wrOk m w ha hw hwf hc =>
    refine ⟨_, rfl, ?_⟩
    intro x hx t ht
    rw [List.mem_singleton] at hx; subst hx
    injection ht with ht
    exact ⟨m, _, ht, Or.inl ⟨by rw [hw]; simp, by rw [ht]⟩⟩
  | wrErr m w ha hw hwf hc =>
    refine ⟨_, rfl, ?_⟩
    intro x hx t ht
    rw [List.mem_singleton] at hx; subst hx
    injection ht with ht
    exact ⟨m, _, ht, Or.inl ⟨by rw [hw]; simp, by rw [ht]⟩⟩
  | subAuto i l j m ha hl hg' hf hw hk =>
    refine ⟨_, rfl, ?_⟩
    intro x hx t ht
    rw [List.mem_singleton] at hx; subst hx
    injection ht with ht
    exact ⟨m, _, ht, Or.inr ⟨i, by rw [hl]; simp, hf, by rw [ht]⟩⟩
  | subPanic i l j m ha hl hg' hf hw hk hi =>
    refine ⟨_, rfl, ?_⟩
    intro x hx t ht
    rw [List.mem_singleton] at hx; subst hx
    injection ht with ht
    exact ⟨m, _, ht, Or.inr ⟨i, by rw [hl]; simp, hf, by rw [ht]⟩⟩
  | subAdd i l j m ha hl hg' hf hw hk hi =>
    refine ⟨_, rfl, ?_⟩
    intro x hx t ht
    rw [List.mem_singleton] at hx; subst hx
    injection ht with ht
    exact ⟨m, _, ht, Or.inr ⟨i, by rw [hl]; simp, hf, by rw [ht]⟩⟩
  | timerOk =>
    refine ⟨_, rfl, ?_⟩
    intro x hx t ht
    rw [List.mem_singleton] at hx; subst hx; cases ht
  | recv => exact ⟨[], z, zz⟩
  | readErr => exact ⟨[], z, zz⟩
  | readClosed => exact ⟨[], z, zz⟩
  | wrFail => exact ⟨[], z, zz⟩
  | subGone => exact ⟨[], z, zz⟩
  | subNil => exact ⟨[], z, zz⟩
  | subFail => exact ⟨[], z, zz⟩
  | timerFail => exact ⟨[], z, zz⟩
  | discard => exact ⟨[], z, zz⟩
  | discardEnd => exact ⟨[], z, zz⟩
  | acklist => exact ⟨[], z, zz⟩
  | drain => exact ⟨[], z, zz⟩
  | drainEnd => exact ⟨[], z, zz⟩
  | announce => exact ⟨[], z, zz⟩
  | unsub => exact ⟨[], z, zz⟩
  | flushed => exact ⟨[], z, zz⟩
  | setFrame => exact ⟨[], z, zz⟩
  | setInList => exact ⟨[], z, zz⟩
  | pushSub => exact ⟨[], z, zz⟩
  | pushTopic => exact ⟨[], z, zz⟩

/-- The headers the server puts on a message. -/
theorem alloc_values (m : Msg) (n : Nat) (a : Option Bytes) (hm : m.frame.command = Cmd.message) :
    firstValue (m.alloc n a).frame.header b!"message-id" = some (fmtUint ((n + 1) % 2 ^ 64)) ∧
    firstValue (m.alloc n a).frame.header b!"ack" = (if a = none ∨ a = some ackAuto then none else some (fmtUint ((n + 1) % 2 ^ 64))) := by
  unfold Msg.alloc allocFrame
  dsimp only
  rw [if_pos (Or.inl hm)]
  dsimp only
  have h1 : firstValue ((m.frame.header.set Hdr.messageId (fmtUint ((n + 1) % 2 ^ 64))).set Hdr.id (fmtUint ((n + 1) % 2 ^ 64))) b!"message-id" =
      some (fmtUint ((n + 1) % 2 ^ 64)) := by
    rw [firstValue_set, if_neg (by decide), firstValue_set, if_pos (by rfl)]
  cases a with
  | none =>
    dsimp only
    exact ⟨by rw [firstValue_del, if_neg (by decide), h1], by rw [if_pos (Or.inl rfl), firstValue_del, if_pos (by rfl)]⟩
  | some a =>
    dsimp only
    split
    · rename_i ha
      exact ⟨by rw [firstValue_del, if_neg (by decide), h1], by rw [if_pos (Or.inr (by rw [ha])), firstValue_del, if_pos (by rfl)]⟩
    · rename_i ha
      exact ⟨by rw [firstValue_set, if_neg (by decide), h1], by rw [if_neg (by simp [ha]), firstValue_set, if_pos (by rfl)]⟩

/-- The MESSAGE frame is addressed to the subscription. -/
def ForSub (x : Sub) (f : Frame) : Prop :=
  firstValue f.header b!"subscription" = some x.id ∧ firstValue f.header b!"destination" = some x.dest ∧
  ∃ v, firstValue f.header b!"message-id" = some v ∧
    firstValue f.header b!"ack" = if isQueueDestination x.dest = true ∧ x.ack ≠ ackAuto then some v else none

/-- Everything written about a message is a copy of it, addressed to a subscription of the connection. -/
def WrittenOk (s : Sys) : Prop := ∀ (c : Nat) (k : Conn), s.conns[c]? = some k → ∀ w ∈ k.out, ∀ t, w.tag = some t →
  ∃ f, w.frame = some f ∧ Origin s.conns ⟨t, f⟩ ∧ ∃ i, i < k.heap.length ∧ ForSub (deref k.heap i).fixed f

theorem messages_command {me i : Nat} {fs : List Frame} {a : Msg} (ha : a ∈ Spec.messages me i fs) : a.frame.command = b!"MESSAGE" := by
  induction fs generalizing i with
  | nil => cases ha
  | cons f fs ih =>
    simp only [Spec.messages] at ha
    split at ha
    · rcases List.mem_cons.1 ha with rfl | ha
      · rfl
      · exact ih ha
    · exact ih ha

theorem Origin.command {conns : List Conn} {m : Msg} (h : Origin conns m) : m.frame.command = Cmd.message := by
  obtain ⟨k, o, _, h2, _, h4, _⟩ := h
  exact h4.trans (messages_command h2)

theorem written_step {cfg : Config} {s s' : Sys} {e : Sys.Ev} (hi : SInv cfg s) (ha : Addr s) (ho : s.All (Origin s.conns)) (h : WrittenOk s)
    (hs : SysStep cfg s e s') : WrittenOk s' := by
  intro c k' hk' w hw t ht
  rcases conns_evol hs hk' with ⟨_, rfl⟩ | ⟨k, hk, ⟨e, he, hst⟩ | hO⟩
  · simp [Conn.init] at hw
  · have hm := mics_conn hi hk he hst
    have old : w ∈ k.out → ∃ f, w.frame = some f ∧ Origin s'.conns ⟨t, f⟩ ∧ ∃ i, i < k'.heap.length ∧ ForSub (deref k'.heap i).fixed f := by
      intro hw
      obtain ⟨f, h1, h2, i, h3, h4⟩ := h c k hk w hw t ht
      exact ⟨f, h1, h2.step hi hs, i, Nat.lt_of_lt_of_le h3 hm.evol.len, by rw [show (deref k'.heap i).fixed = (deref k.heap i).fixed from hm.evol.fixed i h3]; exact h4⟩
    have fresh : ∀ f i, w.frame = some f → Origin s.conns ⟨t, f⟩ → i < k.heap.length → ForSub (deref k.heap i).fixed f →
        ∃ f, w.frame = some f ∧ Origin s'.conns ⟨t, f⟩ ∧ ∃ i, i < k'.heap.length ∧ ForSub (deref k'.heap i).fixed f := by
      intro f i h1 h2 h3 h4
      exact ⟨f, h1, h2.step hi hs, i, Nat.lt_of_lt_of_le h3 hm.evol.len, by rw [show (deref k'.heap i).fixed = (deref k.heap i).fixed from hm.evol.fixed i h3]; exact h4⟩
    obtain ⟨ces, hce⟩ := hi.run c k hk
    obtain ⟨new, h1, h2⟩ := out_tagged (gate_run cfg c ces k hce) (step_of _ _ _ _ hst)
    rw [h1] at hw
    rcases List.mem_append.1 hw with hw | hw
    · exact old hw
    · obtain ⟨m, n, h3, ⟨h4, h5⟩ | ⟨i, h4, h5, h6⟩⟩ := h2 w hw t ht
      · subst h5 h3
        have hom := (ho.core c k hk).wr m h4
        obtain ⟨i, h6, h7⟩ := ha.wr c k hk m h4
        have hv := alloc_values m n none hom.command
        refine fresh _ i rfl (hom.alloc n none) h6 ⟨?_, ?_, _, hv.1, ?_⟩
        · exact (firstValue_alloc m n none _ (by decide) (by decide) (by decide)).trans h7.1
        · exact (firstValue_alloc m n none _ (by decide) (by decide) (by decide)).trans h7.2.1
        · rw [hv.2, if_pos (Or.inl rfl), if_neg (by intro h; have := h7.2.2; rw [show (deref k.heap i).fixed.dest = (deref k.heap i).dest from rfl, this] at h; cases h.1)]
      · subst h6 h3
        have hom := (ho.core c k hk).heap i m h5
        have h7 := (ha.core c k hk).heap i m h5
        have hi' : i < k.heap.length := (hi.loc c k hk).idx i (by unfold Core.tok; have := count_pos_iff.2 h4; show 0 < k.subCh.count i + _ + _; omega)
        have hv := alloc_values m n (some (deref k.heap i).ack) hom.command
        refine fresh _ i rfl (hom.alloc n _) hi' ⟨?_, ?_, _, hv.1, ?_⟩
        · exact (firstValue_alloc m n _ _ (by decide) (by decide) (by decide)).trans h7.1
        · exact (firstValue_alloc m n _ _ (by decide) (by decide) (by decide)).trans h7.2.1
        · rw [hv.2]
          have h8 : isQueueDestination (deref k.heap i).fixed.dest = true := h7.2.2
          by_cases hk : (deref k.heap i).ack = ackAuto
          · rw [if_pos (Or.inr (by rw [hk])), if_neg (fun h => h.2 hk)]
          · rw [if_neg (by simp [hk]), if_pos ⟨h8, hk⟩]
  · rw [hO.out] at hw
    obtain ⟨f, h1, h2, i, h3, h4⟩ := h c k hk w hw t ht
    exact ⟨f, h1, h2.step hi hs, i, by rw [hO.len]; exact h3, by rw [hO.fixed i]; exact h4⟩

theorem written_run {cfg : Config} {es : List Sys.Ev} {s : Sys} (h : Sys.init.run cfg es = some s) (hc : s.crashed = false) : WrittenOk s :=
  (sys_induction (P := fun s => Addr s ∧ s.All (Origin s.conns) ∧ WrittenOk s) ⟨Addr.init, Sys.All.init _, by simp [WrittenOk, Sys.init]⟩
    (fun _ _ _ hi hp hs => ⟨addr_step hi hp.1 hs, origin_step hi hp.2.1 hs, written_step hi hp.1 hp.2.1 hp.2.2 hs⟩) es s h hc).2.2.2

/-! ## Frames that took effect were received -/

/-- Frames that took effect, and frames held in transactions, are received frames without receipt and transaction headers. -/
structure HistOk (c : Conn) : Prop where
  effective : ∀ g ∈ c.effective, ∃ f ∈ c.hist, g = Spec.clean f
  tx : ∀ t l, c.tx.get? t = some l → ∀ g ∈ l, ∃ f ∈ c.hist, g = Spec.clean f

theorem HistOk.mono {c c' : Conn} (h : HistOk c) (he : ∀ g ∈ c'.effective, g ∈ c.effective ∨ ∃ f ∈ c'.hist, g = Spec.clean f)
    (ht : ∀ t l, c'.tx.get? t = some l → ∀ g ∈ l, (∃ t l, c.tx.get? t = some l ∧ g ∈ l) ∨ ∃ f ∈ c'.hist, g = Spec.clean f)
    (hh : ∀ f ∈ c.hist, f ∈ c'.hist) : HistOk c' := by
  refine ⟨fun g hg => ?_, fun t l hl g hg => ?_⟩
  · rcases he g hg with h1 | h1
    · obtain ⟨f, h2, h3⟩ := h.effective g h1; exact ⟨f, hh f h2, h3⟩
    · exact h1
  · rcases ht t l hl g hg with ⟨t, l, h1, h2⟩ | h1
    · obtain ⟨f, h2, h3⟩ := h.tx t l h1 g h2; exact ⟨f, hh f h2, h3⟩
    · exact h1

theorem Committed.effective_mem {c : Conn} {fs : List Frame} {c' : Conn} {r : Res} (h : Committed c fs c' r) :
    ∀ g ∈ c'.effective, g ∈ c.effective ∨ g ∈ fs := by
  induction h with
  | nil => exact fun g hg => Or.inl hg
  | cons h _ ih =>
    intro g hg
    rcases ih g hg with h1 | h1
    · rw [h.effective.1, List.mem_append, List.mem_singleton] at h1
      rcases h1 with h1 | rfl
      · exact Or.inl h1
      · exact Or.inr List.mem_cons_self
    · exact Or.inr (List.mem_cons_of_mem _ h1)
  | panic h =>
    intro g hg
    rw [h.effective.1, List.mem_append, List.mem_singleton] at hg
    rcases hg with h1 | rfl
    · exact Or.inl h1
    · exact Or.inr List.mem_cons_self

theorem Rcpt.keep {c : Conn} {ok : Bool} {f : Frame} {c1 : Conn} {f1 : Frame} {k : Bool} (h : Rcpt c ok f c1 f1 k) :
    c1.effective = c.effective ∧ c1.hist = c.hist ∧ c1.tx = c.tx := by cases h <;> exact ⟨rfl, rfl, rfl⟩

theorem Handled.histOk {c : Conn} {ok : Bool} {f : Frame} {c' : Conn} {f' : Frame} {r : Res} (h : Handled c ok f c' f' r) (hp : HistOk c)
    (hf : f ∈ c.hist) : HistOk c' := by
  have hk : c'.hist = c.hist := h.keeps.hist
  have tx0 : ∀ t l, c.tx.get? t = some l → ∀ g ∈ l, (∃ t l, c.tx.get? t = some l ∧ g ∈ l) ∨ ∃ f ∈ c'.hist, g = Spec.clean f :=
    fun t l h g hg => Or.inl ⟨t, l, h, hg⟩
  have now : ∀ {f1 : Frame} {k : Bool} {c1 : Conn}, f.header.contains Hdr.transaction = none → Rcpt c ok f c1 f1 k → c'.effective = c1.effective ++ [f1] → c'.tx = c1.tx → HistOk c' := by
    intro f1 k c1 ht hr he htx
    have hcl : f1 = Spec.clean f := by
      rw [hr.frame_eq]; exact clean_of_noTx (by unfold Spec.hdr; rw [← contains_eq]; exact ht)
    refine hp.mono (fun g hg => ?_) (fun t l hl g hg => ?_) (fun x hx => by rw [hk]; exact hx)
    · rw [he, hr.keep.1, List.mem_append, List.mem_singleton] at hg
      rcases hg with hg | rfl
      · exact Or.inl hg
      · exact Or.inr ⟨f, by rw [hk]; exact hf, hcl⟩
    · rw [htx, hr.keep.2.2] at hl
      exact Or.inl ⟨t, l, hl, hg⟩
  have same : c'.effective = c.effective → (∀ t l, c'.tx.get? t = some l → ∀ g ∈ l, (∃ t l, c.tx.get? t = some l ∧ g ∈ l) ∨ ∃ f ∈ c'.hist, g = Spec.clean f) → HistOk c' :=
    fun h1 h2 => hp.mono (fun g hg => Or.inl (by rw [← h1]; exact hg)) h2 (fun x hx => by rw [hk]; exact hx)
  cases h with
  | commitMissing => exact hp
  | commitWrite _ _ _ hr => exact same hr.keep.1 (by rw [hr.keep.2.2]; exact tx0)
  | commitUnknown _ _ _ _ hr => exact same hr.keep.1 (by rw [hr.keep.2.2]; exact tx0)
  | commit hc t ht l hl hr h =>
    refine hp.mono (fun g hg => ?_) (fun t' l' hl' g hg => ?_) (fun x hx => by rw [hk]; exact hx)
    · rcases h.effective_mem g hg with h1 | h1
      · exact Or.inl (by rw [← hr.keep.1]; exact h1)
      · obtain ⟨f0, h2, h3⟩ := hp.tx t l hl g h1
        exact Or.inr ⟨f0, by rw [hk]; exact h2, h3⟩
    · have hl' : (c.tx.del t).get? t' = some l' := hl'
      rw [AMap.get?_del] at hl'
      split at hl'
      · cases hl'
      · exact Or.inl ⟨t', l', hl', hg⟩
  | basic hnc hb =>
    cases hb with
    | unexpected => exact hp
    | refused => exact hp
    | disconnect _ hr => exact same hr.keep.1 (by rw [hr.keep.2.2]; exact tx0)
    | writeFail _ hr => exact same hr.keep.1 (by rw [hr.keep.2.2]; exact tx0)
    | txErr _ _ _ _ _ hr => exact same hr.keep.1 (by rw [hr.keep.2.2]; exact tx0)
    | begin_ t _ _ _ hr =>
      refine same hr.keep.1 (fun t' l hl g hg => ?_)
      have hl : (c.tx.set t []).get? t' = some l := hl
      rw [AMap.get?_set] at hl
      split at hl
      · injection hl with hl; subst hl; cases hg
      · exact Or.inl ⟨t', l, hl, hg⟩
    | abort t _ _ _ _ hr =>
      refine same hr.keep.1 (fun t' l hl g hg => ?_)
      have hl : (c.tx.del t).get? t' = some l := hl
      rw [AMap.get?_del] at hl
      split at hl
      · cases hl
      · exact Or.inl ⟨t', l, hl, hg⟩
    | store t ht hc hid l hl hr =>
      refine same hr.keep.1 (fun t' l' hl' g hg => ?_)
      rename_i c1
      have hl' : (c.tx.set t (l ++ [strip Hdr.transaction f'])).get? t' = some l' := hl'
      rw [AMap.get?_set] at hl'
      split at hl'
      · injection hl' with hl'; subst hl'
        rw [List.mem_append, List.mem_singleton] at hg
        rcases hg with hg | rfl
        · exact Or.inl ⟨t, l, hl, hg⟩
        · exact Or.inr ⟨f, by rw [hk]; exact hf, by rw [hr.frame_eq, clean_eq]⟩
      · exact Or.inl ⟨t', l', hl', hg⟩
    | subscribe => exact same rfl tx0
    | unsubscribe => exact same rfl tx0
    | send _ ht hr => exact now ht hr rfl rfl
    | ack _ ht n _ hr => exact now ht hr rfl rfl
    | nack _ ht n _ hr => exact now ht hr rfl rfl

theorem histOk_step {cfg : Config} {c : Conn} {e : Conn.Ev} {c' : Conn} (hg : Gate cfg c) (hp : HistOk c) (hs : Step cfg c e c') : HistOk c' := by
  cases hs with
  | frame ok1 ok2 f q c1 _ f' r ha hq hsf hfin =>
    have up : HistOk ({ c with inq := q, hist := c.hist ++ [f] } : Conn) :=
      hp.mono (fun g hg => Or.inl hg) (fun t l hl g hg => Or.inl ⟨t, l, hl, hg⟩) (fun x hx => List.mem_append_left _ hx)
    have notx : ∀ {c' : Conn}, c'.effective = c.effective → c'.hist = c.hist ++ [f] → (c'.tx = c.tx ∨ c'.tx = []) → HistOk c' := by
      intro c' h1 h2 h3
      refine hp.mono (fun g hg => Or.inl (by rw [← h1]; exact hg)) (fun t l hl g hg => ?_) (fun x hx => by rw [h2]; exact List.mem_append_left _ hx)
      rcases h3 with h3 | h3
      · rw [h3] at hl; exact Or.inl ⟨t, l, hl, hg⟩
      · rw [h3] at hl; simp [AMap.get?] at hl
    rcases frame_cases hg hsf hfin with ⟨_, v, cx, cy, _, ⟨_, rfl⟩ | ⟨_, rfl⟩⟩ | ⟨_, _, e, v, ⟨_, rfl⟩ | ⟨_, rfl⟩⟩ | ⟨_, hh, hf⟩
    · exact notx rfl rfl (Or.inl rfl)
    · exact notx rfl rfl (Or.inl rfl)
    · exact notx rfl rfl (Or.inr rfl)
    · exact notx rfl rfl (Or.inr rfl)
    · have h1 := hh.histOk up (by simp)
      cases hf with
      | ok => exact h1
      | panic => exact ⟨h1.effective, h1.tx⟩
      | err => exact ⟨h1.effective, by simp [AMap.get?]⟩
      | errFail => exact ⟨h1.effective, by simp [AMap.get?]⟩
  | _ =>
    first
    | exact ⟨hp.effective, hp.tx⟩
    | exact ⟨hp.effective, by simp [AMap.get?]⟩

theorem histOk_run {cfg : Config} {me : Nat} {es : List Conn.Ev} {c : Conn} (h : (Conn.init me).run cfg es = some c) : HistOk c :=
  (gate_induction (P := HistOk) (fun _ _ _ hg hp hs => histOk_step hg hp hs) es c ⟨by simp [Conn.init], by simp [Conn.init, AMap.get?]⟩ h).2

/-! ## Messages that are pending or finished have been written -/

/-- The messages waiting for an acknowledgement, acknowledged or written to auto-ack subscribers. -/
def doneTags (c : Conn) : List Tag := Conn.frameTags c.heap c.subList ++ c.acked ++ c.autoDone

/-- The tags of what has been written. -/
def outTags (c : Conn) : List Tag := c.out.filterMap (·.tag)

theorem mem_frameTags {heap : List Sub} {l : List Nat} {t : Tag} :
    t ∈ Conn.frameTags heap l ↔ ∃ i ∈ l, ∃ m, (deref heap i).frame = some m ∧ m.tag = t := by
  unfold Conn.frameTags
  rw [List.mem_filterMap]
  constructor
  · rintro ⟨i, h1, h2⟩
    cases hm : (deref heap i).frame with
    | none => rw [hm] at h2; cases h2
    | some m => rw [hm] at h2; injection h2 with h2; exact ⟨i, h1, m, hm, h2⟩
  · rintro ⟨i, h1, m, h2, h3⟩; exact ⟨i, h1, by rw [h2]; exact congrArg some h3⟩

theorem ackLoop_mem (heap : List Sub) (n : Nat) (l : List Nat) :
    (∀ i ∈ (ackLoop heap n l).1, i ∈ l) ∧ ∀ i ∈ (ackLoop heap n l).2.1, i ∈ l := by
  induction l with
  | nil => simp [ackLoop]
  | cons j l ih =>
    unfold ackLoop
    split
    · exact ⟨fun i hi => hi, by simp⟩
    · dsimp only
      refine ⟨fun i hi => List.mem_cons_of_mem _ (ih.1 i hi), fun i hi => ?_⟩
      rcases List.mem_cons.1 hi with rfl | hi
      · exact List.mem_cons_self
      · exact List.mem_cons_of_mem _ (ih.2 i hi)
    · dsimp only
      refine ⟨fun i hi => ?_, fun i hi => List.mem_cons_of_mem _ (ih.2 i hi)⟩
      rcases List.mem_cons.1 hi with rfl | hi
      · exact List.mem_cons_self
      · exact List.mem_cons_of_mem _ (ih.1 i hi)

theorem nackLoop_mem (heap : List Sub) (n : Nat) (l : List Nat) : ∀ i ∈ (nackLoop heap n l).1, i ∈ l := by
  induction l with
  | nil => simp [nackLoop]
  | cons j l ih =>
    unfold nackLoop
    dsimp only
    split
    · exact fun i hi => List.mem_cons_of_mem _ (ih i hi)
    · intro i hi
      rcases List.mem_cons.1 hi with rfl | hi
      · exact List.mem_cons_self
      · exact List.mem_cons_of_mem _ (ih i hi)

theorem clearFrames_frame (heap : List Sub) (l : List Nat) (i : Nat) (m : Msg) (h : (deref (Conn.clearFrames heap l) i).frame = some m) :
    (deref heap i).frame = some m := by
  unfold Conn.clearFrames at h
  induction l generalizing heap with
  | nil => exact h
  | cons j l ih =>
    have := ih _ h
    have h2 : (deref (putFrame heap j none) i).frame = some m := this
    rw [deref_putFrame] at h2
    split at h2
    · cases h2
    · exact h2

theorem Applied.done {c : Conn} {f : Frame} {c' : Conn} {r : Res} (h : Applied c f c' r) : ∀ t ∈ doneTags c', t ∈ doneTags c := by
  intro t ht
  unfold doneTags at ht ⊢
  rw [List.mem_append, List.mem_append] at ht ⊢
  cases h with
  | send => exact ht
  | ack hc n hid =>
    rcases ht with (ht | ht) | ht
    · obtain ⟨i, h1, m, h2, h3⟩ := mem_frameTags.1 ht
      exact Or.inl (Or.inl (mem_frameTags.2 ⟨i, (ackLoop_mem _ _ _).1 i h1, m, clearFrames_frame _ _ _ _ h2, h3⟩))
    · have ht : t ∈ c.acked ++ Conn.frameTags c.heap (ackLoop c.heap n c.subList).2.1 := ht
      rcases List.mem_append.1 ht with ht | ht
      · exact Or.inl (Or.inr ht)
      · obtain ⟨i, h1, h2⟩ := mem_frameTags.1 ht
        exact Or.inl (Or.inl (mem_frameTags.2 ⟨i, (ackLoop_mem _ _ _).2 i h1, h2⟩))
    · exact Or.inr ht
  | nack hc n hid =>
    rcases ht with (ht | ht) | ht
    · obtain ⟨i, h1, m, h2, h3⟩ := mem_frameTags.1 ht
      exact Or.inl (Or.inl (mem_frameTags.2 ⟨i, nackLoop_mem _ _ _ i h1, m, clearFrames_frame _ _ _ _ h2, h3⟩))
    · exact Or.inl (Or.inr ht)
    · exact Or.inr ht

theorem Committed.done {c : Conn} {fs : List Frame} {c' : Conn} {r : Res} (h : Committed c fs c' r) : ∀ t ∈ doneTags c', t ∈ doneTags c := by
  induction h with
  | nil => exact fun _ h => h
  | cons h _ ih => exact fun t ht => h.done t (ih t ht)
  | panic h => exact h.done

theorem Rcpt.done {c : Conn} {ok : Bool} {f : Frame} {c1 : Conn} {f1 : Frame} {k : Bool} (h : Rcpt c ok f c1 f1 k) :
    doneTags c1 = doneTags c := by cases h <;> rfl

theorem Handled.done {c : Conn} {ok : Bool} {f : Frame} {c' : Conn} {f' : Frame} {r : Res} (h : Handled c ok f c' f' r)
    (hl : ∀ i ∈ c.subList, i < c.heap.length) : ∀ t ∈ doneTags c', t ∈ doneTags c := by
  have id : ∀ t ∈ doneTags c, t ∈ doneTags c := fun _ h => h
  have rc : ∀ {c1 : Conn} {f1 : Frame} {k : Bool}, Rcpt c ok f c1 f1 k → ∀ t ∈ doneTags c1, t ∈ doneTags c := by
    intro c1 f1 k hr t ht; rw [← hr.done]; exact ht
  cases h with
  | commitMissing => exact id
  | commitWrite _ _ _ hr => exact rc hr
  | commitUnknown _ _ _ _ hr => exact rc hr
  | commit hc t ht l hl hr h => exact fun t ht => rc hr t (h.done t ht)
  | basic hnc hb =>
    cases hb with
    | unexpected => exact id
    | refused => exact id
    | disconnect _ hr => exact rc hr
    | writeFail _ hr => exact rc hr
    | txErr _ _ _ _ _ hr => exact rc hr
    | begin_ t _ _ _ hr => exact fun t ht => rc hr t ht
    | abort t _ _ _ _ hr => exact fun t ht => rc hr t ht
    | store t ht hc hid l hl hr => exact fun t ht => rc hr t ht
    | subscribe =>
      intro t ht
      unfold doneTags at ht ⊢
      rw [List.mem_append, List.mem_append] at ht ⊢
      rcases ht with (ht | ht) | ht
      · obtain ⟨i, h1, m, h2, h3⟩ := mem_frameTags.1 ht
        have h2 : (deref (c.heap ++ _) i).frame = some m := h2
        rw [deref_append_lt _ _ _ (hl i h1)] at h2
        exact Or.inl (Or.inl (mem_frameTags.2 ⟨i, h1, m, h2, h3⟩))
      · exact Or.inl (Or.inr ht)
      · exact Or.inr ht
    | unsubscribe => exact id
    | send hc ht hr => exact fun t h => rc hr t ((Applied.send (by rw [hr.command]; exact hc)).done t h)
    | ack hc ht n hid hr =>
      refine fun t h => rc hr t ((Applied.ack (by rw [hr.command]; exact hc) n ?_).done t h)
      rw [hr.frame_eq]; rw [← hid]; exact ackId_strip (by decide) (by decide)
    | nack hc ht n hid hr =>
      refine fun t h => rc hr t ((Applied.nack (by rw [hr.command]; exact hc) n ?_).done t h)
      rw [hr.frame_eq]; rw [← hid]; exact ackId_strip (by decide) (by decide)

theorem done_step {cfg : Config} {c : Conn} {e : Conn.Ev} {c' : Conn} (hg : Gate cfg c) (hl : Loc c.core) (hin : Sys.internal e = true)
    (h : Step cfg c e c') : ∀ t ∈ doneTags c', t ∈ doneTags c ∨ t ∈ outTags c' := by
  have id : ∀ t ∈ doneTags c, t ∈ doneTags c ∨ t ∈ outTags c' := fun _ h => Or.inl h
  have idx : ∀ i ∈ c.subList, i < c.heap.length := fun i hi => hl.idx i (by
    have := count_pos_iff.2 hi
    unfold Core.tok; show 0 < _ + c.subList.count i + _; omega)
  have apart : ∀ {i l}, c.subCh = i :: l → ∀ j ∈ c.subList, i ≠ j := by
    rintro i l h1 j hj rfl
    have h2 := hl.tok i
    unfold Core.tok at h2
    have h3 : 0 < c.core.subCh.count i := by show 0 < c.subCh.count i; rw [h1]; exact count_pos_iff.2 List.mem_cons_self
    have h4 : 0 < c.core.subList.count i := count_pos_iff.2 hj
    omega
  have put : ∀ {i l} {o : Option Msg}, c.subCh = i :: l → ∀ t ∈ Conn.frameTags (putFrame c.heap i o) c.subList, t ∈ Conn.frameTags c.heap c.subList := by
    intro i l o h1 t ht
    obtain ⟨j, h2, m, h3, h4⟩ := mem_frameTags.1 ht
    rw [deref_putFrame_ne _ _ (apart h1 j h2)] at h3
    exact mem_frameTags.2 ⟨j, h2, m, h3, h4⟩
  have mk : ∀ {t : Tag}, (t ∈ Conn.frameTags c.heap c.subList ∨ t ∈ c.acked) ∨ t ∈ c.autoDone → t ∈ doneTags c := by
    intro t h; unfold doneTags; rw [List.mem_append, List.mem_append]; exact h
  cases h with
  | frame ok1 ok2 f q c1 _ f' r ha hq hsf hfin =>
    rcases frame_cases hg hsf hfin with ⟨_, v, cx, cy, _, ⟨_, rfl⟩ | ⟨_, rfl⟩⟩ | ⟨_, _, e, v, ⟨_, rfl⟩ | ⟨_, rfl⟩⟩ | ⟨_, hh, hf⟩
    · exact id
    · exact id
    · exact id
    · exact id
    · intro t ht
      left
      refine hh.done idx t ?_
      cases hf <;> exact ht
  | subFail ok i l j m ha hl' hg' hf hw =>
    intro t ht
    left
    unfold doneTags at ht
    rw [List.mem_append, List.mem_append] at ht
    rcases ht with (ht | ht) | ht
    · exact mk (Or.inl (Or.inl (put hl' t ht)))
    · exact mk (Or.inl (Or.inr ht))
    · exact mk (Or.inr ht)
  | subPanic i l j m ha hl' hg' hf hw hk hi =>
    intro t ht
    left
    unfold doneTags at ht
    rw [List.mem_append, List.mem_append] at ht
    rcases ht with (ht | ht) | ht
    · exact mk (Or.inl (Or.inl (put hl' t ht)))
    · exact mk (Or.inl (Or.inr ht))
    · exact mk (Or.inr ht)
  | subAuto i l j m ha hl' hg' hf hw hk =>
    intro t ht
    unfold doneTags at ht
    rw [List.mem_append, List.mem_append] at ht
    rcases ht with (ht | ht) | ht
    · left
      have ht : t ∈ Conn.frameTags (putFrame (putFrame c.heap i _) i none) c.subList := ht
      rw [putFrame_putFrame] at ht
      exact mk (Or.inl (Or.inl (put hl' t ht)))
    · exact Or.inl (mk (Or.inl (Or.inr ht)))
    · have ht : t ∈ c.autoDone ++ [m.tag] := ht
      rw [List.mem_append, List.mem_singleton] at ht
      rcases ht with ht | rfl
      · exact Or.inl (mk (Or.inr ht))
      · right
        show _ ∈ List.filterMap _ (c.out ++ [_])
        rw [List.filterMap_append]
        exact List.mem_append_right _ (by simp)
  | subAdd i l j m ha hl' hg' hf hw hk hi =>
    intro t ht
    unfold doneTags at ht
    rw [List.mem_append, List.mem_append] at ht
    rcases ht with (ht | ht) | ht
    · obtain ⟨x, h2, m', h3, h4⟩ := mem_frameTags.1 ht
      have h3 : (deref (putInList (putFrame c.heap i _) i true) x).frame = some m' := h3
      rw [frame_putInList] at h3
      have h2 : x ∈ c.subList ++ [i] := h2
      rw [List.mem_append, List.mem_singleton] at h2
      rcases h2 with h2 | rfl
      · left
        exact mk (Or.inl (Or.inl (put hl' t (mem_frameTags.2 ⟨x, h2, m', h3, h4⟩))))
      · right
        have hx : x < c.heap.length := hl.idx x (by
          unfold Core.tok
          have : 0 < c.core.subCh.count x := by show 0 < c.subCh.count x; rw [hl']; exact count_pos_iff.2 List.mem_cons_self
          omega)
        rw [deref_putFrame, if_pos ⟨rfl, hx⟩] at h3
        injection h3 with h3; subst h3 h4
        show _ ∈ List.filterMap _ (c.out ++ [_])
        rw [List.filterMap_append]
        exact List.mem_append_right _ (by simp [Msg.alloc])
    · exact Or.inl (mk (Or.inl (Or.inr ht)))
    · exact Or.inl (mk (Or.inr ht))
  | acklist ho hs =>
    intro t ht
    left
    unfold doneTags at ht
    rw [List.mem_append, List.mem_append] at ht
    rcases ht with (ht | ht) | ht
    · cases ht
    · exact mk (Or.inl (Or.inr ht))
    · exact mk (Or.inr ht)
  | setFrame => cases hin
  | setInList => cases hin
  | _ => exact id

/-- Messages that are pending or finished have been written. -/
def DoneOk (s : Sys) : Prop := ∀ (c : Nat) (k : Conn), s.conns[c]? = some k → ∀ t ∈ doneTags k, t ∈ outTags k

theorem doneOk_step {cfg : Config} {s s' : Sys} {e : Sys.Ev} (hi : SInv cfg s) (h : DoneOk s) (hs : SysStep cfg s e s') : DoneOk s' := by
  have same : s'.conns = s.conns → DoneOk s' := by
    intro he c k hk; rw [he] at hk; exact h c k hk
  have one : ∀ {j : Nat} {k1 k2 : Conn}, s.conns[j]? = some k1 → s'.conns = s.conns.set j k2 → (∀ t ∈ doneTags k2, t ∈ outTags k2) → DoneOk s' := by
    intro j k1 k2 h1 h2 h3 c k hk
    rw [h2, get_set h1] at hk
    split at hk
    · injection hk with hk; subst hk; exact h3
    · exact h c k hk
  have heap : ∀ {k : Conn} {hp : List Sub}, (∀ t ∈ doneTags k, t ∈ outTags k) →
      (∀ i ∈ k.subList, (deref hp i).frame = (deref k.heap i).frame) → ∀ t ∈ doneTags { k with heap := hp }, t ∈ outTags { k with heap := hp } := by
    intro k hp h1 h2 t ht
    refine h1 t ?_
    unfold doneTags at ht ⊢
    rw [List.mem_append, List.mem_append] at ht ⊢
    rcases ht with (ht | ht) | ht
    · obtain ⟨i, h3, m, h4, h5⟩ := mem_frameTags.1 ht
      exact Or.inl (Or.inl (mem_frameTags.2 ⟨i, h3, m, by rw [← h2 i h3]; exact h4, h5⟩))
    · exact Or.inl (Or.inr ht)
    · exact Or.inr ht
  cases hs with
  | accept =>
    intro c k hk
    rcases conns_evol (SysStep.accept (cfg := cfg) (s := s)) hk with ⟨_, rfl⟩ | ⟨k0, h0, _⟩
    · simp [doneTags, Conn.init, Conn.frameTags]
    · dsimp only at hk
      rw [List.getElem?_append_left (List.getElem?_eq_some_iff.1 h0).1] at hk
      exact h c k hk
  | conn j e k1 k2 hk hin hst =>
    refine one hk rfl ?_
    obtain ⟨ces, hce⟩ := hi.run j k1 hk
    have hg := gate_run cfg j ces k1 hce
    have hst := step_of _ _ _ _ hst
    intro t ht
    rcases done_step hg (hi.loc j k1 hk) hin hst t ht with h1 | h1
    · obtain ⟨new, h2, _⟩ := out_tagged hg hst
      have := h j k1 hk t h1
      unfold outTags at this ⊢
      rw [h2, List.filterMap_append]
      exact List.mem_append_left _ this
    · exact h1
  | flush c k r o hk ho hc => exact one hk rfl (h c k hk)
  | skip => exact same rfl
  | joinTopic => exact same rfl
  | wait r rs k dest ht hr hk => exact one hk rfl (heap (h _ k hk) (fun i _ => frame_putInList _ _ _ _))
  | take r rs k dest m l ht hr hk =>
    refine one hk rfl (heap (h _ k hk) (fun i hi' => ?_))
    rw [deref_putFrame_ne _ _ (hi.notHeld hk (waiting_req hr) i (Or.inr hi'))]
  | leaveQueue r rs k dest ht hr hk => exact one hk rfl (heap (h _ k hk) (fun i _ => frame_putInList _ _ _ _))
  | absent => exact same rfl
  | leaveTopic => exact same rfl
  | store => exact same rfl
  | give front m rs dest r q k ht hr hdd hq he hk =>
    refine one hk rfl (heap (h _ k hk) (fun i hi' => ?_))
    rw [deref_putFrame_ne _ _ (hi.notHeld hk (waiting_queue (d := dest) (by rw [he]; simp)) i (Or.inr hi'))]
    exact frame_putInList _ _ _ _
  | cast => exact same rfl
  | drop => exact same rfl
  | pushQueue r t k ht hk => exact one hk rfl (h _ k hk)
  | pushTopic dest r m t k ht hk => exact one hk rfl (h _ k hk)

theorem doneOk_run {cfg : Config} {es : List Sys.Ev} {s : Sys} (h : Sys.init.run cfg es = some s) (hc : s.crashed = false) : DoneOk s :=
  (sys_induction (P := DoneOk) (by simp [DoneOk, Sys.init]) (fun _ _ _ hi hp hs => doneOk_step hi hp hs) es s h hc).2

end Stomp.Server
