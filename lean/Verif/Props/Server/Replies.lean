import Verif.Model.Server.System
import Verif.Props.Server.Session
/-! # C34, C35, C46: receipts, message ids, DISCONNECT -/
namespace Stomp.Server
open Stomp

/-! ## C34 -/

/-- Specification: the write is a RECEIPT or ERROR frame carrying this receipt id. -/
def Spec.answers (r : Bytes) (w : Wr) : Bool :=
  match w.frame with
  | some g => decide ((g.command = b!"RECEIPT" ∨ g.command = b!"ERROR") ∧ Spec.hdr g b!"receipt-id" = some r)
  | none => false

/-- Specification: the frame asks for this receipt. -/
def Spec.asks (r : Bytes) (f : Frame) : Bool := decide (Spec.hdr f b!"receipt" = some r)

/-- SUBSCRIBE and UNSUBSCRIBE frames. -/
def Spec.subscribing (f : Frame) : Bool := decide (f.command = b!"SUBSCRIBE" ∨ f.command = b!"UNSUBSCRIBE")

theorem answers_receipt (r v : Bytes) : Spec.answers r ⟨some (receiptFrame v), none⟩ = decide (v = r) := by
  have : Spec.hdr (receiptFrame v) b!"receipt-id" = some v := rfl
  have hc : (receiptFrame v).command = b!"RECEIPT" := rfl
  simp only [Spec.answers, this, hc, true_or, true_and, Option.some.injEq]

theorem answers_error (cfg : Config) (e : Err) (r : Bytes) (f : Frame) :
    Spec.answers r ⟨some (errorFrame cfg e f), none⟩ = Spec.asks r f := by
  have : Spec.hdr (errorFrame cfg e f) b!"receipt-id" = Spec.hdr f b!"receipt" := by
    unfold Spec.hdr errorFrame
    rw [contains_eq]
    dsimp only
    rw [firstValue_cons, if_neg (by decide)]
    have e : Hdr.receipt = b!"receipt" := rfl
    rw [e]
    cases Stomp.Spec.firstValue f.header b!"receipt" with
    | none => rfl
    | some v => rfl
  simp only [Spec.answers, this, Spec.asks]
  have hc : (errorFrame cfg e f).command = b!"ERROR" := rfl
  simp [hc]

theorem asks_strip (r : Bytes) (f : Frame) : Spec.asks r (strip Hdr.receipt f) = false := by
  unfold Spec.asks Spec.hdr strip
  rw [firstValue_del, if_pos (by rfl)]; rfl

theorem asks_none {f : Frame} (h : f.header.contains Hdr.receipt = none) (r : Bytes) : Spec.asks r f = false := by
  rw [contains_eq] at h
  have : Spec.hdr f b!"receipt" = none := h
  unfold Spec.asks; rw [this]; rfl

theorem asks_some {f : Frame} {v : Bytes} (h : f.header.contains Hdr.receipt = some v) (r : Bytes) : Spec.asks r f = decide (v = r) := by
  rw [contains_eq] at h
  have : Spec.hdr f b!"receipt" = some v := h
  unfold Spec.asks; rw [this]; simp

/-- What one frame step writes. -/
theorem reply_step {cfg : Config} {c : Conn} {ok1 ok2 : Bool} {f : Frame} {q : List Frame} {c1 c' : Conn} {f' : Frame} {r : Res}
    (hg : Gate cfg c) (hsf : ({ c with inq := q, hist := c.hist ++ [f] } : Conn).stateFunc cfg ok1 f = (c1, f', r))
    (hfin : Fin cfg c1 ok2 f' r c') :
    c'.hist = c.hist ++ [f] ∧ ∃ new, c'.out = c.out ++ new ∧
      ∀ id, (new.filter (Spec.answers id)).length ≤ (if Spec.asks id f then 1 else 0) ∧
        (c'.wfail = true ∨ (new.filter (Spec.answers id)).length = (if Spec.asks id f then 1 else 0) ∨
          (Spec.subscribing f = true ∧ r = .ok ∧ new = [])) := by
  have hh0 : c1.hist = c.hist ++ [f] → c'.hist = c.hist ++ [f] := by
    intro h; cases hfin <;> exact h
  rcases frame_cases hg hsf hfin with ⟨_, v, cx, cy, hac, ⟨_, rfl⟩ | ⟨_, rfl⟩⟩ | ⟨_, _, e, v, ⟨_, rfl⟩ | ⟨_, rfl⟩⟩ | ⟨_, hh', hf⟩
  · refine ⟨rfl, _, rfl, fun id => ?_⟩
    have hn : Spec.asks id f = false := by
      apply asks_none; rw [contains_eq]; exact hac.noReceipt
    rw [hn]
    have : ∀ a b d, Spec.answers id ⟨some (connectedFrame a b d), none⟩ = false := by
      intro a b d; simp only [Spec.answers, connectedFrame]; simp
    simp [this]
  · exact ⟨rfl, [], by simp [Conn.emit], fun id => ⟨by simp, Or.inl rfl⟩⟩
  · refine ⟨rfl, _, rfl, fun id => ?_⟩
    have e2 := answers_error cfg e id f
    cases ha : Spec.asks id f <;> rw [ha] at e2 <;> simp [e2]
  · exact ⟨rfl, [], by simp, fun id => ⟨by simp, Or.inl rfl⟩⟩
  · refine ⟨hh0 hh'.keeps.hist, ?_⟩
    rcases hh'.out with ⟨h1, h2, rfl, h3⟩ | ⟨v, h0, h1, h2, h3⟩ | ⟨h1, h2⟩
    · have h1 : c1.out = c.out := h1
      cases hf with
      | ok =>
        refine ⟨[], by simp [h1], fun id => ⟨by simp, Or.inr ?_⟩⟩
        rcases h3 with h3 | ⟨e, h3⟩ | ⟨h3, _⟩
        · left; rw [asks_none h3]; rfl
        · cases h3
        · right; refine ⟨?_, rfl, rfl⟩
          unfold Spec.subscribing; exact decide_eq_true h3
      | panic =>
        refine ⟨[], by simp [h1], fun id => ⟨by simp, Or.inr (Or.inl ?_)⟩⟩
        rcases h3 with h3 | ⟨e, h3⟩ | ⟨_, h3⟩
        · rw [asks_none h3]; rfl
        · cases h3
        · cases h3
      | err e =>
        refine ⟨[⟨some (errorFrame cfg e f'), none⟩], by rw [← h1], fun id => ?_⟩
        have e2 := answers_error cfg e id f'
        cases ha : Spec.asks id f' <;> rw [ha] at e2 <;> simp [e2]
      | errFail e => exact ⟨[], by simp [h1], fun id => ⟨by simp, Or.inl rfl⟩⟩
    · have h1 : c1.out = c.out ++ [⟨some (receiptFrame v), none⟩] := h1
      subst h3
      have one : ∀ id, ([⟨some (receiptFrame v), none⟩].filter (Spec.answers id)).length = (if Spec.asks id f then 1 else 0) := by
        intro id
        have e2 := answers_receipt id v
        rw [asks_some h0]
        by_cases hv : v = id
        · rw [List.filter_cons_of_pos (by rw [e2]; simp [hv])]; simp [hv]
        · rw [List.filter_cons_of_neg (by rw [e2]; simp [hv])]; simp [hv]
      cases hf with
      | ok => exact ⟨_, h1, fun id => ⟨Nat.le_of_eq (one id), Or.inr (Or.inl (one id))⟩⟩
      | panic => exact ⟨_, h1, fun id => ⟨Nat.le_of_eq (one id), Or.inr (Or.inl (one id))⟩⟩
      | err e =>
        refine ⟨[⟨some (receiptFrame v), none⟩] ++ [⟨some (errorFrame cfg e (strip Hdr.receipt f)), none⟩], ?_, fun id => ?_⟩
        · show c1.out ++ _ = _; rw [h1, List.append_assoc]
        · have e2 := answers_error cfg e id (strip Hdr.receipt f)
          rw [asks_strip] at e2
          have : ([⟨some (receiptFrame v), none⟩] ++ [⟨some (errorFrame cfg e (strip Hdr.receipt f)), none⟩] : List Wr).filter (Spec.answers id) =
              [⟨some (receiptFrame v), none⟩].filter (Spec.answers id) := by
            rw [List.filter_append, List.filter_cons_of_neg (p := Spec.answers id) (a := ⟨some (errorFrame cfg e (strip Hdr.receipt f)), none⟩) (by rw [e2]; simp)]
            simp
          rw [this]
          exact ⟨Nat.le_of_eq (one id), Or.inr (Or.inl (one id))⟩
      | errFail e => exact ⟨_, h1, fun id => ⟨Nat.le_of_eq (one id), Or.inr (Or.inl (one id))⟩⟩
    · have h1 : c1.out = c.out := h1
      cases hf with
      | ok => exact ⟨[], by simp [h1], fun id => ⟨by simp, Or.inl h2⟩⟩
      | panic => exact ⟨[], by simp [h1], fun id => ⟨by simp, Or.inl h2⟩⟩
      | err e _ hx => rw [h2] at hx; cases hx
      | errFail e => exact ⟨[], by simp [h1], fun id => ⟨by simp, Or.inl rfl⟩⟩

theorem answers_message {r : Bytes} {w : Wr} {g : Frame} (hw : w.frame = some g) (hc : g.command = Cmd.message) : Spec.answers r w = false := by
  unfold Spec.answers
  rw [hw]
  dsimp only
  rw [hc]
  apply decide_eq_false
  rintro ⟨h | h, _⟩ <;> revert h <;> decide

/-- **C34** (what holds of it). At every moment, for every receipt id: the number of RECEIPT and ERROR frames carrying it is at most the number of
processed frames asking for it, so nobody gets a receipt without asking; and unless writing failed it is at
least the number of those frames that are not SUBSCRIBE or UNSUBSCRIBE. Missing: SUBSCRIBE and UNSUBSCRIBE, which are never
answered when they succeed, see `C34_false`; and a RECEIPT does not mean success, see `C34_false_failed`. -/
theorem C34_counts_partial (cfg : Config) (me : Nat) (es : List Conn.Ev) (c : Conn) (h : (Conn.init me).run cfg es = some c)
    (henv : ∀ e ∈ es, EnvOk e) (r : Bytes) :
    (c.out.filter (Spec.answers r)).length ≤ (c.hist.filter (Spec.asks r)).length ∧
    (c.wfail = false →
      (c.hist.filter (fun f => Spec.asks r f && !Spec.subscribing f)).length ≤ (c.out.filter (Spec.answers r)).length) := by
  refine (run_inv (P := fun c => (c.out.filter (Spec.answers r)).length ≤ (c.hist.filter (Spec.asks r)).length ∧
    (c.wfail = false →
      (c.hist.filter (fun f => Spec.asks r f && !Spec.subscribing f)).length ≤ (c.out.filter (Spec.answers r)).length))
    (fun c e c' hg hm he hp hs => ?_) es c henv ⟨by simp [Conn.init], by simp [Conn.init]⟩ h).2.2
  have hwf : c'.wfail = false → c.wfail = false := by
    intro h'
    cases hw : c.wfail with
    | false => rfl
    | true => rw [(wfail_step hg hs hw).1] at h'; cases h'
  cases hfr : isFrame e with
  | false =>
    have q := quiet_step hs hfr
    have : c'.out.filter (Spec.answers r) = c.out.filter (Spec.answers r) := by
      rcases out_step hg hm hs with ⟨h1, _⟩ | ⟨h1, _⟩ | ⟨_, _, h1, _, _⟩ | ⟨_, _, m, a, hmc, _, h1⟩
      · rw [h1]
      · rw [hfr] at h1; cases h1
      · rw [h1, List.filter_append]; simp [Spec.answers]
      · rw [h1, List.filter_append, List.filter_cons_of_neg (by
          rw [answers_message (g := (m.alloc c.lastMsgId a).frame) rfl (by show (allocFrame _ _ _).command = _; rw [allocFrame_command]; exact hmc)]; simp)]
        simp
    rw [this, q.hist]
    exact ⟨hp.1, fun h => hp.2 (hwf h)⟩
  | true =>
    cases hs with
    | frame ok1 ok2 f q c1 _ f' res ha hq hsf hfin =>
      obtain ⟨hh, new, h1, h2⟩ := reply_step hg hsf hfin
      obtain ⟨h2, h3⟩ := h2 r
      rw [h1, hh, List.filter_append, List.filter_append, List.filter_append, List.length_append, List.length_append, List.length_append]
      refine ⟨?_, fun hw => ?_⟩
      · have : ([f].filter (Spec.asks r)).length = (if Spec.asks r f then 1 else 0) := by
          cases hx : Spec.asks r f <;> simp [hx]
        have := hp.1
        omega
      · have hp2 := hp.2 (hwf hw)
        have hle : ([f].filter (fun f => Spec.asks r f && !Spec.subscribing f)).length ≤ (if Spec.asks r f then 1 else 0) ∧
            (Spec.subscribing f = true → ([f].filter (fun f => Spec.asks r f && !Spec.subscribing f)).length = 0) := by
          cases hx : Spec.asks r f <;> cases hy : Spec.subscribing f <;> simp [hx, hy]
        rcases h3 with h3 | h3 | ⟨h3, _, _⟩
        · rw [hw] at h3; cases h3
        · omega
        · have := hle.2 h3; omega
    | _ => cases hfr

/-- **C34** fails: a client that subscribes with a receipt header gets no RECEIPT and no ERROR, with all writes succeeding and
nothing left to process. -/
theorem C34_false : ∃ es c, (Conn.init 0).run sampleCfg es = some c ∧ (∀ e ∈ es, EnvOk e) ∧ c.wfail = false ∧ c.inq = [] ∧ c.atSelect = true ∧
    (c.hist.filter (Spec.asks b!"r1")).length = 1 ∧ c.out.filter (Spec.answers b!"r1") = [] := by
  refine ⟨feed [(sampleConnect, 1), (⟨b!"SUBSCRIBE", [(b!"id", b!"1"), (b!"destination", b!"/queue/a"), (b!"receipt", b!"r1")], []⟩, 1)],
    _, rfl, ?_, by decide +kernel, by decide +kernel, by decide +kernel, by decide +kernel, by decide +kernel⟩
  intro e he
  simp only [feed, List.flatMap_cons, List.flatMap_nil, List.append_nil, List.cons_append, List.nil_append, List.replicate, List.mem_cons, List.not_mem_nil, or_false] at he
  rcases he with rfl | rfl | rfl | rfl | rfl | rfl <;> trivial

/-- **C34** also fails in this way: a frame that fails has already been confirmed by a RECEIPT, and the ERROR does not carry the receipt
id. Here the second BEGIN of a transaction. -/
theorem C34_false_failed : ∃ es c, (Conn.init 0).run sampleCfg es = some c ∧ c.hist.length = 3 ∧ c.wfail = false ∧
    c.out.drop 1 = [⟨some ⟨b!"RECEIPT", [(b!"receipt-id", b!"r1")], []⟩, none⟩,
      ⟨some ⟨b!"ERROR", [(b!"message", b!"transaction already in progress")], []⟩, none⟩] :=
  ⟨feed [(sampleConnect, 1), (⟨b!"BEGIN", [(b!"transaction", b!"t")], []⟩, 0),
    (⟨b!"BEGIN", [(b!"transaction", b!"t"), (b!"receipt", b!"r1")], []⟩, 0)],
    _, rfl, by decide +kernel, by decide +kernel, by decide +kernel⟩

-- C34_counts_partial: in the sample session receipt 7 is asked for and answered once.
example : ((Conn.init 3).run sampleCfg sampleRun).map (fun c => ((c.hist.filter (Spec.asks b!"7")).length,
    (c.hist.filter (fun f => Spec.asks b!"7" f && !Spec.subscribing f)).length, (c.out.filter (Spec.answers b!"7")).length, c.wfail)) =
    some (1, 1, 1, false) := by decide +kernel

/-! ## C35 -/

/-- The message-id header of a MESSAGE frame that was written. -/
def Spec.messageId (w : Wr) : Option (Option Bytes) :=
  match w.frame with
  | some g => if g.command = b!"MESSAGE" then some (Spec.hdr g b!"message-id") else none
  | none => none

theorem alloc_messageId (m : Msg) (n : Nat) (a : Option Bytes) (hm : m.frame.command = Cmd.message) :
    Spec.hdr (m.alloc n a).frame b!"message-id" = some (fmtUint ((n + 1) % 2 ^ 64)) := by
  unfold Msg.alloc allocFrame
  dsimp only
  rw [if_pos (Or.inl hm)]
  unfold Spec.hdr
  dsimp only
  have h1 : Stomp.Spec.firstValue ((m.frame.header.set Hdr.messageId (fmtUint ((n + 1) % 2 ^ 64))).set Hdr.id (fmtUint ((n + 1) % 2 ^ 64))) b!"message-id" =
      some (fmtUint ((n + 1) % 2 ^ 64)) := by
    rw [firstValue_set, if_neg (by decide), firstValue_set, if_pos (by rfl)]
  cases a with
  | none => dsimp only; rw [firstValue_del, if_neg (by decide), h1]
  | some a =>
    dsimp only
    split
    · rw [firstValue_del, if_neg (by decide), h1]
    · rw [firstValue_set, if_neg (by decide), h1]

/-- The ids used so far are increasing and the counter counts them (one more if the last write failed). -/
def Ids (c : Conn) : Prop :=
  (∃ ns : List Nat, c.out.filterMap Spec.messageId = ns.map (fun n => some (fmtUint n)) ∧ ns.Pairwise (· < ·) ∧
    (∀ n ∈ ns, n ≤ c.lastMsgId) ∧ (c.lastMsgId ≤ c.out.length ∨ c.stage ≠ .run ∧ c.lastMsgId ≤ c.out.length + 1)) ∨
  2 ^ 64 ≤ c.out.length + 1

theorem stage_step {cfg : Config} {c : Conn} {e : Conn.Ev} {c' : Conn} (h : Step cfg c e c') (hn : c.stage ≠ .run) :
    c'.stage ≠ .run := by
  cases hfr : isFrame e with
  | false => exact (quiet_step h hfr).stage hn
  | true =>
    cases h with
    | frame _ _ _ _ _ _ _ _ ha => exact absurd (atSelect_run ha).1 hn
    | _ => cases hfr

theorem ids_run {cfg : Config} {me : Nat} {es : List Conn.Ev} {c : Conn} (h : (Conn.init me).run cfg es = some c)
    (henv : ∀ e ∈ es, EnvOk e) : Ids c := by
  refine (run_inv (P := Ids) (fun c e c' hg hm he hp hs => ?_) es c henv
    (Or.inl ⟨[], rfl, List.Pairwise.nil, by simp, Or.inl (Nat.zero_le _)⟩) h).2.2
  have hlen : c.out.length ≤ c'.out.length := by
    rcases out_step hg hm hs with ⟨h1, _⟩ | ⟨_, _, _, new, h1, _⟩ | ⟨_, _, h1, _, _⟩ | ⟨_, _, m, a, _, _, h1⟩ <;> rw [h1] <;> simp
  rcases hp with ⟨ns, h1, h2, h3, h4⟩ | hp
  · rcases out_step hg hm hs with ⟨o1, o2⟩ | ⟨_, o2, o4, new, o1, o3⟩ | ⟨_, o2, o1, o4, _⟩ | ⟨_, o4, m, a, hmc, o2, o1⟩
    · rcases o2 with o2 | ⟨o3, o4, o2⟩
      · left
        refine ⟨ns, by rw [o1]; exact h1, h2, by rw [o2]; exact h3, ?_⟩
        rw [o1, o2]
        rcases h4 with h4 | ⟨h4, h5⟩
        · exact Or.inl h4
        · exact Or.inr ⟨stage_step hs h4, h5⟩
      · have h4 : c.lastMsgId ≤ c.out.length := h4.resolve_right (fun h => h.1 o3)
        by_cases hb : 2 ^ 64 ≤ c.out.length + 1
        · right; omega
        · left
          have e : (c.lastMsgId + 1) % 2 ^ 64 = c.lastMsgId + 1 := Nat.mod_eq_of_lt (by omega)
          refine ⟨ns, by rw [o1]; exact h1, h2, fun n hn => ?_, Or.inr ⟨o4, ?_⟩⟩
          · have := h3 n hn; rw [o2, e]; omega
          · rw [o1, o2, e]; omega
    · left
      have hz : new.filterMap Spec.messageId = [] := by
        rw [List.filterMap_eq_nil_iff]
        intro w hw
        obtain ⟨_, g, hg, hc⟩ := o3 w hw
        unfold Spec.messageId; rw [hg]
        dsimp only
        rw [if_neg]
        rcases hc with hc | hc | hc <;> rw [hc] <;> decide
      refine ⟨ns, by rw [o1, List.filterMap_append, hz, List.append_nil]; exact h1, h2, by rw [o2]; exact h3, Or.inl ?_⟩
      have := h4.resolve_right (fun h => h.1 o4)
      rw [o1, o2, List.length_append]; omega
    · left
      refine ⟨ns, by rw [o1, List.filterMap_append, h1]; simp [Spec.messageId], h2, by rw [o2]; exact h3, Or.inl ?_⟩
      have := h4.resolve_right (fun h => h.1 o4)
      rw [o1, o2, List.length_append]; omega
    · have h4 : c.lastMsgId ≤ c.out.length := h4.resolve_right (fun h => h.1 o4)
      by_cases hb : 2 ^ 64 ≤ c.out.length + 1
      · right; omega
      · left
        have e : (c.lastMsgId + 1) % 2 ^ 64 = c.lastMsgId + 1 := Nat.mod_eq_of_lt (by omega)
        refine ⟨ns ++ [c.lastMsgId + 1], ?_, ?_, ?_, Or.inl ?_⟩
        · rw [o1, List.filterMap_append, h1, List.map_append]
          have : Spec.messageId ⟨some (m.alloc c.lastMsgId a).frame, some m.tag⟩ = some (some (fmtUint (c.lastMsgId + 1))) := by
            unfold Spec.messageId
            dsimp only
            rw [if_pos (by show (allocFrame _ _ _).command = _; rw [allocFrame_command]; exact hmc), alloc_messageId m _ a hmc, e]
          simp [this]
        · rw [List.pairwise_append]
          refine ⟨h2, List.pairwise_singleton _ _, ?_⟩
          intro x hx y hy
          rw [List.mem_singleton] at hy; subst hy
          have := h3 x hx; omega
        · intro n hn
          rw [o2, e]
          rcases List.mem_append.1 hn with hn | hn
          · have := h3 n hn; omega
          · rw [List.mem_singleton] at hn; omega
        · rw [o1, o2, e, List.length_append]
          show _ ≤ c.out.length + 1
          omega
  · right; omega

/-- **C35.** As long as fewer than 2^64 − 1 frames have been written on a connection, the message-id values of the
MESSAGE frames written are strictly increasing numbers, hence distinct. -/
theorem C35_increasing (cfg : Config) (me : Nat) (es : List Conn.Ev) (c : Conn) (h : (Conn.init me).run cfg es = some c)
    (henv : ∀ e ∈ es, EnvOk e) (hlen : c.out.length < 2 ^ 64 - 1) :
    (∃ ns : List Nat, c.out.filterMap Spec.messageId = ns.map (fun n => some (fmtUint n)) ∧ ns.Pairwise (· < ·)) ∧
    (c.out.filterMap Spec.messageId).Nodup := by
  rcases ids_run h henv with ⟨ns, h1, h2, _, _⟩ | h
  · refine ⟨⟨ns, h1, h2⟩, ?_⟩
    rw [h1]
    unfold List.Nodup
    rw [List.pairwise_map]
    refine h2.imp ?_
    intro a b hab e
    injection e with e
    have := fmtUint_inj e
    omega
  · omega

-- Two deliveries to a topic subscriber.
example : ((Conn.init 3).run sampleCfg (sampleRun ++ [.pushTopic ⟨⟨0, 0⟩, ⟨b!"MESSAGE", [], []⟩⟩, .pushTopic ⟨⟨0, 1⟩, ⟨b!"MESSAGE", [(b!"message-id", b!"1")], []⟩⟩,
      .wr true, .wr true])).map (fun c => c.out.filterMap Spec.messageId) = some [some b!"1", some b!"2"] := by
  decide +kernel

/-! ## C46 -/

/-- **C46** fails: after the server has processed a client's DISCONNECT and answered it with the RECEIPT, a SEND from that client still takes effect
and the server still writes MESSAGE frames to it. A run of the whole server with one client, subscribed to the topic it sends to. -/
theorem C46_false : ∃ es s, Sys.init.run sampleCfg es = some s ∧ s.crashed = false ∧
    ∃ k, s.conns[0]? = some k ∧
      k.hist.map (·.command) = [b!"CONNECT", b!"SUBSCRIBE", b!"DISCONNECT", b!"SEND"] ∧
      k.effective.map (·.command) = [b!"SEND"] ∧
      k.out.map (fun w => w.frame.map (·.command)) = [some b!"CONNECTED", some b!"RECEIPT", some b!"MESSAGE"] := by
  refine ⟨[.accept, .conn 0 (.recv sampleConnect), .conn 0 (.frame true true), .flush 0, .proc,
    .conn 0 (.recv ⟨b!"SUBSCRIBE", [(b!"id", b!"1"), (b!"destination", b!"/topic/a")], []⟩), .conn 0 (.frame true true), .flush 0, .proc,
    .conn 0 (.recv ⟨b!"DISCONNECT", [(b!"receipt", b!"r1")], []⟩), .conn 0 (.frame true true),
    .conn 0 (.recv ⟨b!"SEND", [(b!"destination", b!"/topic/a")], [1]⟩), .conn 0 (.frame true true), .flush 0, .proc, .push,
    .conn 0 (.wr true)], _, rfl, by decide +kernel, _, rfl, by decide +kernel, by decide +kernel, by decide +kernel⟩

/-- **C46** (what holds of it). The processing of the DISCONNECT frame itself writes the RECEIPT it asked for, or nothing if it asked for none
(or writing failed), and has no other effect. Missing: what follows, see `C46_false` and
`C46_afterwards_partial`. -/
theorem C46_disconnect_partial (cfg : Config) (me : Nat) (es : List Conn.Ev) (c c' : Conn) (ok1 ok2 : Bool) (f : Frame) (q : List Frame)
    (h : (Conn.init me).run cfg es = some c) (hs : c.step cfg (.frame ok1 ok2) = some c') (hq : c.inq = f :: q)
    (hc : c.connected = true) (hf : f.command = b!"DISCONNECT") :
    (c' = { c with inq := q, hist := c.hist ++ [f] } ∧ Spec.hdr f b!"receipt" = none) ∨
    ∃ r, Spec.hdr f b!"receipt" = some r ∧
      (c' = { c with inq := q, hist := c.hist ++ [f], out := c.out ++ [⟨some ⟨b!"RECEIPT", [(b!"receipt-id", r)], []⟩, none⟩] } ∨
       c' = { c with inq := q, hist := c.hist ++ [f], wfail := true }) := by
  have hg := gate_run cfg me es c h
  obtain ⟨_, hob, c1, f', r, hh, hfin⟩ := frame_step hg hs hq hc
  have key : r = .ok ∧ ∃ k, Rcpt { c with inq := q, hist := c.hist ++ [f] } ok1 f c1 f' k := by
    have nc : ∀ l : List Bytes, f.command ∈ l → b!"DISCONNECT" ∈ l := by intro l h; rw [← hf]; exact h
    have nc1 : ∀ x : Bytes, f.command = x → b!"DISCONNECT" = x := by intro l h; rw [← hf]; exact h
    cases hh with
    | basic hnc hb =>
      cases hb with
      | unexpected e _ h => rw [hf] at h; exact absurd h (by decide)
      | refused e h => exact absurd (nc _ h) (by decide)
      | disconnect hc hr => exact ⟨rfl, _, hr⟩
      | writeFail hc hr => exact absurd (nc _ hc) (by decide)
      | txErr e t _ _ hc hr => rw [hf] at hc; rcases hc with ⟨hc, _⟩ | ⟨hc, _⟩ <;> exact absurd hc (by decide)
      | begin_ _ _ hc _ hr => exact absurd (nc1 _ hc) (by decide)
      | abort _ _ hc _ _ hr => exact absurd (nc1 _ hc) (by decide)
      | store _ _ hc _ _ _ hr => rw [hf] at hc; exact absurd hc (by decide)
      | subscribe hc => exact absurd (nc1 _ hc) (by decide)
      | unsubscribe hc => exact absurd (nc1 _ hc) (by decide)
      | send hc => exact absurd (nc1 _ hc) (by decide)
      | ack hc => exact absurd (nc1 _ hc) (by decide)
      | nack hc => exact absurd (nc1 _ hc) (by decide)
    | commitMissing hc => exact absurd (nc1 _ hc) (by decide)
    | commitWrite hc => exact absurd (nc1 _ hc) (by decide)
    | commitUnknown hc => exact absurd (nc1 _ hc) (by decide)
    | commit hc => exact absurd (nc1 _ hc) (by decide)
  obtain ⟨rfl, k, hr⟩ := key
  cases hfin
  cases hr with
  | none h => left; refine ⟨rfl, ?_⟩; rw [contains_eq] at h; exact h
  | sent r h => right; refine ⟨r, ?_, Or.inl rfl⟩; rw [contains_eq] at h; exact h
  | failed r h => right; refine ⟨r, ?_, Or.inr rfl⟩; rw [contains_eq] at h; exact h

example : ((Conn.init 3).run sampleCfg (sampleRun ++ [.recv ⟨b!"DISCONNECT", [(b!"receipt", b!"r1")], []⟩])).map (fun c => (c.connected, c.inq.length, c.atSelect)) =
    some (true, 1, true) := by decide +kernel

end Stomp.Server
