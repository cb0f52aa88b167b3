import Verif.Model.Client.Transaction
import Verif.Model.Client.Message
import Verif.Proofs.Header
import Verif.Proofs.Codec
/-! # C15, C16, C17, C18, C28: frames built by the client API, identifiers, transactions, messages -/
namespace Stomp.Client
open Stomp

/-! ## C15 -/

theorem applySendOpts_inv (dest : Bytes) (n : Nat) (opts : List SendOpt) (last last' : Nat) (f f' : Frame) (seen : Bool)
    (hc : f.command = b!"SEND") (hd : Spec.firstValue f.header b!"destination" = some dest)
    (hn : ∀ e ∈ f.header, e.1 ≠ [])
    (hl : (seen = false ∧ Spec.firstValue f.header b!"content-length" = some (fmtUint n)) ∨
      (seen = true ∧ Spec.firstValue f.header b!"content-length" = none))
    (hk : ∀ k v, SendOpt.header k v ∈ opts → k ≠ [])
    (hcl : seen = true ∨ SendOpt.noContentLength ∈ opts → ∀ k v, SendOpt.header k v ∈ opts → k ≠ b!"content-length")
    (h : applySendOpts last f opts = some (last', f')) :
    f'.command = b!"SEND" ∧ f'.body = f.body ∧ Spec.firstValue f'.header b!"destination" = some dest ∧
    (∀ e ∈ f'.header, e.1 ≠ []) ∧
    (((seen = true ∨ SendOpt.noContentLength ∈ opts) ∧ Spec.firstValue f'.header b!"content-length" = none) ∨
     ((seen = false ∧ SendOpt.noContentLength ∉ opts) ∧
        Spec.firstValue f'.header b!"content-length" = some (fmtUint n))) := by
  induction opts generalizing last f seen with
  | nil =>
    simp only [applySendOpts, Option.some.injEq, Prod.mk.injEq] at h
    obtain ⟨-, rfl⟩ := h
    refine ⟨hc, rfl, hd, hn, ?_⟩
    rcases hl with ⟨h1, h2⟩ | ⟨h1, h2⟩
    · exact Or.inr ⟨⟨h1, by simp⟩, h2⟩
    · exact Or.inl ⟨Or.inl h1, h2⟩
  | cons o opts ih =>
    have hk' : ∀ k v, SendOpt.header k v ∈ opts → k ≠ [] := fun k v hm => hk k v (by simp [hm])
    simp only [applySendOpts] at h
    cases o with
    | nilOpt =>
      simp only [applySendOpt] at h
      obtain ⟨a, b, c, d, e⟩ := ih last f seen hc hd hn hl hk'
        (fun hs k v hm => hcl (hs.imp id (by simp)) k v (by simp [hm])) h
      exact ⟨a, b, c, d, by simpa using e⟩
    | receipt =>
      simp only [applySendOpt] at h
      rw [if_neg (by rw [hc]; simp [Cmd.send])] at h
      simp only at h
      obtain ⟨a, b, c, d, e⟩ := ih _ ⟨f.command, f.header.set Hdr.receipt (allocateId last).2, f.body⟩ seen hc
        (by show Spec.firstValue (Header.set _ _ _) _ = _; rw [firstValue_set]; simpa [Hdr.receipt] using hd)
        (names_set _ _ _ (by simp [Hdr.receipt]) hn)
        (by
          have : Spec.firstValue (f.header.set Hdr.receipt (allocateId last).2) b!"content-length" =
              Spec.firstValue f.header b!"content-length" := by
            rw [firstValue_set]; simp [Hdr.receipt]
          show (_ ∧ Spec.firstValue (f.header.set Hdr.receipt (allocateId last).2) _ = _) ∨
            (_ ∧ Spec.firstValue (f.header.set Hdr.receipt (allocateId last).2) _ = _)
          rw [this]; exact hl) hk'
        (fun hs k v hm => hcl (hs.imp id (by simp)) k v (by simp [hm])) h
      exact ⟨a, b, c, d, by simpa using e⟩
    | noContentLength =>
      simp only [applySendOpt] at h
      rw [if_neg (by rw [hc]; simp [Cmd.send])] at h
      simp only at h
      obtain ⟨a, b, c, d, e⟩ := ih _ ⟨f.command, f.header.del Hdr.contentLength, f.body⟩ true hc
        (by show Spec.firstValue (Header.del _ _) _ = _; rw [firstValue_del]; simpa [Hdr.contentLength] using hd)
        (names_del _ _ hn)
        (by
          right
          refine ⟨rfl, ?_⟩
          show Spec.firstValue (Header.del _ _) _ = _
          rw [firstValue_del]; simp [Hdr.contentLength]) hk'
        (fun _ k v hm => hcl (Or.inr (by simp)) k v (by simp [hm])) h
      refine ⟨a, b, c, d, ?_⟩
      rcases e with ⟨_, e⟩ | ⟨⟨h0, _⟩, _⟩
      · exact Or.inl ⟨Or.inr (by simp), e⟩
      · cases h0
    | header k v =>
      simp only [applySendOpt] at h
      rw [if_neg (by rw [hc]; simp [Cmd.send])] at h
      simp only at h
      obtain ⟨a, b, c, d, e⟩ := ih _ ⟨f.command, f.header.add k v, f.body⟩ seen hc
        (by show Spec.firstValue (Header.add _ _ _) _ = _; rw [firstValue_add, hd]; rfl)
        (names_add _ _ _ (hk k v (by simp)) hn)
        (by
          show (_ ∧ Spec.firstValue (Header.add _ _ _) _ = _) ∨ (_ ∧ Spec.firstValue (Header.add _ _ _) _ = _)
          rw [firstValue_add]
          rcases hl with ⟨h1, h2⟩ | ⟨h1, h2⟩
          · left; rw [h2]; exact ⟨h1, rfl⟩
          · right
            rw [h2, if_neg (hcl (Or.inl h1) k v (by simp))]
            exact ⟨h1, rfl⟩) hk'
        (fun hs k v hm => hcl (hs.imp id (by simp)) k v (by simp [hm])) h
      exact ⟨a, b, c, d, by simpa using e⟩
    | fail => simp [applySendOpt] at h

/-- What `createSendFrame` makes. -/
theorem createSendFrame_spec (last last' : Nat) (dest ctype body : Bytes) (opts : List SendOpt) (f : Frame)
    (h : createSendFrame last dest ctype body opts = some (last', f))
    (hk : ∀ k v, SendOpt.header k v ∈ opts → k ≠ [])
    (hcl : SendOpt.noContentLength ∈ opts → ∀ k v, SendOpt.header k v ∈ opts → k ≠ b!"content-length") :
    f.command = b!"SEND" ∧ f.body = body ∧ Spec.firstValue f.header b!"destination" = some dest ∧
    (∀ e ∈ f.header, e.1 ≠ []) ∧
    ((SendOpt.noContentLength ∈ opts ∧ Spec.firstValue f.header b!"content-length" = none) ∨
     (SendOpt.noContentLength ∉ opts ∧
        Spec.firstValue f.header b!"content-length" = some (fmtUint body.length))) := by
  unfold createSendFrame at h
  simp only [Frame.new, List.foldl_cons, List.foldl_nil] at h
  have key := fun f0 h0 h1 h2 h3 => applySendOpts_inv dest body.length opts last last' f0 f false h0 h1 h2
    (Or.inl ⟨rfl, h3⟩) hk (fun hs => hcl (by simpa using hs))
  split at h
  · obtain ⟨a, b, c, d, e⟩ := key _ rfl
      (by
        show Spec.firstValue (Header.set _ _ _) _ = _
        rw [firstValue_set, firstValue_set]; simp [Hdr.contentType, Hdr.destination])
      (by
        apply names_set _ _ _ (by simp [Hdr.contentType])
        apply names_set _ _ _ (by simp [Hdr.destination])
        simp [Header.add, Hdr.contentLength])
      (by
        show Spec.firstValue (Header.set _ _ _) _ = _
        rw [firstValue_set, firstValue_set, firstValue_add, firstValue_nil]
        simp [Hdr.contentType, Hdr.destination, Hdr.contentLength]) h
    refine ⟨a, b, c, d, ?_⟩
    simpa using e
  · obtain ⟨a, b, c, d, e⟩ := key _ rfl
      (by
        show Spec.firstValue (Header.set _ _ _) _ = _
        rw [firstValue_set]; simp [Hdr.destination])
      (by
        apply names_set _ _ _ (by simp [Hdr.destination])
        simp [Header.add, Hdr.contentLength])
      (by
        show Spec.firstValue (Header.set _ _ _) _ = _
        rw [firstValue_set, firstValue_add, firstValue_nil]
        simp [Hdr.destination, Hdr.contentLength]) h
    refine ⟨a, b, c, d, ?_⟩
    simpa using e

/-- **C15.** For any destination, content type, body (shorter than 4 GiB) and any options whose custom names
are non-empty, the bytes written for the SEND frame are parsed by the peer to a SEND frame with exactly that
destination and body, consuming exactly those bytes. With `NoContentLength` the body must not contain a NUL
and no custom entry may be called content-length. -/
theorem C15_send (last last' : Nat) (dest ctype body : Bytes) (opts : List SendOpt) (f : Frame) (rest : Bytes)
    (h : createSendFrame last dest ctype body opts = some (last', f))
    (hk : ∀ k v, SendOpt.header k v ∈ opts → k ≠ [])
    (hlen : body.length < 2 ^ 32)
    (hcl : SendOpt.noContentLength ∈ opts →
      (0 : UInt8) ∉ body ∧ ∀ k v, SendOpt.header k v ∈ opts → k ≠ b!"content-length") :
    readFrame (writeFrame (some f) ++ rest) = .frame f rest ∧ f.command = b!"SEND" ∧ f.body = body ∧
      f.header.get b!"destination" = dest := by
  obtain ⟨a, b, c, d, e⟩ := createSendFrame_spec last last' dest ctype body opts f h hk (fun hm => (hcl hm).2)
  refine ⟨?_, a, b, by rw [get_eq, c]; rfl⟩
  apply readFrame_writeFrame
  refine ⟨by rw [a]; simp [Spec.commands], d, ?_⟩
  unfold Spec.BodyOk
  rcases e with ⟨e1, e2⟩ | ⟨_, e2⟩
  · rw [e2, b]; exact (hcl e1).1
  · rw [e2, b]
    exact ⟨fmtUint_numeral _, hlen⟩

example : (createSendFrame 7 b!"/queue/a" b!"text/plain" [104, 0, 105] [.receipt, .header b!"content-length" b!"99",
    .header b!"destination" b!"/queue/b"]).map (fun p => p.2.header) =
    some [(b!"content-length", b!"3"), (b!"destination", b!"/queue/a"), (b!"content-type", b!"text/plain"),
      (b!"receipt", b!"8"), (b!"content-length", b!"99"), (b!"destination", b!"/queue/b")] := by decide

/-- Options other than a failing user function are always accepted. -/
theorem C15_accepted (last : Nat) (dest ctype body : Bytes) (opts : List SendOpt) (h : SendOpt.fail ∉ opts) :
    (createSendFrame last dest ctype body opts).isSome := by
  have key : ∀ (opts : List SendOpt) (last : Nat) (f : Frame), f.command = Cmd.send → SendOpt.fail ∉ opts →
      (applySendOpts last f opts).isSome := by
    intro opts
    induction opts with
    | nil => intros; rfl
    | cons o opts ih =>
      intro last f hc hf
      simp only [List.mem_cons, not_or] at hf
      simp only [applySendOpts]
      cases o with
      | nilOpt => exact ih last f hc hf.2
      | receipt => simp only [applySendOpt, hc, ne_eq, not_true, if_false]; exact ih _ _ rfl hf.2
      | noContentLength => simp only [applySendOpt, hc, ne_eq, not_true, if_false]; exact ih _ _ rfl hf.2
      | header k v => simp only [applySendOpt, hc, ne_eq, not_true, if_false]; exact ih _ _ rfl hf.2
      | fail => exact absurd rfl hf.1
  unfold createSendFrame
  simp only
  split <;> exact key opts last _ rfl h

example : (createSendFrame 0 b!"d" [] [] [.noContentLength, .receipt, .nilOpt]).isSome :=
  C15_accepted _ _ _ _ _ (by decide)

/-- **C15, the bounds are needed**: a body of 4 GiB or more does not survive (the reader parses content-length
as 32 bits), nor does a body with NUL and `NoContentLength`. -/
theorem C15_bounds_needed (last last' : Nat) (dest ctype body : Bytes) (opts : List SendOpt) (f : Frame) (rest : Bytes)
    (h : createSendFrame last dest ctype body opts = some (last', f))
    (hk : ∀ k v, SendOpt.header k v ∈ opts → k ≠ [])
    (hcl : SendOpt.noContentLength ∈ opts → ∀ k v, SendOpt.header k v ∈ opts → k ≠ b!"content-length")
    (hbad : (SendOpt.noContentLength ∉ opts ∧ 2 ^ 32 ≤ body.length) ∨
      (SendOpt.noContentLength ∈ opts ∧ (0 : UInt8) ∈ body)) :
    readFrame (writeFrame (some f) ++ rest) ≠ .frame f rest := by
  obtain ⟨a, b, c, d, e⟩ := createSendFrame_spec last last' dest ctype body opts f h hk hcl
  intro hr
  have := (readFrame_sound _ _ _ hr).1.2.2
  unfold Spec.BodyOk at this
  rcases hbad with ⟨h1, h2⟩ | ⟨h1, h2⟩
  · rcases e with ⟨e1, _⟩ | ⟨_, e2⟩
    · exact h1 e1
    · rw [e2, b] at this; omega
  · rcases e with ⟨_, e2⟩ | ⟨e1, _⟩
    · rw [e2, b] at this; exact this h2
    · exact e1 h1

example : ∃ f, createSendFrame 0 b!"/queue/a" [] [1, 0, 2] [.noContentLength] = some (0, f) := ⟨_, rfl⟩

/-! ## C16 -/

/-- **C16.** What `Ack` (`ack = true`) and `Nack` hand to the connection, for each version. -/
theorem C16_ack_nack (version : Bytes) (h : Header) (sub : SubInfo) (ack : Bool)
    (hv : version ∈ [b!"1.0", b!"1.1", b!"1.2"]) :
    createAckNackFrame version ⟨some h, some sub, true⟩ ack =
      if ack = false ∧ version = b!"1.0" then .error .nackNotSupported
      else if sub.ackMode = .auto then (if ack then .ok none else .error .cannotNackAutoSub)
      else if version = b!"1.2" then
        match Spec.firstValue h b!"ack" with
        | some a => .ok (some ⟨if ack then b!"ACK" else b!"NACK", [(b!"id", a)], []⟩)
        | none => .error (.missingHeader b!"ack")
      else
        match Spec.firstValue h b!"message-id" with
        | some m => .ok (some ⟨if ack then b!"ACK" else b!"NACK",
            [(b!"subscription", sub.id), (b!"message-id", m)], []⟩)
        | none => .error (.missingHeader b!"message-id") := by
  simp only [List.mem_cons, List.not_mem_nil, or_false] at hv
  unfold createAckNackFrame
  simp only [contains_eq]
  rcases hv with rfl | rfl | rfl <;> cases ack <;>
    simp [supportsNack, V10, V11, V12, Hdr.messageId, Hdr.ack, Hdr.subscription, Hdr.id, Frame.new, Header.add,
      Cmd.ack, Cmd.nack] <;> rfl

example : createAckNackFrame b!"1.1" ⟨some [(b!"message-id", b!"m7")], some ⟨b!"s1", .client⟩, true⟩ false =
    .ok (some ⟨b!"NACK", [(b!"subscription", b!"s1"), (b!"message-id", b!"m7")], []⟩) := rfl

/-- **C16.** A message that did not come from the server is refused. -/
theorem C16_not_received (version : Bytes) (m : MsgInfo) (ack : Bool)
    (h : m.header = none ∨ m.subscription = none ∨ m.hasConn = false) :
    createAckNackFrame version m ack = .error .notReceivedMessage ∨
    createAckNackFrame version m ack = .error .nackNotSupported := by
  unfold createAckNackFrame
  obtain ⟨mh, ms, mc⟩ := m
  simp only at h ⊢
  split
  · exact Or.inr rfl
  · left
    rcases h with rfl | rfl | rfl
    · rfl
    · cases mh <;> rfl
    · cases mh <;> cases ms <;> rfl

example : createAckNackFrame b!"1.2" ⟨none, none, false⟩ true = .error .notReceivedMessage := rfl

/-- **C16.** Different messages of a subscription give different ACK frames: the frame identifies the message
(message-id for 1.0/1.1, ack for 1.2), and the subscription for 1.0/1.1. -/
theorem C16_identifies (version : Bytes) (h h' : Header) (sub sub' : SubInfo) (ack : Bool) (f : Frame)
    (hv : version ∈ [b!"1.0", b!"1.1", b!"1.2"])
    (h1 : createAckNackFrame version ⟨some h, some sub, true⟩ ack = .ok (some f))
    (h2 : createAckNackFrame version ⟨some h', some sub', true⟩ ack = .ok (some f)) :
    if version = b!"1.2" then Spec.firstValue h b!"ack" = Spec.firstValue h' b!"ack"
    else sub.id = sub'.id ∧ Spec.firstValue h b!"message-id" = Spec.firstValue h' b!"message-id" := by
  rw [C16_ack_nack version _ _ _ hv] at h1 h2
  by_cases hn : ack = false ∧ version = b!"1.0"
  · rw [if_pos hn] at h1; cases h1
  · rw [if_neg hn] at h1 h2
    split at h1
    · split at h1 <;> cases h1
    · split at h2
      · split at h2 <;> cases h2
      · by_cases h12 : version = b!"1.2"
        · rw [if_pos h12] at h1 h2 ⊢
          cases ha : Spec.firstValue h b!"ack" with
          | none => rw [ha] at h1; cases h1
          | some a =>
            cases hb : Spec.firstValue h' b!"ack" with
            | none => rw [hb] at h2; cases h2
            | some b =>
              rw [ha] at h1; rw [hb] at h2
              simp only [Except.ok.injEq, Option.some.injEq] at h1 h2
              rw [← h1] at h2
              simp at h2
              rw [h2]
        · rw [if_neg h12] at h1 h2 ⊢
          cases ha : Spec.firstValue h b!"message-id" with
          | none => rw [ha] at h1; cases h1
          | some a =>
            cases hb : Spec.firstValue h' b!"message-id" with
            | none => rw [hb] at h2; cases h2
            | some b =>
              rw [ha] at h1; rw [hb] at h2
              simp only [Except.ok.injEq, Option.some.injEq] at h1 h2
              rw [← h1] at h2
              simp at h2
              rw [h2.1, h2.2]
              exact ⟨rfl, rfl⟩

example : ∃ f, createAckNackFrame b!"1.2" ⟨some [(b!"ack", b!"9")], some ⟨b!"s", .clientIndividual⟩, true⟩ true =
    .ok (some f) ∧ f.header = [(b!"id", b!"9")] := ⟨_, rfl, rfl⟩

/-- **C16.** `ShouldAck` tells for which messages `Ack` and `Nack` have something to send: never for one of which it is false, and
always for one of which it is true, if it was received from the server with the header that the version needs (for `Nack`, if the
version has it). -/
theorem C16_should_ack (version : Bytes) (m : MsgInfo) (ack : Bool) (hv : version ∈ [b!"1.0", b!"1.1", b!"1.2"]) :
    (shouldAck m = false → ∀ f, createAckNackFrame version m ack ≠ .ok (some f)) ∧
    (shouldAck m = true → m.hasConn = true → (ack = false → version ≠ b!"1.0") →
      (∃ h, m.header = some h ∧ (Spec.firstValue h (if version = b!"1.2" then b!"ack" else b!"message-id")).isSome) →
      ∃ f, createAckNackFrame version m ack = .ok (some f)) := by
  obtain ⟨mh, ms, mc⟩ := m
  constructor
  · intro hs f hf
    by_cases hn : mh = none ∨ ms = none ∨ mc = false
    · rcases C16_not_received version ⟨mh, ms, mc⟩ ack hn with h | h <;> rw [h] at hf <;> cases hf
    · cases mh with
      | none => exact hn (.inl rfl)
      | some h =>
        cases ms with
        | none => exact hn (.inr (.inl rfl))
        | some sub =>
          cases mc with
          | false => exact hn (.inr (.inr rfl))
          | true =>
            have hauto : sub.ackMode = .auto := by simpa [shouldAck] using hs
            rw [C16_ack_nack version h sub ack hv, hauto] at hf
            split at hf
            · cases hf
            · simp only [if_true] at hf
              split at hf <;> cases hf
  · rintro hs hc hnack ⟨h, hh, hv2⟩
    simp only at hh hc
    subst hh; subst hc
    cases ms with
    | none => simp [shouldAck] at hs
    | some sub =>
      have hauto : sub.ackMode ≠ .auto := by simpa [shouldAck] using hs
      rw [C16_ack_nack version h sub ack hv, if_neg (fun hx => hnack hx.1 hx.2), if_neg hauto]
      by_cases h12 : version = b!"1.2"
      · rw [if_pos h12] at hv2 ⊢
        obtain ⟨a, ha⟩ := Option.isSome_iff_exists.1 hv2
        rw [ha]; exact ⟨_, rfl⟩
      · rw [if_neg h12] at hv2 ⊢
        obtain ⟨a, ha⟩ := Option.isSome_iff_exists.1 hv2
        rw [ha]; exact ⟨_, rfl⟩

example : shouldAck ⟨some [(b!"ack", b!"9")], some ⟨b!"s", .client⟩, true⟩ = true ∧
    shouldAck ⟨some [(b!"ack", b!"9")], some ⟨b!"s", .auto⟩, true⟩ = false := by decide

/-- **C16.** `Message.ShouldAck` is `AckMode.ShouldAck` of the subscription's mode. -/
theorem C16_should_ack_mode (h : Option Header) (sub : SubInfo) (c : Bool) :
    shouldAck ⟨h, some sub, c⟩ = sub.ackMode.shouldAck := by
  obtain ⟨i, m⟩ := sub
  cases m <;> rfl

example : AckMode.clientIndividual.shouldAck = true ∧ AckMode.auto.shouldAck = false := by decide

/-! ## C17 -/

/-- The ids handed out by `n` allocations in a row (by any goroutines: the increment is atomic, so the
allocations of a process form one sequence). -/
def allocations : Nat → Nat → List Bytes
  | _, 0 => []
  | last, n + 1 => (allocateId last).2 :: allocations (allocateId last).1 n

theorem allocations_eq (n last : Nat) : allocations last n =
    (List.range n).map (fun i => fmtUint ((last + 1 + i) % 2 ^ 64)) := by
  induction n generalizing last with
  | zero => rfl
  | succ n ih =>
    simp only [allocations, ih, List.range_succ_eq_map, List.map_cons, List.map_map, Nat.add_zero]
    congr 1
    apply List.map_congr_left
    intro i _
    simp only [Function.comp, allocateId]
    congr 1
    omega

/-- **C17.** Up to 2^64 allocations, wherever the counter starts, no id is given twice. -/
theorem C17_unique (last n : Nat) (hn : n ≤ 2 ^ 64) : (allocations last n).Nodup := by
  rw [allocations_eq, List.Nodup, List.pairwise_map]
  refine List.Pairwise.imp_of_mem ?_ (List.nodup_range (n := n))
  intro i j hi hj hij he
  have := fmtUint_inj he
  rw [List.mem_range] at hi hj
  omega

/-- **C17.** For goroutines allocating in any interleaving (`sched` lists who allocates at each step), the ids
two different allocations get are different. -/
theorem C17_interleaved {Thread : Type} (sched : List Thread) (hn : sched.length ≤ 2 ^ 64) (i j : Nat)
    (hi : i < sched.length) (hj : j < sched.length) (hij : i ≠ j) :
    (sched.zip (allocations 0 sched.length))[i]?.map Prod.snd ≠ (sched.zip (allocations 0 sched.length))[j]?.map Prod.snd := by
  have hl : (allocations 0 sched.length).length = sched.length := by rw [allocations_eq]; simp
  have hnd := C17_unique 0 sched.length hn
  intro he
  rw [List.getElem?_eq_getElem (by simp [hl]; exact hi), List.getElem?_eq_getElem (by simp [hl]; exact hj)] at he
  simp only [Option.map_some, List.getElem_zip, Option.some.injEq] at he
  have hp := List.pairwise_iff_getElem.1 hnd
  rcases Nat.lt_or_gt_of_ne hij with h | h
  · exact hp i j (by omega) (by omega) h he
  · exact hp j i (by omega) (by omega) h he.symm

example : allocations 0 3 = [b!"1", b!"2", b!"3"] := by decide

/-- **C17, the bound is sharp**: allocation number 2^64 + 1 repeats the first id. -/
theorem C17_wraps (last n m : Nat) (hm : m = 2 ^ 64) (hn : m < n) :
    (allocations last n)[0]? = (allocations last n)[m]? ∧ (allocations last n)[m]?.isSome := by
  rw [allocations_eq]
  rw [List.getElem?_map, List.getElem?_map, List.getElem?_range (by omega), List.getElem?_range (by omega)]
  refine ⟨?_, rfl⟩
  simp only [Option.map_some, Option.some.injEq]
  have : (last + 1 + 0) % 2 ^ 64 = (last + 1 + m) % 2 ^ 64 := by omega
  rw [this]

example : ∃ n m : Nat, m = 2 ^ 64 ∧ m < n := ⟨2 ^ 64 + 1, 2 ^ 64, rfl, by omega⟩

/-! ## C18 -/

/-- A run of calls on one transaction: for each call the outcome of sending; collects (frame, result). -/
def txRun (version : Bytes) : Nat → Tx → List (TxCall × Bool) → List (TxCall × Option Frame × TxRes)
  | _, _, [] => []
  | last, tx, (c, ok) :: rest =>
    let (last', tx', f, r) := txStep version last tx c ok
    (c, f, r) :: txRun version last' tx' rest

/-- Does this call end the transaction? -/
def isEnd : TxCall → Bool
  | .abort _ => true
  | .commit _ => true
  | _ => false

theorem txStep_id (version : Bytes) (last : Nat) (tx : Tx) (c : TxCall) (ok : Bool) :
    (txStep version last tx c ok).2.1.id = tx.id := by
  cases c <;> simp only [txStep] <;> split <;> try rfl
  · split <;> split <;> rfl
  · split <;> split <;> rfl
  · split <;> rfl
  · split <;> rfl
  · split <;> rfl

theorem txStep_frame (version : Bytes) (last : Nat) (tx : Tx) (c : TxCall) (ok : Bool) (f : Frame)
    (h : (txStep version last tx c ok).2.2.1 = some f) : Spec.firstValue f.header b!"transaction" = some tx.id := by
  have hs : ∀ h : Header, Spec.firstValue (h.set Hdr.transaction tx.id) b!"transaction" = some tx.id := by
    intro h; rw [firstValue_set]; simp [Hdr.transaction]
  cases c <;> simp only [txStep] at h
  case abort receipt =>
    split at h
    · cases h
    · cases receipt <;> cases ok <;> simp only [Bool.false_eq_true, if_false, if_true, Option.some.injEq] at h <;>
        subst h
      · rfl
      · rfl
      · show Spec.firstValue (Header.set _ _ _) _ = _
        rw [firstValue_set]; simp [Hdr.receipt, Frame.new, Header.add, firstValue_cons, Hdr.transaction]
      · show Spec.firstValue (Header.set _ _ _) _ = _
        rw [firstValue_set]; simp [Hdr.receipt, Frame.new, Header.add, firstValue_cons, Hdr.transaction]
  case commit receipt =>
    split at h
    · cases h
    · cases receipt <;> cases ok <;> simp only [Bool.false_eq_true, if_false, if_true, Option.some.injEq] at h <;>
        subst h
      · rfl
      · rfl
      · show Spec.firstValue (Header.set _ _ _) _ = _
        rw [firstValue_set]; simp [Hdr.receipt, Frame.new, Header.add, firstValue_cons, Hdr.transaction]
      · show Spec.firstValue (Header.set _ _ _) _ = _
        rw [firstValue_set]; simp [Hdr.receipt, Frame.new, Header.add, firstValue_cons, Hdr.transaction]
  case send =>
    split at h
    · cases h
    · split at h
      · cases h
      · simp only [Option.some.injEq] at h; subst h; exact hs _
  case ack =>
    split at h
    · cases h
    · split at h
      · cases h
      · cases h
      · simp only [Option.some.injEq] at h; subst h; exact hs _
  case nack =>
    split at h
    · cases h
    · split at h
      · cases h
      · cases h
      · simp only [Option.some.injEq] at h; subst h; exact hs _

theorem txStep_completed (version : Bytes) (last : Nat) (tx : Tx) (c : TxCall) (ok : Bool) (h : tx.completed = true) :
    txStep version last tx c ok = (last, tx, none, .completedTx) := by
  cases c <;> simp [txStep, h]

theorem txStep_end_ok (version : Bytes) (last : Nat) (tx : Tx) (c : TxCall) (ok : Bool) (he : isEnd c = true)
    (h : (txStep version last tx c ok).2.2.2 = .ok) : (txStep version last tx c ok).2.1.completed = true := by
  cases c <;> simp [isEnd] at he <;> simp only [txStep] at h ⊢
  · split at h
    · cases h
    · split at h
      · rename_i h1 h2; rw [if_neg h1, if_pos h2]
      · cases h
  · split at h
    · cases h
    · split at h
      · rename_i h1 h2; rw [if_neg h1, if_pos h2]
      · cases h

theorem txRun_completed (version : Bytes) (last : Nat) (tx : Tx) (calls : List (TxCall × Bool))
    (h : tx.completed = true) : ∀ x ∈ txRun version last tx calls, x.2.1 = none ∧ x.2.2 = .completedTx := by
  induction calls generalizing last tx with
  | nil => simp [txRun]
  | cons c calls ih =>
    obtain ⟨c, ok⟩ := c
    simp only [txRun, txStep_completed version last tx c ok h]
    intro x hx
    rcases List.mem_cons.1 hx with rfl | hx
    · exact ⟨rfl, rfl⟩
    · exact ih last tx h x hx

/-- **C18.** Every frame sent through a transaction carries its id in the transaction header, whatever the
calls, options and outcomes. -/
theorem C18_tagged (version : Bytes) (last : Nat) (tx : Tx) (calls : List (TxCall × Bool)) (x)
    (hx : x ∈ txRun version last tx calls) (f : Frame) (hf : x.2.1 = some f) :
    f.header.contains b!"transaction" = some tx.id := by
  induction calls generalizing last tx with
  | nil => simp [txRun] at hx
  | cons c calls ih =>
    obtain ⟨c, ok⟩ := c
    simp only [txRun] at hx
    rcases List.mem_cons.1 hx with rfl | hx
    · rw [contains_eq]; exact txStep_frame version last tx c ok f hf
    · have := ih _ _ hx
      rw [txStep_id] at this
      exact this

/-- **C18.** After a Commit or Abort that returned nil, every call returns ErrCompletedTransaction and sends
nothing. In particular at most one Commit/Abort returns nil. -/
theorem C18_nothing_after (version : Bytes) (last : Nat) (tx : Tx) (calls : List (TxCall × Bool))
    (before after : List (TxCall × Option Frame × TxRes)) (x : TxCall × Option Frame × TxRes)
    (h : txRun version last tx calls = before ++ x :: after) (he : isEnd x.1 = true) (hok : x.2.2 = .ok) :
    ∀ y ∈ after, y.2.1 = none ∧ y.2.2 = .completedTx := by
  induction calls generalizing last tx before with
  | nil => simp [txRun] at h
  | cons c calls ih =>
    obtain ⟨c, ok⟩ := c
    simp only [txRun] at h
    cases before with
    | nil =>
      simp only [List.nil_append, List.cons.injEq] at h
      obtain ⟨h1, h2⟩ := h
      subst h1
      rw [← h2]
      exact txRun_completed _ _ _ _ (txStep_end_ok version last tx c ok he hok)
    | cons b before =>
      simp only [List.cons_append, List.cons.injEq] at h
      exact ih _ _ before h.2

/-- **C18.** At most one of COMMIT and ABORT succeeds. -/
theorem C18_one_end (version : Bytes) (last : Nat) (tx : Tx) (calls : List (TxCall × Bool)) :
    ((txRun version last tx calls).filter (fun x => isEnd x.1 && decide (x.2.2 = .ok))).length ≤ 1 := by
  induction calls generalizing last tx with
  | nil => simp [txRun]
  | cons c calls ih =>
    obtain ⟨c, ok⟩ := c
    simp only [txRun, List.filter_cons]
    split
    · rename_i h
      simp only [Bool.and_eq_true, decide_eq_true_eq] at h
      have := txRun_completed version (txStep version last tx c ok).1 _ calls
        (txStep_end_ok version last tx c ok h.1 h.2)
      rw [List.filter_eq_nil_iff.2]
      · simp
      · intro y hy
        rw [(this y hy).2]
        simp
    · exact ih _ _

/-- **C18.** A call is refused with ErrCompletedTransaction only if the transaction is completed: an earlier Commit or
Abort returned nil (a failed one can be repeated). -/
theorem C18_refused_only_after (version : Bytes) (last : Nat) (tx : Tx) (calls : List (TxCall × Bool))
    (before after : List (TxCall × Option Frame × TxRes)) (y : TxCall × Option Frame × TxRes) (ho : tx.completed = false)
    (h : txRun version last tx calls = before ++ y :: after) (hy : y.2.2 = .completedTx) :
    ∃ x ∈ before, isEnd x.1 = true ∧ x.2.2 = .ok := by
  induction calls generalizing last tx before with
  | nil => simp [txRun] at h
  | cons c calls ih =>
    obtain ⟨c, ok⟩ := c
    simp only [txRun] at h
    have hstep : (txStep version last tx c ok).2.2.2 ≠ .completedTx ∧
        ((txStep version last tx c ok).2.1.completed = false ∨
          isEnd c = true ∧ (txStep version last tx c ok).2.2.2 = .ok) := by
      cases c <;> simp only [txStep, ho, isEnd, Bool.false_eq_true, if_false]
      · split <;> split <;> simp [ho]
      · split <;> split <;> simp [ho]
      · split
        · simp [ho]
        · cases ok <;> simp [ho]
      · split
        · simp [ho]
        · simp [ho]
        · cases ok <;> simp [ho]
      · split
        · simp [ho]
        · simp [ho]
        · cases ok <;> simp [ho]
    cases before with
    | nil =>
      simp only [List.nil_append, List.cons.injEq] at h
      obtain ⟨rfl, -⟩ := h
      exact absurd hy hstep.1
    | cons b before =>
      simp only [List.cons_append, List.cons.injEq] at h
      obtain ⟨rfl, h2⟩ := h
      rcases hstep.2 with hc | hc
      · obtain ⟨x, hx, hx2⟩ := ih _ _ before hc h2
        exact ⟨x, List.mem_cons_of_mem _ hx, hx2⟩
      · exact ⟨_, List.mem_cons_self, hc⟩

/-- **C18.** A call that sends a frame returns nil exactly if sending it succeeds; a call that sends none returns nil only if it
is an Ack or a Nack of a message that needs none. -/
theorem C18_answer (version : Bytes) (last : Nat) (tx : Tx) (c : TxCall) (ok : Bool) :
    (∀ f, (txStep version last tx c ok).2.2.1 = some f → (txStep version last tx c ok).2.2.2 = if ok then .ok else .sendFailed) ∧
    ((txStep version last tx c ok).2.2.1 = none → (txStep version last tx c ok).2.2.2 = .ok → ∃ m, c = .ack m ∨ c = .nack m) := by
  cases c <;> simp only [txStep]
  · split
    · exact ⟨(fun f h => by cases h), (fun _ h => by cases h)⟩
    · cases ok <;> exact ⟨fun f _ => rfl, fun h => by cases h⟩
  · split
    · exact ⟨(fun f h => by cases h), (fun _ h => by cases h)⟩
    · cases ok <;> exact ⟨fun f _ => rfl, fun h => by cases h⟩
  · split
    · exact ⟨(fun f h => by cases h), (fun _ h => by cases h)⟩
    · split
      · exact ⟨(fun f h => by cases h), (fun _ h => by cases h)⟩
      · cases ok <;> exact ⟨fun f _ => rfl, fun h => by cases h⟩
  · refine ⟨?_, fun _ _ => ⟨_, .inl rfl⟩⟩
    intro f h
    split at h
    · cases h
    · rename_i hc
      split at h
      · cases h
      · cases h
      · rename_i g hg; rw [if_neg hc]
  · refine ⟨?_, fun _ _ => ⟨_, .inr rfl⟩⟩
    intro f h
    split at h
    · cases h
    · rename_i hc
      split at h
      · cases h
      · cases h
      · rename_i g hg; rw [if_neg hc]

/-- **C18.** Begin sends a BEGIN frame with the new transaction's id, and the transaction starts open. -/
theorem C18_begin (last : Nat) : (txBegin last).2.2 = ⟨b!"BEGIN", [(b!"transaction", (txBegin last).2.1.id)], []⟩ ∧
    (txBegin last).2.1.completed = false := ⟨rfl, rfl⟩

/-- A non-trivial run: a failing commit can be retried, then everything is refused. -/
example : (txRun b!"1.2" 5 ⟨b!"t1", false⟩
    [(.send b!"/queue/q" [] b!"hi" [.header b!"transaction" b!"evil"], true), (.commit true, false), (.commit false, true),
     (.abort false, true), (.send b!"/queue/q" [] [] [], true)]).map (fun x => (x.2.1.map (fun f => f.header), x.2.2)) =
    [(some [(b!"content-length", b!"2"), (b!"destination", b!"/queue/q"), (b!"transaction", b!"t1")], .ok),
     (some [(b!"transaction", b!"t1"), (b!"receipt", b!"6")], .sendFailed),
     (some [(b!"transaction", b!"t1")], .ok), (none, .completedTx), (none, .completedTx)] := by decide

-- C18_answer: a Nack that is sent, one that cannot be sent, and an Ack of a message that needs none.
def Ex.held (a : AckMode) : MsgInfo := ⟨some [(b!"message-id", b!"7"), (b!"subscription", b!"1")], some ⟨b!"1", a⟩, true⟩
example : ((txStep b!"1.1" 5 ⟨b!"t1", false⟩ (.nack (Ex.held .client)) true).2.2, (txStep b!"1.1" 5 ⟨b!"t1", false⟩ (.nack (Ex.held .client)) false).2.2.2,
    (txStep b!"1.1" 5 ⟨b!"t1", false⟩ (.ack (Ex.held .auto)) true).2.2) =
    ((some ⟨b!"NACK", [(b!"subscription", b!"1"), (b!"message-id", b!"7"), (b!"transaction", b!"t1")], []⟩, .ok), .sendFailed, (none, .ok)) := by decide

/-! ## C28 -/

/-- A sequence of `Read` (with a buffer size) and `ReadByte` calls. -/
inductive ReadCall | read (n : Nat) | readByte
  deriving DecidableEq, Repr

/-- The bytes returned by each call (`none`: io.EOF) and the final body. -/
def readCalls : Bytes → List ReadCall → List (Option Bytes) × Bytes
  | body, [] => ([], body)
  | body, .read n :: cs =>
    let (r, body') := msgRead body n
    let (rs, b) := readCalls body' cs
    (r :: rs, b)
  | body, .readByte :: cs =>
    let (r, body') := msgReadByte body
    let (rs, b) := readCalls body' cs
    (r.map (fun x => [x]) :: rs, b)

/-- **C28.** Whatever the sequence of buffer sizes, the bytes delivered so far followed by what remains is the
body: in order, each byte once. -/
theorem C28_reads (body : Bytes) (calls : List ReadCall) :
    ((readCalls body calls).1.map (fun r => r.getD [])).flatten ++ (readCalls body calls).2 = body := by
  induction calls generalizing body with
  | nil => simp [readCalls]
  | cons c calls ih =>
    cases c with
    | read n =>
      simp only [readCalls, msgRead]
      split
      · simpa using ih body
      · simp only [List.map_cons, List.flatten_cons, Option.getD_some, List.append_assoc, ih,
          List.take_append_drop]
    | readByte =>
      cases body with
      | nil => simpa [readCalls, msgReadByte] using ih []
      | cons b body =>
        simp only [readCalls, msgReadByte, Option.map_some, List.map_cons, List.flatten_cons, Option.getD_some,
          ih, List.cons_append, List.nil_append]

/-- **C28.** A call returns io.EOF exactly when the body is used up, it never returns more than the buffer
holds, it makes progress unless the buffer is empty; and EOF is forever. -/
theorem C28_eof (body : Bytes) (n : Nat) :
    ((msgRead body n).1 = none ↔ body = []) ∧ ((msgReadByte body).1 = none ↔ body = []) ∧
    (∀ bs, (msgRead body n).1 = some bs → bs.length = min n body.length) ∧
    (body = [] → ∀ calls, (∀ r ∈ (readCalls body calls).1, r = none) ∧ (readCalls body calls).2 = []) := by
  refine ⟨?_, ?_, ?_, ?_⟩
  · unfold msgRead; split
    · rename_i h; simp [List.length_eq_zero_iff.1 h]
    · rename_i h; simp; intro e; subst e; simp at h
  · cases body <;> simp [msgReadByte]
  · intro bs h
    unfold msgRead at h
    split at h
    · cases h
    · simp only [Option.some.injEq] at h; subst h; simp
  · rintro rfl calls
    induction calls with
    | nil => simp [readCalls]
    | cons c calls ih => cases c <;> simpa [readCalls, msgRead, msgReadByte] using ih

example : readCalls b!"hello" [.read 2, .readByte, .read 0, .read 100, .read 1, .readByte] =
    ([some b!"he", some b!"l", some [], some b!"lo", none, none], []) := by decide

end Stomp.Client
