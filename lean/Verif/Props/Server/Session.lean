import Verif.Proofs.Server.SubIds
/-! # C30, C31 (handshake), C32, C33: sessions of a server connection

The theorems hold for every run of a connection in an arbitrary environment, hence for every connection of every run
of the server (`Proofs/Server/Lift`). -/
namespace Stomp.Server
open Stomp

/-- A configuration for the examples: login "u" with passcode "p". -/
def sampleCfg : Config := ⟨fun l p => l = b!"u" ∧ p = b!"p", 60000000000, id⟩

/-- A first frame it accepts. -/
def sampleConnect : Frame :=
  ⟨b!"CONNECT", [(b!"accept-version", b!"1.1,1.0"), (b!"login", b!"u"), (b!"passcode", b!"p"), (b!"heart-beat", b!"0,0")], []⟩

/-! ## C30 -/

/-- **C30.** If the processor has been asked for anything by a connection (other than noting that it is gone), or a
frame has taken effect or made a subscription, then the first frame that arrived on the connection was a CONNECT or
STOMP frame without receipt, accepted by the authenticator, with an acceptable version and heart-beat header. (A
nil `requeue` needs an environment that hands out subscriptions that do not exist.) -/
theorem C30_gate (cfg : Config) (me : Nat) (es : List Conn.Ev) (c : Conn) (h : (Conn.init me).run cfg es = some c)
    (hx : (∃ r ∈ Conn.requests cfg (Conn.init me) es, r ≠ .disconnected me ∧ r ≠ .requeue none) ∨
      c.effective ≠ [] ∨ c.subs ≠ [] ∨ c.heap ≠ [] ∨ c.tx ≠ []) :
    ∃ f rest, received es = f :: rest ∧ Spec.accepts cfg.auth f := by
  have hg := gate_run cfg me es c h
  have hme := me_run h
  cases hc : c.connected with
  | true =>
    obtain ⟨f, rest, v, cx, cy, h1, h2, _⟩ := hg.opened hc
    exact ⟨f, rest ++ c.inq, by rw [received_eq h, h1]; rfl, (accepts_iff cfg f).2 ⟨v, cx, cy, h2⟩⟩
  | false =>
    exfalso
    obtain ⟨h1, h2, h3, h4, h5, h6, h7, _⟩ := hg.closed hc
    rcases hx with ⟨r, hr, hr1, hr2⟩ | hx | hx | hx | hx
    · rcases h7 r (by rw [requests_log h]; simp [hr]) with h | h
      · exact hr2 h
      · exact hr1 (by rw [h, hme])
    · exact hx h4
    · exact hx h1
    · exact hx h2
    · exact hx h3

/-- A session for the examples: handshake, a subscription, a transaction with one SEND, a plain SEND. -/
def sampleFrames : List Frame :=
  [sampleConnect,
   ⟨b!"SUBSCRIBE", [(b!"id", b!"1"), (b!"destination", b!"/queue/a")], []⟩,
   ⟨b!"BEGIN", [(b!"transaction", b!"t")], []⟩,
   ⟨b!"SEND", [(b!"destination", b!"/queue/a"), (b!"transaction", b!"t"), (b!"receipt", b!"7")], [1]⟩,
   ⟨b!"SEND", [(b!"destination", b!"/queue/a")], [2]⟩]

/-- Receiving and processing frames one by one, with `n` requests taken after each. -/
def feed (fs : List (Frame × Nat)) : List Conn.Ev :=
  fs.flatMap (fun p => [.recv p.1, .frame true true] ++ List.replicate p.2 .flushed)

/-- The events of the sample session. -/
def sampleRun : List Conn.Ev := feed (sampleFrames.zip [1, 1, 0, 0, 1])

-- C30_gate: the run exists, a request has been made and a frame has taken effect.
example : ((Conn.init 3).run sampleCfg sampleRun).map (fun c => (c.effective.length, c.subs.length, c.tx.length)) = some (1, 1, 1) ∧
    Conn.requests sampleCfg (Conn.init 3) sampleRun =
      [.connected 3, .subscribe ⟨3, 0⟩, .enqueue ⟨⟨3, 0⟩, ⟨b!"MESSAGE", [(b!"destination", b!"/queue/a")], [2]⟩⟩] := by
  decide +kernel

/-- **C30.** If the first frame that arrives is not an acceptable CONNECT or STOMP frame, nothing takes effect: no
subscription is made and the processor is asked for nothing but to note that the connection is gone. Once that frame
is processed the connection is being closed, no further frame is processed, and apart from deliveries of the
environment the only thing ever written is one ERROR frame (nothing if writing fails). -/
theorem C30_refused (cfg : Config) (me : Nat) (es : List Conn.Ev) (c : Conn) (h : (Conn.init me).run cfg es = some c)
    (henv : ∀ e ∈ es, EnvOk e) (f : Frame) (rest : List Frame) (hr : received es = f :: rest) (hn : ¬Spec.accepts cfg.auth f) :
    c.effective = [] ∧ c.subs = [] ∧ c.heap = [] ∧ c.tx = [] ∧
    (∀ r ∈ Conn.requests cfg (Conn.init me) es, r = .disconnected me ∨ r = .requeue none) ∧
    (c.hist = [] ∧ untagged c.out = [] ∨
      c.hist = [f] ∧ c.stage ≠ .run ∧
        ((untagged c.out = [] ∧ c.wfail = true) ∨ ∃ g, untagged c.out = [⟨some g, none⟩] ∧ g.command = b!"ERROR")) := by
  have hg := gate_run cfg me es c h
  have hgr := greeting_run henv h
  have hrec := received_eq h
  have h₀ := h
  have hc : c.connected = false := by
    cases hc : c.connected with
    | false => rfl
    | true =>
      obtain ⟨f', rest', v, cx, cy, h1, h2, _⟩ := hg.opened hc
      rw [hr, h1] at hrec
      injection hrec with e1 e2
      subst e1
      exact absurd ((accepts_iff cfg f).2 ⟨v, cx, cy, h2⟩) hn
  obtain ⟨h1, h2, h3, h4, h5, h6, h7, h8⟩ := hg.closed hc
  refine ⟨h4, h1, h2, h3, ?_, ?_⟩
  · intro r hr
    rcases h7 r (by rw [requests_log h]; simp [hr]) with h | h
    · exact Or.inr h
    · exact Or.inl (by rw [h, me_run h₀])
  · rcases h8 with h8 | ⟨⟨f', h8, _⟩, h9⟩
    · exact Or.inl ⟨h8, hgr.silent h8⟩
    · right
      rw [hr, h8] at hrec
      injection hrec with e1 e2
      subst e1
      exact ⟨h8, h9, hgr.refused hc (by rw [h8]; simp)⟩

-- A SEND before CONNECT is answered by an ERROR and has no effect.
example : ((Conn.init 3).run sampleCfg (feed [(⟨b!"SEND", [(b!"destination", b!"/queue/a")], [2]⟩, 0)])).map
    (fun c => (c.out, c.hist.length, c.stage)) =
    some ([⟨some ⟨b!"ERROR", [(b!"message", b!"expected CONNECT or STOMP frame")], []⟩, none⟩], 1, .discard1) ∧
    ¬Spec.accepts sampleCfg.auth ⟨b!"SEND", [(b!"destination", b!"/queue/a")], [2]⟩ := by
  refine ⟨by decide +kernel, fun h => ?_⟩
  rcases h.command with h | h <;> revert h <;> decide

-- C30: a wrong passcode is refused, the right one is not.
example : ¬Spec.accepts sampleCfg.auth { sampleConnect with header := sampleConnect.header.set b!"passcode" b!"q" } ∧
    Spec.accepts sampleCfg.auth sampleConnect := by
  refine ⟨fun h => ?_, (accepts_iff sampleCfg sampleConnect).2 ⟨b!"1.1", 0, 0, Or.inl rfl, rfl, by decide, rfl, by decide, rfl⟩⟩
  have := h.auth
  revert this; decide

/-! ## C31 -/

theorem tagged_run {cfg : Config} {me : Nat} {es : List Conn.Ev} {c : Conn} (hq : ∀ e ∈ es, EnvOk e)
    (h : (Conn.init me).run cfg es = some c) : ∀ w ∈ c.out, isConnected w = true → w.tag = none := by
  refine (run_inv (P := fun c => ∀ w ∈ c.out, isConnected w = true → w.tag = none) (fun c e c' hg hm _ hp hs => ?_) es c hq
    (by simp [Conn.init]) h).2.2
  intro w hw hcon
  rcases out_step hg hm hs with ⟨h1, _⟩ | ⟨_, _, _, new, h1, h2⟩ | ⟨_, _, h1, _, _⟩ | ⟨_, _, m, a, hmc, _, h1⟩
  · rw [h1] at hw; exact hp w hw hcon
  · rw [h1] at hw
    rcases List.mem_append.1 hw with hw | hw
    · exact hp w hw hcon
    · exact (h2 w hw).1
  · rw [h1] at hw
    rcases List.mem_append.1 hw with hw | hw
    · exact hp w hw hcon
    · rw [List.mem_singleton] at hw; subst hw; rfl
  · rw [h1] at hw
    rcases List.mem_append.1 hw with hw | hw
    · exact hp w hw hcon
    · rw [List.mem_singleton] at hw; subst hw
      exfalso
      have : (m.alloc c.lastMsgId a).frame.command = Cmd.message := by
        show (allocFrame _ _ _).command = _; rw [allocFrame_command]; exact hmc
      unfold isConnected at hcon
      dsimp only at hcon
      rw [this] at hcon
      revert hcon; decide

theorem accepted_version {cfg : Config} {f : Frame} {v : Bytes} {cx cy : Nat} (h : Accepts cfg f v cx cy) :
    ∃ av, Spec.hdr f b!"accept-version" = some av ∧ Spec.highest (splitOn 44 av) = some v ∧ (v = b!"1.1" ∨ v = b!"1.2") := by
  cases ha : Stomp.Spec.firstValue f.header b!"accept-version" with
  | none =>
    exfalso
    have hv := h.version
    rw [C31_absent f ha] at hv
    rcases h.command with h1 | h1
    · rw [if_pos h1] at hv; injection hv with hv; exact h.notV10 hv.symm
    · rw [if_neg (by rw [h1]; decide), if_pos h1] at hv; cases hv
  | some av =>
    have hv := h.version
    rw [C31_highest f av h.command ha] at hv
    refine ⟨av, ha, ?_⟩
    cases hh : Spec.highest (splitOn 44 av) with
    | none => rw [hh] at hv; cases hv
    | some v' =>
      rw [hh] at hv
      injection hv with hv
      subst hv
      refine ⟨rfl, ?_⟩
      unfold Spec.highest at hh
      split at hh
      · injection hh with hh; exact Or.inr hh.symm
      · split at hh
        · injection hh with hh; exact Or.inl hh.symm
        · split at hh
          · injection hh with hh; exact absurd hh.symm h.notV10
          · cases hh

/-- **C31.** Once the first frame has been processed: if it is an acceptable CONNECT or STOMP frame the connection has
written exactly one CONNECTED frame (or none, if writing failed), whose version is the greatest known version listed
in its accept-version header, which is 1.1 or 1.2. If the first frame is not acceptable (for example because
the greatest version is 1.0, or none is known) no CONNECTED frame is ever written. -/
theorem C31_connected (cfg : Config) (me : Nat) (es : List Conn.Ev) (c : Conn) (h : (Conn.init me).run cfg es = some c)
    (henv : ∀ e ∈ es, EnvOk e) (f : Frame) (rest : List Frame) (hh : c.hist = f :: rest) :
    (Spec.accepts cfg.auth f → ∃ av v, Spec.hdr f b!"accept-version" = some av ∧ Spec.highest (splitOn 44 av) = some v ∧
      (v = b!"1.1" ∨ v = b!"1.2") ∧
      ((c.wfail = true ∧ c.out.filter isConnected = []) ∨
        ∃ g, c.out.filter isConnected = [⟨some g, none⟩] ∧ g.command = b!"CONNECTED" ∧ Spec.hdr g b!"version" = some v)) ∧
    (¬Spec.accepts cfg.auth f → c.out.filter isConnected = []) := by
  have hg := gate_run cfg me es c h
  have hgr := greeting_run henv h
  have ht := tagged_run henv h
  have hf : c.out.filter isConnected = (untagged c.out).filter isConnected := by
    unfold untagged
    rw [List.filter_filter]
    apply List.filter_congr
    intro w hw
    cases hw' : isConnected w with
    | false => simp
    | true => simp [ht w hw hw']
  rw [hf]
  constructor
  · intro ha
    cases hc : c.connected with
    | false =>
      exfalso
      obtain ⟨_, _, _, _, _, _, _, h8⟩ := hg.closed hc
      rcases h8 with h8 | ⟨⟨f', h8, h9⟩, _⟩
      · rw [hh] at h8; cases h8
      · rw [hh] at h8; injection h8 with e1 e2; subst e1
        exact h9 ((accepts_iff cfg f).1 ha)
    | true =>
      obtain ⟨f', rest', v, cx, cy, h1, h2, h3⟩ := hgr.accepted hc
      rw [hh] at h1; injection h1 with e1 e2; subst e1
      obtain ⟨av, h4, h5, h6⟩ := accepted_version h2
      refine ⟨av, v, h4, h5, h6, ?_⟩
      rcases h3 with ⟨h3, h7⟩ | ⟨g, r, h7, h8, h9, h10⟩
      · exact Or.inl ⟨h3, by rw [h7]; rfl⟩
      · right
        refine ⟨g, ?_, h8, h9⟩
        rw [h7, List.filter_cons_of_pos (by simp [isConnected, h8])]
        rw [List.filter_eq_nil_iff.2 (fun w hw => by simp [h10 w hw])]
  · intro ha
    cases hc : c.connected with
    | true =>
      exfalso
      obtain ⟨f', rest', v, cx, cy, h1, h2, _⟩ := hg.opened hc
      rw [hh] at h1; injection h1 with e1 e2; subst e1
      exact ha ((accepts_iff cfg f).2 ⟨v, cx, cy, h2⟩)
    | false =>
      rcases hgr.refused hc (by rw [hh]; simp) with ⟨h1, _⟩ | ⟨g, h1, h2⟩
      · rw [h1]; rfl
      · rw [h1, List.filter_eq_nil_iff]
        intro w hw
        rw [List.mem_singleton] at hw; subst hw
        simp only [isConnected, h2]; decide

example : ((Conn.init 3).run sampleCfg sampleRun).map (fun c => c.out.filter isConnected) =
    some [⟨some ⟨b!"CONNECTED", [(b!"version", b!"1.1"), (b!"server", b!"stompd/x.y.z"), (b!"heart-beat", b!"0,0")], []⟩, none⟩] := by
  decide +kernel

/-! ## C32 -/

/-- **C32.** At all times the ids of a connection's subscriptions are distinct. -/
theorem C32_unique (cfg : Config) (me : Nat) (es : List Conn.Ev) (c : Conn) (h : (Conn.init me).run cfg es = some c) :
    (c.subs.map (fun e => (deref c.heap e.2).id)).Nodup ∧ ∀ e ∈ c.subs, e.2 < c.heap.length ∧ (deref c.heap e.2).id = e.1 := by
  have hs := subsOk_run h
  refine ⟨?_, hs.ids⟩
  have : c.subs.map (fun e => (deref c.heap e.2).id) = c.subs.keys := by
    unfold AMap.keys
    exact List.map_congr_left (fun e he => (hs.ids e he).2)
  rw [this]; exact hs.nodup

/-- The frame step in terms of `frame_cases`, for a connection with a subscription or the handshake done. -/
theorem frame_step {cfg : Config} {c c' : Conn} {ok1 ok2 : Bool} {f : Frame} {q : List Frame} (hg : Gate cfg c)
    (hs : c.step cfg (.frame ok1 ok2) = some c') (hq : c.inq = f :: q) (hc : c.connected = true) :
    c.stage = .run ∧ c.outbox = [] ∧ ∃ c1 f' r, Handled { c with inq := q, hist := c.hist ++ [f] } ok1 f c1 f' r ∧ Fin cfg c1 ok2 f' r c' := by
  have hst := step_of cfg c _ c' hs
  cases hst with
  | frame _ _ g q' c1 _ f' r ha hq' hsf hfin =>
    rw [hq] at hq'; injection hq' with e1 e2; subst e1 e2
    rcases frame_cases hg hsf hfin with ⟨h0, _⟩ | ⟨h0, _⟩ | ⟨_, hh', hf⟩
    · rw [hc] at h0; cases h0
    · rw [hc] at h0; cases h0
    · exact ⟨(atSelect_run ha).1, (atSelect_run ha).2, c1, f', r, hh', hf⟩

/-- **C32.** A SUBSCRIBE with the id of an existing subscription, and an UNSUBSCRIBE of an unknown id, is refused: nothing changes, no
request is made, the connection is closed after an ERROR frame (unless writing fails). -/
theorem C32_refused (cfg : Config) (me : Nat) (es : List Conn.Ev) (c c' : Conn) (ok1 ok2 : Bool) (f : Frame) (q : List Frame)
    (h : (Conn.init me).run cfg es = some c) (hs : c.step cfg (.frame ok1 ok2) = some c') (hq : c.inq = f :: q)
    (hc : c.connected = true) (id : Bytes) (hi : Spec.hdr f b!"id" = some id)
    (hf : f.command = b!"SUBSCRIBE" ∧ id ∈ c.subs.map (·.1) ∨ f.command = b!"UNSUBSCRIBE" ∧ id ∉ c.subs.map (·.1)) :
    c'.subs = c.subs ∧ c'.heap = c.heap ∧ c'.log = c.log ∧ c'.outbox = [] ∧ c'.effective = c.effective ∧ c'.stage ≠ .run ∧
    (c'.wfail = true ∧ c'.out = c.out ∨ ∃ g, c'.out = c.out ++ [⟨some g, none⟩] ∧ g.command = b!"ERROR") := by
  have hg := gate_run cfg me es c h
  obtain ⟨_, hob, c1, f', r, hh, hfin⟩ := frame_step hg hs hq hc
  have hi' : f.header.contains Hdr.id = some id := by rw [contains_eq]; exact hi
  have hk : ∀ x, (c.subs.get? x = none) ↔ x ∉ c.subs.map (·.1) := fun x => AMap.get?_none_iff c.subs x
  have key : ∃ e, r = .err e ∧ f' = f ∧ c1 = { c with inq := q, hist := c.hist ++ [f] } := by
    cases hh with
    | basic hnc hb =>
      cases hb with
      | unexpected e _ h => rcases hf with ⟨hf, _⟩ | ⟨hf, _⟩ <;> rw [hf] at h <;> exact absurd h (by decide)
      | refused e => exact ⟨e, rfl, rfl, rfl⟩
      | disconnect hc => rcases hf with ⟨hf, _⟩ | ⟨hf, _⟩ <;> rw [hf] at hc <;> exact absurd hc (by decide)
      | writeFail hc => rcases hf with ⟨hf, _⟩ | ⟨hf, _⟩ <;> rw [hf] at hc <;> exact absurd hc (by decide)
      | txErr e t _ _ hc => rcases hf with ⟨hf, _⟩ | ⟨hf, _⟩ <;> rw [hf] at hc <;> rcases hc with ⟨hc, _⟩ | ⟨hc, _⟩ <;> exact absurd hc (by decide)
      | begin_ _ _ hc => rcases hf with ⟨hf, _⟩ | ⟨hf, _⟩ <;> rw [hf] at hc <;> exact absurd hc (by decide)
      | abort _ _ hc => rcases hf with ⟨hf, _⟩ | ⟨hf, _⟩ <;> rw [hf] at hc <;> exact absurd hc (by decide)
      | store _ _ hc => rcases hf with ⟨hf, _⟩ | ⟨hf, _⟩ <;> rw [hf] at hc <;> exact absurd hc (by decide)
      | subscribe hc id' dest hi'' hd hn =>
        exfalso
        rw [hi'] at hi''; injection hi'' with e; subst e
        rcases hf with ⟨_, hf⟩ | ⟨hf, _⟩
        · exact (hk id).1 hn hf
        · rw [hf] at hc; exact absurd hc (by decide)
      | unsubscribe hc id' hi'' i hs' =>
        exfalso
        rw [hi'] at hi''; injection hi'' with e; subst e
        rcases hf with ⟨hf, _⟩ | ⟨_, hf⟩
        · rw [hf] at hc; exact absurd hc (by decide)
        · rw [← hk, show c.subs.get? id = some i from hs'] at hf; cases hf
      | send hc => rcases hf with ⟨hf, _⟩ | ⟨hf, _⟩ <;> rw [hf] at hc <;> exact absurd hc (by decide)
      | ack hc => rcases hf with ⟨hf, _⟩ | ⟨hf, _⟩ <;> rw [hf] at hc <;> exact absurd hc (by decide)
      | nack hc => rcases hf with ⟨hf, _⟩ | ⟨hf, _⟩ <;> rw [hf] at hc <;> exact absurd hc (by decide)
    | commitMissing hc => rcases hf with ⟨hf, _⟩ | ⟨hf, _⟩ <;> rw [hf] at hc <;> exact absurd hc (by decide)
    | commitWrite hc => rcases hf with ⟨hf, _⟩ | ⟨hf, _⟩ <;> rw [hf] at hc <;> exact absurd hc (by decide)
    | commitUnknown hc => rcases hf with ⟨hf, _⟩ | ⟨hf, _⟩ <;> rw [hf] at hc <;> exact absurd hc (by decide)
    | commit hc => rcases hf with ⟨hf, _⟩ | ⟨hf, _⟩ <;> rw [hf] at hc <;> exact absurd hc (by decide)
  obtain ⟨e, rfl, rfl, rfl⟩ := key
  cases hfin with
  | err e => exact ⟨rfl, rfl, rfl, hob, rfl, by simp, Or.inr ⟨_, rfl, rfl⟩⟩
  | errFail e => exact ⟨rfl, rfl, rfl, hob, rfl, by simp, Or.inl ⟨rfl, rfl⟩⟩

-- A second SUBSCRIBE with id 1, and an UNSUBSCRIBE of id 2, right after the sample session.
example : ((Conn.init 3).run sampleCfg (sampleRun ++ [.recv ⟨b!"SUBSCRIBE", [(b!"id", b!"1"), (b!"destination", b!"/queue/b")], []⟩])).map
      (fun c => (c.connected, c.subs.map (·.1), c.atSelect)) = some (true, [b!"1"], true) ∧
    ((Conn.init 3).run sampleCfg (sampleRun ++ feed [(⟨b!"SUBSCRIBE", [(b!"id", b!"1"), (b!"destination", b!"/queue/b")], []⟩, 0)])).map
      (fun c => (c.out.getLast?, c.stage)) =
      some (some ⟨some ⟨b!"ERROR", [(b!"message", b!"subscription already exists")], []⟩, none⟩, .discard1) ∧
    ((Conn.init 3).run sampleCfg (sampleRun ++ feed [(⟨b!"UNSUBSCRIBE", [(b!"id", b!"2")], []⟩, 0)])).map
      (fun c => (c.out.getLast?, c.stage)) =
      some (some ⟨some ⟨b!"ERROR", [(b!"message", b!"subscription not found")], []⟩, none⟩, .discard1) := by
  decide +kernel

/-! ## C33 -/

/-- **C33.** The SEND, ACK and NACK frames that have taken effect are exactly those the session specification says: frames outside
transactions at once, the frames of a transaction at its COMMIT, in order, each once, without influence between
transactions; nothing of a transaction that was aborted or never committed. The frames processed form a session of the
specification, or all but the last do and the connection is being closed, that last frame being an error (or a write having
failed). The exception is a server about to panic (C42). -/
theorem C33_session (cfg : Config) (me : Nat) (es : List Conn.Ev) (c : Conn) (h : (Conn.init me).run cfg es = some c) :
    .panic ∈ c.outbox ∨
    (∃ st, Spec.After cfg.auth c.hist st ∧ c.effective = st.done ∧
      (c.stage = .run → (∀ t, c.tx.get? t = st.tx t) ∧ ∀ id, (c.subs.get? id).isSome = st.subs id)) ∨
    (c.stage ≠ .run ∧ ∃ h f st, c.hist = h ++ [f] ∧ Spec.After cfg.auth h st ∧ c.effective = st.done ∧
      ((¬∃ st', Spec.Step cfg.auth st f st') ∨ c.wfail = true)) := by
  rcases sess_run cfg me es c h with h | ⟨st, h1, h2, h3⟩ | h
  · exact Or.inl h
  · exact Or.inr (Or.inl ⟨st, h1, h2, fun hr => ⟨(h3 hr).tx, (h3 hr).subs⟩⟩)
  · exact Or.inr (Or.inr h)

/-- **C33.** The messages the processor is asked to enqueue (including requests still waiting for the request channel)
are the SEND frames that took effect, in order, as MESSAGE frames. -/
theorem C33_requests (cfg : Config) (me : Nat) (es : List Conn.Ev) (c : Conn) (h : (Conn.init me).run cfg es = some c) :
    enqueues (Conn.requests cfg (Conn.init me) es ++ pending c.outbox) = Spec.messages me 0 c.effective := by
  have hs := sends_run h
  rw [← requests_log h, hs.log, me_run h]

-- In the sample session the SEND inside the open transaction has had no effect; a COMMIT makes it effective, an ABORT does not.
example : ((Conn.init 3).run sampleCfg sampleRun).map (fun c => (c.hist == sampleFrames, c.effective)) =
      some (true, [⟨b!"SEND", [(b!"destination", b!"/queue/a")], [2]⟩]) ∧
    ((Conn.init 3).run sampleCfg (sampleRun ++ feed [(⟨b!"COMMIT", [(b!"transaction", b!"t")], []⟩, 1)])).map (fun c => (c.effective, c.outbox)) =
      some ([⟨b!"SEND", [(b!"destination", b!"/queue/a")], [2]⟩, ⟨b!"SEND", [(b!"destination", b!"/queue/a")], [1]⟩], []) ∧
    ((Conn.init 3).run sampleCfg (sampleRun ++ feed [(⟨b!"ABORT", [(b!"transaction", b!"t")], []⟩, 0)])).map (fun c => (c.effective, c.tx.length)) =
      some ([⟨b!"SEND", [(b!"destination", b!"/queue/a")], [2]⟩], 0) := by
  decide +kernel

/-- **C33.** COMMIT does to the connection (apart from its records of processed frames and open transactions) exactly
what processing the frames of the transaction one after the other outside a transaction does; the transaction is closed
and other transactions are as before. A transaction whose ACKs make the server panic is excepted (C42). -/
theorem C33_commit (cfg : Config) (me : Nat) (es : List Conn.Ev) (c : Conn) (ok1 ok2 : Bool) (f : Frame)
    (h : (Conn.init me).run cfg es = some c) (hc : c.connected = true) (hf : f.command = b!"COMMIT")
    (hr : Spec.hdr f b!"receipt" = none) (t : Bytes) (ht : Spec.hdr f b!"transaction" = some t) (l : List Frame)
    (hl : c.tx.get? t = some l) (hp : .panic ∉ (c.processFrame cfg ok1 ok2 f).outbox) :
    erase (c.processFrame cfg ok1 ok2 f) = erase (l.foldl (fun c g => c.processFrame cfg ok1 ok2 g) c) ∧
    (c.processFrame cfg ok1 ok2 f).tx = c.tx.del t ∧ (c.processFrame cfg ok1 ok2 f).stage = c.stage := by
  have hg := gate_run cfg me es c h
  have hr' : f.header.contains Hdr.receipt = none := by rw [contains_eq]; exact hr
  have ht' : f.header.contains Hdr.transaction = some t := by rw [contains_eq]; exact ht
  have hst := hg.tx t l hl
  have hcm := committed ok1 l ({ c with hist := c.hist ++ [f] } : Conn) hst
  have hres := hcm.res
  have e : ({ c with hist := c.hist ++ [f] } : Conn).stateFunc cfg ok1 f =
      ({ (({ c with hist := c.hist ++ [f] } : Conn).commitLoop ok1 l).1 with tx := c.tx.del t }, f,
        (({ c with hist := c.hist ++ [f] } : Conn).commitLoop ok1 l).2) := by
    unfold Conn.stateFunc
    rw [if_neg (by simp [hc]), if_pos (show f.command = Cmd.commit from hf)]
    simp only [Conn.handleCommit, ht', Conn.sendReceipt, hr', Bool.not_true, Bool.false_eq_true, if_false, TxStore.commit, hl]
  rcases hres with hres | hres
  · rw [hres] at e
    have hpf : c.processFrame cfg ok1 ok2 f =
        { (({ c with hist := c.hist ++ [f] } : Conn).commitLoop ok1 l).1 with tx := c.tx.del t } := by
      unfold Conn.processFrame; rw [e]
    rw [hpf]
    refine ⟨?_, rfl, hcm.keeps.stage⟩
    rw [commit_erase cfg ok1 ok2 l hst ({ c with hist := c.hist ++ [f] } : Conn) c rfl hc hres]
    rfl
  · exfalso
    rw [hres] at e
    apply hp
    unfold Conn.processFrame
    rw [e]
    simp

/-- **C33.** While a frame is only stored in a transaction (or a transaction is begun or aborted) nothing else changes: no request,
no acknowledgement, no subscription. -/
theorem C33_no_effect (cfg : Config) (me : Nat) (es : List Conn.Ev) (c c' : Conn) (ok1 ok2 : Bool) (f : Frame) (q : List Frame)
    (h : (Conn.init me).run cfg es = some c) (hs : c.step cfg (.frame ok1 ok2) = some c') (hq : c.inq = f :: q)
    (hc : c.connected = true) (t : Bytes) (ht : Spec.hdr f b!"transaction" = some t)
    (hf : f.command = b!"SEND" ∨ f.command = b!"ACK" ∨ f.command = b!"NACK" ∨ f.command = b!"BEGIN" ∨ f.command = b!"ABORT") :
    c'.effective = c.effective ∧ c'.log = c.log ∧ c'.outbox = [] ∧ c'.subs = c.subs ∧ c'.heap = c.heap ∧ c'.subList = c.subList ∧
    c'.acked = c.acked ∧ c'.sent = c.sent := by
  have hg := gate_run cfg me es c h
  obtain ⟨_, hob, c1, f', r, hh, hfin⟩ := frame_step hg hs hq hc
  have ht' : f.header.contains Hdr.transaction = some t := by rw [contains_eq]; exact ht
  have key : r ≠ .panic ∧ c1.effective = c.effective ∧ c1.log = c.log ∧ c1.outbox = [] ∧ c1.subs = c.subs ∧ c1.heap = c.heap ∧
      c1.subList = c.subList ∧ c1.acked = c.acked ∧ c1.sent = c.sent := by
    have rc : ∀ {c1 : Conn} {f1 : Frame} {k : Bool}, Rcpt { c with inq := q, hist := c.hist ++ [f] } ok1 f c1 f1 k →
        c1.effective = c.effective ∧ c1.log = c.log ∧ c1.outbox = [] ∧ c1.subs = c.subs ∧ c1.heap = c.heap ∧
        c1.subList = c.subList ∧ c1.acked = c.acked ∧ c1.sent = c.sent := by
      intro c1 f1 k hr
      have := hr.frame
      exact ⟨this.1, this.2.2.2.2.2.1, this.2.2.1.trans hob, this.2.1, this.2.2.2.1, this.2.2.2.2.1, this.2.2.2.2.2.2.2.1, this.2.2.2.2.2.2.1⟩
    have nc : ∀ x : Bytes, f.command = x → x ≠ b!"SEND" → x ≠ b!"ACK" → x ≠ b!"NACK" → x ≠ b!"BEGIN" → x ≠ b!"ABORT" → False := by
      intro x hx a b d e g
      rcases hf with hf | hf | hf | hf | hf <;> rw [hf] at hx
      · exact a hx.symm
      · exact b hx.symm
      · exact d hx.symm
      · exact e hx.symm
      · exact g hx.symm
    cases hh with
    | basic hnc hb =>
      cases hb with
      | unexpected e => exact ⟨by simp, rfl, rfl, hob, rfl, rfl, rfl, rfl, rfl⟩
      | refused e => exact ⟨by simp, rfl, rfl, hob, rfl, rfl, rfl, rfl, rfl⟩
      | disconnect hc hr => exact ⟨by simp, rc hr⟩
      | writeFail hc hr => exact ⟨by simp, rc hr⟩
      | txErr e t _ _ hc hr => exact ⟨by simp, rc hr⟩
      | begin_ _ _ hc _ hr => exact ⟨by simp, (have := rc hr; this)⟩
      | abort _ _ hc _ _ hr => exact ⟨by simp, (have := rc hr; this)⟩
      | store _ _ hc _ _ _ hr => exact ⟨by simp, (have := rc hr; this)⟩
      | subscribe hc => exact (nc _ hc (by decide) (by decide) (by decide) (by decide) (by decide)).elim
      | unsubscribe hc => exact (nc _ hc (by decide) (by decide) (by decide) (by decide) (by decide)).elim
      | send hc ht'' => rw [ht'] at ht''; cases ht''
      | ack hc ht'' => rw [ht'] at ht''; cases ht''
      | nack hc ht'' => rw [ht'] at ht''; cases ht''
    | commitMissing hc => exact (nc _ hc (by decide) (by decide) (by decide) (by decide) (by decide)).elim
    | commitWrite hc => exact (nc _ hc (by decide) (by decide) (by decide) (by decide) (by decide)).elim
    | commitUnknown hc => exact (nc _ hc (by decide) (by decide) (by decide) (by decide) (by decide)).elim
    | commit hc => exact (nc _ hc (by decide) (by decide) (by decide) (by decide) (by decide)).elim
  obtain ⟨hr, key⟩ := key
  cases hfin with
  | ok => exact key
  | panic => exact absurd rfl hr
  | err e => exact (have := key; this)
  | errFail e => exact (have := key; this)

-- The fourth frame of the sample session is such a frame; and committing it is processing the SEND directly.
example : ((Conn.init 3).run sampleCfg (feed (sampleFrames.take 3 |>.zip [1, 1, 0]))).map
      (fun c => (c.connected, c.atSelect, AMap.get? c.tx b!"t")) = some (true, true, some []) ∧
    ((Conn.init 3).run sampleCfg sampleRun).map (fun c => (c.connected, c.outbox, AMap.get? c.tx b!"t",
        (c.processFrame sampleCfg true true ⟨b!"COMMIT", [(b!"transaction", b!"t")], []⟩).outbox)) =
      some (true, [], some [⟨b!"SEND", [(b!"destination", b!"/queue/a")], [1]⟩],
        [.req (.enqueue ⟨⟨3, 1⟩, ⟨b!"MESSAGE", [(b!"destination", b!"/queue/a")], [1]⟩⟩)]) := by
  decide +kernel

end Stomp.Server
