import Verif.Proofs.Client.TxSystem
/-!
# C71: a transaction on the wire

`Spec/TxSystem.lean`: the frames of a transaction should be a BEGIN, then SENDs, ACKs and NACKs, then at most one COMMIT or ABORT, and nothing after it (`Bracket`). `completed` is a plain field that is
tested before the frame is sent and set after, so this is so only if the methods are called one after the other, and if `Commit` and `Abort` do not fail.
-/
namespace Stomp.Client
open Stomp

/-- **C71.** The client with transactions makes only executions of the client system (C19–C29, C49, C53 hold of it). -/
theorem C71_sound {cfg : Cfg} {version : Bytes} {m : Nat} {es : List XEv} {x : XSys} (h : (XSys.init m).run cfg version es = some x) :
    ∃ es', (Sys.init m).run cfg es' = some x.sys := (base_run h).reach

/-- **C71**, with any number of goroutines: when a `Commit` or `Abort` has returned nil, every method that has not tested `completed` yet, or is called later, sends nothing and can only return
`ErrCompletedTransaction`. -/
theorem C71_refused {cfg : Cfg} {version : Bytes} {m : Nat} {es es' : List XEv} {x x' : XSys} (h : (XSys.init m).run cfg version es = some x)
    (h' : x.run cfg version es' = some x') {j : Nat} {th : XThread} (hj : x.threads[j]? = some th) (he : th.call.ends = true) (hr : th.pc = .ret .ok)
    {k : Nat} {th' : XThread} (hk : x'.threads[k]? = some th') (ht : th'.tx = th.tx) (hs : x.threads.length ≤ k ∨ ∃ a, x.threads[k]? = some a ∧ a.pc = .start) :
    th'.via = none ∧ (th'.pc = .start ∨ th'.pc = .ret .completedTx) := by
  have hb := base_run h
  obtain ⟨o, ho, hok⟩ := hb.ths j th hj
  have h0 : XShut th.tx (fun k => x.threads.length ≤ k ∨ ∃ a, x.threads[k]? = some a ∧ a.pc = .start) x := by
    refine ⟨⟨o, ho, hok.done he hr⟩, fun _ h => .inl h, ?_⟩
    rintro k a (hk | ⟨b, hb1, hb2⟩) ha _
    · have := (List.getElem?_eq_some_iff.1 ha).1
      omega
    · rw [ha] at hb1; cases hb1
      obtain ⟨o', _, hok'⟩ := hb.ths k a ha
      exact ⟨hok'.start hb2, .inl hb2⟩
  exact (xrun_induction (P := XShut th.tx _) (fun _ _ _ hp hs => xshut_step hp (xstep_cases hs).2) es' _ _ h0 h').ths k th' hs hk ht

/-- **C71**, partial: only for transactions whose methods are called one after the other and whose `Begin`, `Commit` and `Abort` do not fail (below: what happens otherwise). The frames of such a transaction
that are handed over are, in order, a BEGIN, then SENDs, ACKs and NACKs, then at most one COMMIT or ABORT, and nothing after it; other calls of the client (and other transactions) can go on at the same
time. The ids must be distinct (C17: they are). -/
theorem C71_in_turn_partial {cfg : Cfg} {version : Bytes} {m : Nat} {x : XSys} (h : Spec.Orderly cfg version m x) {i : Nat} {o : XTx} (ho : x.txs[i]? = some o)
    (hd : (x.txs.map (·.tx.id)).Nodup) (hu : Spec.Unfailing x i) :
    Spec.Bracket (((Spec.handedOver x.sys).map (·.frame)).filter (Spec.inTx o.tx.id)) := by
  obtain ⟨hb, ht⟩ := turn_orderly h
  have := bracket_of hb ht hd ho hu
  have e : Spec.handedOver x.sys = (acceptedIn x.sys.trace).map (·.2) := by
    simp only [Spec.handedOver, acceptedIn, List.map_filterMap]
    congr 1
    funext o
    cases o <;> rfl
  rw [e, List.map_map, List.filter_map]
  exact this

/-- **C71**, partial (as above): the same of the frames written. -/
theorem C71_written_partial {cfg : Cfg} {version : Bytes} {m : Nat} {x : XSys} (h : Spec.Orderly cfg version m x) {i : Nat} {o : XTx} (ho : x.txs[i]? = some o)
    (hd : (x.txs.map (·.tx.id)).Nodup) (hu : Spec.Unfailing x i) : Spec.Bracket ((Spec.written x.sys).filter (Spec.inTx o.tx.id)) := by
  obtain ⟨es, hes⟩ := (turn_orderly h).1.reach
  obtain ⟨out, rest, h1, h2⟩ := C21_prefix hes
  refine bracket_prefix (C71_in_turn_partial h ho hd hu) ?_
  have e : ∀ l : List Req, (l.filterMap fun r => Spec.wire r.frame).filter (Spec.inTx o.tx.id) = (l.map (·.frame)).filter (Spec.inTx o.tx.id) := by
    intro l
    induction l with
    | nil => rfl
    | cons r l ih =>
      rw [List.filterMap_cons, List.map_cons]
      by_cases hin : Spec.inTx o.tx.id r.frame = true
      · have hw : Spec.wire r.frame = some r.frame := by
          simp only [Spec.inTx, decide_eq_true_eq] at hin
          refine wire_plain ⟨?_, ?_⟩ <;> (intro hc; rw [hc] at hin; exact absurd hin.1 (by decide))
        rw [hw]
        simp only
        rw [List.filter_cons_of_pos hin, List.filter_cons_of_pos hin, ih]
      · rw [List.filter_cons_of_neg hin, ← ih]
        cases hw : Spec.wire r.frame with
        | none => rfl
        | some g =>
          simp only
          refine List.filter_cons_of_neg ?_
          intro hg
          refine hin ?_
          have hc : g.command ≠ Cmd.unsubscribe := by
            simp only [Spec.inTx, decide_eq_true_eq] at hg
            intro hc; rw [hc] at hg; exact absurd hg.1 (by decide)
          rw [(wire_same hw hc).1]; exact hg
  rw [h2, e, h1, List.map_append, List.filter_append]
  exact List.prefix_append _ _

/-! ## What is wrong with other sequences -/

/-- After a COMMIT or ABORT of a transaction a frame of this transaction is a protocol error, unless it is a BEGIN. -/
theorem no_session {auth : Bytes → Bytes → Bool} {l : List Frame} {c g : Frame} {t : Bytes} {st : Server.Spec.St} (hc : c.command = b!"COMMIT" ∨ c.command = b!"ABORT")
    (ht : Server.Spec.hdr c b!"transaction" = some t) (hg : Server.Spec.operation g ∨ g.command = b!"COMMIT" ∨ g.command = b!"ABORT")
    (ht' : Server.Spec.hdr g b!"transaction" = some t) : ¬Server.Spec.After auth (l ++ [c, g]) st := by
  have inv : ∀ {fs : List Frame} {f : Frame} {st' : Server.Spec.St}, Server.Spec.After auth (fs ++ [f]) st' → ∃ st, Server.Spec.After auth fs st ∧ Server.Spec.Step auth st f st' := by
    intro fs f st' h
    generalize hl : fs ++ [f] = l' at h
    cases h with
    | nil => simp at hl
    | snoc h hs =>
      obtain ⟨h1, h2⟩ := List.append_inj' hl rfl
      cases h1; cases h2
      exact ⟨_, h, hs⟩
  intro h
  rw [show l ++ [c, g] = (l ++ [c]) ++ [g] by simp] at h
  obtain ⟨st1, h1, h2⟩ := inv h
  obtain ⟨st0, _, h3⟩ := inv h1
  have none1 : st1.tx t = none := by
    cases h3 with
    | abort t' _ _ _ h5 => rw [ht] at h5; cases h5; simp [Server.Spec.upd]
    | commit t' _ _ _ h5 => rw [ht] at h5; cases h5; simp [Server.Spec.upd]
    | connect _ ha => have := ha.command; rcases hc with hc | hc <;> rw [hc] at this <;> exact absurd this (by decide)
    | disconnect _ h => rcases hc with hc | hc <;> rw [hc] at h <;> exact absurd h (by decide)
    | begin_ _ _ h => rcases hc with hc | hc <;> rw [hc] at h <;> exact absurd h (by decide)
    | subscribe _ _ _ h => rcases hc with hc | hc <;> rw [hc] at h <;> exact absurd h (by decide)
    | unsubscribe _ _ h => rcases hc with hc | hc <;> rw [hc] at h <;> exact absurd h (by decide)
    | hold _ _ _ h => rcases h with h | ⟨h | h, _⟩ <;> rcases hc with hc | hc <;> rw [hc] at h <;> exact absurd h (by decide)
    | now _ h => rcases h with h | ⟨h | h, _⟩ <;> rcases hc with hc | hc <;> rw [hc] at h <;> exact absurd h (by decide)
  have cmd : ∀ k, g.command = k → k ∈ [b!"SEND", b!"ACK", b!"NACK", b!"COMMIT", b!"ABORT"] := by
    rintro k rfl
    rcases hg with (h | h | h) | h | h <;> rw [h] <;> decide
  cases h2 with
  | abort _ _ _ _ h5 h6 => rw [ht'] at h5; cases h5; rw [none1] at h6; cases h6
  | commit _ _ _ _ h5 h6 => rw [ht'] at h5; cases h5; rw [none1] at h6; cases h6
  | hold _ _ _ _ h5 h6 => rw [ht'] at h5; cases h5; rw [none1] at h6; cases h6
  | now _ _ h5 => rw [ht'] at h5; cases h5
  | connect _ ha =>
    rcases ha.command with h | h
    · exact absurd (cmd _ h) (by decide)
    · exact absurd (cmd _ h) (by decide)
  | disconnect _ h' => exact absurd (cmd _ h') (by decide)
  | begin_ _ _ h' => exact absurd (cmd _ h') (by decide)
  | subscribe _ _ _ h' => exact absurd (cmd _ h') (by decide)
  | unsubscribe _ _ h' => exact absurd (cmd _ h') (by decide)

/-! ## Examples -/

namespace Ex

/-- The computable form of `InTurn`. -/
def turnB (x : XSys) : XEv → Bool
  | .method i _ => x.threads.all fun th => th.tx ≠ i || (match th.pc with | .ret _ => true | _ => false)
  | .sys (.call (.send _ _ _ opts)) => opts.all fun o => match o with | .header k _ => k ≠ b!"transaction" | _ => true
  | _ => true

def turnsB (cfg : Cfg) (version : Bytes) (x : XSys) : List XEv → Bool
  | [] => true
  | e :: es => turnB x e && match x.step cfg version e with | some x' => turnsB cfg version x' es | none => true

theorem turnB_spec {x : XSys} {e : XEv} (h : turnB x e = true) : Spec.InTurn x e := by
  unfold turnB at h
  split at h
  · intro th hth hi
    have := List.all_eq_true.1 h th hth
    simp only [hi, ne_eq, not_true_eq_false, decide_false, Bool.false_or] at this
    split at this
    · rename_i r hr; exact ⟨r, hr⟩
    · cases this
  · intro v hv
    have := List.all_eq_true.1 h _ hv
    simp at this
  · rename_i h1 h2
    unfold Spec.InTurn
    split
    · exact absurd rfl (h1 _ _)
    · exact absurd rfl (h2 _ _ _ _)
    · trivial

theorem orderly_of {cfg : Cfg} {version : Bytes} {m : Nat} : ∀ {es : List XEv} {x x' : XSys}, Spec.Orderly cfg version m x → turnsB cfg version x es = true →
    x.run cfg version es = some x' → Spec.Orderly cfg version m x'
  | [], x, x', h, _, hr => by cases hr; exact h
  | e :: es, x, x', h, ht, hr => by
    unfold XSys.run at hr
    obtain ⟨x1, h1, h2⟩ := Option.bind_eq_some_iff.1 hr
    unfold turnsB at ht
    rw [h1, Bool.and_eq_true] at ht
    exact orderly_of (.step h (turnB_spec ht.1) h1) ht.2 h2

/-- Call number `n` of `sendFrame` runs to its end. -/
def goes (n : Nat) : List XEv := [.sys (.thread n), .sys (.thread n)]
def flush : XEv := .sys (.loopWrite true [])

def xafter (es : List XEv) : XSys := ((XSys.init 0).run cfg b!"1.1" es).getD (XSys.init 0)
theorem xrun_after {es : List XEv} (h : ((XSys.init 0).run cfg b!"1.1" es).isSome = true) : (XSys.init 0).run cfg b!"1.1" es = some (xafter es) := by
  unfold xafter
  obtain ⟨x, hx⟩ := Option.isSome_iff_exists.1 h
  rw [hx]; rfl

/-- A transaction, then a `Send` in it, an ordinary `Send` by another goroutine, a `Commit`, a `Send` that comes too late. -/
def orderly : List XEv :=
  [.begin_] ++ goes 0 ++ [.method 0 (.send b!"/q" [] b!"x" []), .go 0] ++ [.sys (.call (.send b!"/q" [] b!"y" [.header b!"a" b!"b"]))] ++ goes 2 ++ goes 1 ++ [flush, flush, .back 0] ++
  [.method 0 (.commit false), .go 1] ++ goes 3 ++ [.back 1, .method 0 (.send b!"/q" [] b!"z" []), .go 2, flush, flush]

/-- Two goroutines commit. -/
def twoCommits : List XEv :=
  [.begin_] ++ goes 0 ++ [.method 0 (.commit false), .method 0 (.commit false), .go 0, .go 1] ++ goes 1 ++ goes 2 ++ [.back 0, .back 1, flush, flush, flush]

/-- One goroutine sends, another commits. -/
def lateSend : List XEv :=
  [.begin_] ++ goes 0 ++ [.method 0 (.send b!"/q" [] b!"x" []), .method 0 (.commit false), .go 0, .go 1] ++ goes 2 ++ [.back 1] ++ goes 1 ++ [.back 0, flush, flush, flush]

/-- The receipt of a `CommitWithReceipt` does not come in time; the program tries again. -/
def again : List XEv :=
  [.begin_] ++ goes 0 ++ [flush, .method 0 (.commit true), .go 0] ++ goes 1 ++ [flush, .sys (.timeout 1), .back 0, .method 0 (.commit false), .go 1] ++ goes 2 ++ [.back 1, flush]

theorem orderly_run : (XSys.init 0).run cfg b!"1.1" orderly = some (xafter orderly) := xrun_after (by decide +kernel)
theorem orderly_ok : Spec.Orderly cfg b!"1.1" 0 (xafter orderly) := orderly_of .init (by decide +kernel) orderly_run
theorem again_ok : Spec.Orderly cfg b!"1.1" 0 (xafter again) := orderly_of .init (by decide +kernel) (xrun_after (by decide +kernel))

def begin1 : Frame := ⟨b!"BEGIN", [(b!"transaction", b!"1")], []⟩
def commit1 : Frame := ⟨b!"COMMIT", [(b!"transaction", b!"1")], []⟩
def commitR : Frame := ⟨b!"COMMIT", [(b!"transaction", b!"1"), (b!"receipt", b!"2")], []⟩
def send1 : Frame := ⟨b!"SEND", [(b!"content-length", b!"1"), (b!"destination", b!"/q"), (b!"transaction", b!"1")], b!"x"⟩

end Ex

/-- **C71** is false as worded: two goroutines commit the same transaction, both get nil, and two COMMITs are written. No server can accept this, whatever came before. -/
theorem C71_two_commits_false : ∃ (cfg : Cfg) (version : Bytes) (es : List XEv) (x : XSys), (XSys.init 0).run cfg version es = some x ∧
    x.threads.map (fun th => (th.call, th.pc)) = [(.commit false, .ret .ok), (.commit false, .ret .ok)] ∧ Spec.written x.sys = [Ex.begin1, Ex.commit1, Ex.commit1] ∧
    ∀ auth hello st, ¬Server.Spec.After auth (hello :: Spec.written x.sys) st := by
  refine ⟨Ex.cfg, b!"1.1", Ex.twoCommits, Ex.xafter Ex.twoCommits, Ex.xrun_after (by decide +kernel), by decide +kernel, by decide +kernel, fun auth hello st => ?_⟩
  rw [show Spec.written (Ex.xafter Ex.twoCommits).sys = [Ex.begin1, Ex.commit1, Ex.commit1] by decide +kernel]
  exact no_session (l := [hello, Ex.begin1]) (t := b!"1") (.inl rfl) (by decide) (.inr (.inl rfl)) (by decide)

/-- **C71** is false as worded: a `Send` that has tested `completed` goes out after the COMMIT of another goroutine; both return nil. -/
theorem C71_late_send_false : ∃ (cfg : Cfg) (version : Bytes) (es : List XEv) (x : XSys), (XSys.init 0).run cfg version es = some x ∧
    x.threads.map (fun th => (th.call, th.pc)) = [(.send b!"/q" [] b!"x" [], .ret .ok), (.commit false, .ret .ok)] ∧
    Spec.written x.sys = [Ex.begin1, Ex.commit1, Ex.send1] ∧ ∀ auth hello st, ¬Server.Spec.After auth (hello :: Spec.written x.sys) st := by
  refine ⟨Ex.cfg, b!"1.1", Ex.lateSend, Ex.xafter Ex.lateSend, Ex.xrun_after (by decide +kernel), by decide +kernel, by decide +kernel, fun auth hello st => ?_⟩
  rw [show Spec.written (Ex.xafter Ex.lateSend).sys = [Ex.begin1, Ex.commit1, Ex.send1] by decide +kernel]
  exact no_session (l := [hello, Ex.begin1]) (t := b!"1") (.inl rfl) (by decide) (.inl (.inl rfl)) (by decide)

/-- **C71** is false as worded even of one goroutine: a `CommitWithReceipt` whose receipt does not come in time returns an error though its COMMIT was written, and the transaction can be used on; the
next `Commit` writes another COMMIT. -/
theorem C71_timeout_false : ∃ (cfg : Cfg) (version : Bytes) (x : XSys), Spec.Orderly cfg version 0 x ∧ (x.txs.map (·.tx.id)).Nodup ∧
    x.threads.map (fun th => (th.call, th.pc)) = [(.commit true, .ret (.failed .closedUnexpectedly)), (.commit false, .ret .ok)] ∧
    Spec.written x.sys = [Ex.begin1, Ex.commitR, Ex.commit1] ∧ ∀ auth hello st, ¬Server.Spec.After auth (hello :: Spec.written x.sys) st := by
  refine ⟨Ex.cfg, b!"1.1", Ex.xafter Ex.again, Ex.again_ok, by decide +kernel, by decide +kernel, by decide +kernel, fun auth hello st => ?_⟩
  rw [show Spec.written (Ex.xafter Ex.again).sys = [Ex.begin1, Ex.commitR, Ex.commit1] by decide +kernel]
  exact no_session (l := [hello, Ex.begin1]) (t := b!"1") (.inl rfl) (by decide) (.inr (.inl rfl)) (by decide)

/-- The hypotheses of the partial theorems are met by an execution with a `Send` of another goroutine in between and a `Send` that is refused. -/
example : (Ex.xafter Ex.orderly).txs = [⟨⟨b!"1", true⟩, 0⟩] ∧ ((Ex.xafter Ex.orderly).txs.map (·.tx.id)).Nodup := by decide +kernel
example : Spec.Unfailing (Ex.xafter Ex.orderly) 0 := by
  have h : ∀ n, (Ex.xafter Ex.orderly).sys.returned n ∈ [some .ok, none] := by
    intro n
    have : ∀ n < 4, (Ex.xafter Ex.orderly).sys.returned n ∈ [some .ok, none] := by decide +kernel
    by_cases hn : n < 4
    · exact this n hn
    · have : (Ex.xafter Ex.orderly).sys.threads.length = 4 := by decide +kernel
      unfold Sys.returned
      rw [List.getElem?_eq_none (by omega)]
      simp
  have h' : ∀ n r, (Ex.xafter Ex.orderly).sys.returned n = some r → r = .ok := by
    intro n r hr
    have := h n
    rw [hr] at this
    simpa using this
  exact ⟨fun _ _ r hr => h' _ r hr, fun _ _ _ _ n _ r hr => h' n r hr⟩
example : (Spec.written (Ex.xafter Ex.orderly).sys).filter (Spec.inTx b!"1") = [Ex.begin1, Ex.send1, Ex.commit1] ∧ (Spec.written (Ex.xafter Ex.orderly).sys).length = 4 := by decide +kernel
/-- An `Ack` and a `Nack` of the connection itself, in between. -/
example : Spec.written (Ex.xafter ([.begin_] ++ Ex.goes 0 ++ [.sys (.call (.frame ⟨b!"ACK", [(b!"message-id", b!"7")], []⟩))] ++ Ex.goes 1 ++
    [.sys (.call (.frame ⟨b!"NACK", [(b!"message-id", b!"8")], []⟩))] ++ Ex.goes 2 ++ [Ex.flush, Ex.flush, Ex.flush])).sys =
    [Ex.begin1, ⟨b!"ACK", [(b!"message-id", b!"7")], []⟩, ⟨b!"NACK", [(b!"message-id", b!"8")], []⟩] := by decide +kernel
/-- The hypotheses of `C71_refused`. -/
example : (Ex.xafter Ex.orderly).threads.map (fun th => (th.call.ends, th.pc, th.via)) = [(false, .ret .ok, some 1), (true, .ret .ok, some 3), (false, .ret .completedTx, none)] := by decide +kernel
/-- No such sequence is a `Bracket`. -/
example : ¬Spec.Bracket [Ex.begin1, Ex.commit1, Ex.commit1] := by
  rintro ⟨b, ops, e, h, hb, he, h1, h2, h3, h4⟩
  have : ∀ f ∈ ops, f ∈ [Ex.begin1, Ex.commit1, Ex.commit1] := fun f hf => by rw [h]; simp [hf]
  cases ops with
  | nil =>
    have := congrArg List.length h
    simp at this; omega
  | cons f ops =>
    have h5 := this f List.mem_cons_self
    have h6 := h2 f List.mem_cons_self
    simp only [List.mem_cons, List.not_mem_nil, or_false] at h5
    rcases h5 with rfl | rfl | rfl <;> rcases h6 with h6 | h6 | h6 <;> exact absurd h6 (by decide)

end Stomp.Client
