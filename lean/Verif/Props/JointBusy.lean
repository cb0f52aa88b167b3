import Verif.Proofs.Joint.Busy
import Verif.Props.Once
import Verif.Proofs.Client.Unmet
/-! # C76: what server and clients do by themselves comes to an end, and then everything has arrived -/
namespace Stomp.Joint
open Stomp

theorem joint_snoc {cfg : Server.Config} {es : List Ev} {s0 s s' : State} {e : Ev} (h : s0.run cfg es = some s) (hs : s.step cfg e = some s') : s0.run cfg (es ++ [e]) = some s' := by
  induction es generalizing s0 with
  | nil => simp only [State.run, Option.some.injEq] at h; subst h; simp only [List.nil_append, State.run, hs]
  | cons e0 es ih =>
    simp only [State.run] at h
    simp only [List.cons_append, State.run]
    split at h
    · exact ih h
    · cases h

/-- **C76** (1). What server and clients do by themselves comes to an end: no execution goes on for ever without a new connection, a new call, a failure seen by a reader, or a heart-beat. -/
theorem C76_ends (cfg : Server.Config) (es : List Ev) (f : Nat → State) (h0 : State.init.run cfg es = some (f 0)) :
    ¬∀ n, ∃ e, Spec.Own e ∧ (f n).step cfg e = some (f (n + 1)) := by
  intro hf
  have hr : ∀ n, Parts cfg (f n) := by
    intro n
    induction n with
    | zero => exact parts_run (parts_init cfg) h0
    | succ n ih => obtain ⟨e, _, hs⟩ := hf n; exact parts_step ih hs
  have hl : ∀ n, (f n).Less (f (n + 1)) := by
    intro n
    obtain ⟨e, ho, hs⟩ := hf n
    exact joint_less (hr n) ho hs
  have : ∀ s, ∀ n, f n = s → False := by
    intro s
    induction s using joint_less_wf.induction with
    | _ s ih =>
      intro n hn
      exact ih _ (by rw [← hn]; exact hl n) (n + 1) rfl
  exact this _ 0 rfl

theorem joint_prompt {e : Ev} (h : Spec.Prompt e) : Spec.Own e := by
  cases e with
  | client c n e => cases e <;> first | exact h | exact h.elim
  | _ => exact h

theorem joint_smooth {cfg : Server.Config} {s s' : State} {e : Ev} (ho : Spec.Prompt e) (h : s.step cfg e = some s') :
    ∃ e' s'', Spec.Prompt e' ∧ Spec.Smooth s e' ∧ s.step cfg e' = some s'' := by
  cases e with
  | dial => exact ho.elim
  | welcome => exact ⟨_, _, ho, trivial, h⟩
  | server n e =>
    by_cases hown : Server.Spec.Own e
    · unfold State.step at h
      dsimp only at h
      split at h
      · split at h
        · rename_i srv hsrv
          obtain ⟨e', s'', h1, h2, h3⟩ := Server.smooth_step hown hsrv
          have hcan : s.can n e' = true := by
            cases e' with
            | conn c x => cases x <;> first | rfl | exact h1.elim
            | _ => first | rfl | exact h1.elim
          have hpr : Spec.Prompt (.server n e') := by
            cases e' with
            | conn c x => cases x <;> first | exact h1 | exact trivial
            | _ => exact h1
          exact ⟨.server n e', { s with server := s'', events := s.events ++ [e'] }, hpr, h2, by simp only [State.step, hcan, if_true, h3]⟩
        · cases h
      · cases h
    · cases e with
      | conn c x => cases x <;> first | exact ⟨_, _, ho, trivial, h⟩ | exact absurd ho hown
      | _ => exact absurd ho hown
  | client c n e =>
    by_cases hw : ∃ o, e = .loopWrite false o
    · obtain ⟨o, rfl⟩ := hw
      cases hp : s.peers[c]? with
      | none => simp only [State.step, hp] at h; cases h
      | some p =>
        by_cases hn : p.client.netClosed = true
        · exact ⟨_, _, ho, ⟨p, hp, hn⟩, h⟩
        · cases hk : s.server.conns[c]? with
          | none => simp only [State.step, hp, hk] at h; cases h
          | some k =>
            simp only [State.step, hp, hk] at h
            split at h
            · rename_i hcan
              split at h
              · rename_i cl hcl
                have hstep : ∃ cl', p.client.step p.cfg (.loopWrite true o) = some cl' := by
                  unfold Client.Sys.step at hcl ⊢
                  split at hcl
                  · cases hcl
                  · rename_i hcr
                    rw [if_neg hcr]
                    dsimp only at hcl ⊢
                    split at hcl
                    · rename_i hl
                      rw [if_pos hl]
                      unfold Client.Sys.loopWrite at hcl ⊢
                      split at hcl
                      · exact ⟨_, hcl⟩
                      · rename_i r rest hwr
                        have sp := Client.takeReq_net p.client r rest
                        generalize hx : p.client.takeReq r rest = x at hcl sp ⊢
                        obtain ⟨s1, fo⟩ := x
                        cases fo with
                        | none => exact ⟨_, rfl⟩
                        | some f =>
                          have hnc : s1.netClosed = false := by
                            have sp : s1.netClosed = p.client.netClosed := sp
                            rw [sp]
                            exact Bool.eq_false_iff.2 hn
                          simp only [if_true, hnc, Bool.false_eq_true, if_false]
                          exact ⟨_, rfl⟩
                    · cases hcl
                obtain ⟨cl', hcl'⟩ := hstep
                have hcan' : (p.welcome.isSome && p.can k n (.loopWrite true o)) = true := hcan
                exact ⟨.client c n (.loopWrite true o), { s with peers := s.peers.set c { p with client := cl', events := p.events ++ [.loopWrite true o] } }, trivial, trivial, by simp only [State.step, hp, hk, hcan', if_true, hcl']⟩
              · cases h
            · cases h
    · refine ⟨_, _, ho, ?_, h⟩
      cases e with
      | loopWrite ok o =>
        cases ok with
        | true => trivial
        | false => exact absurd ⟨o, rfl⟩ hw
      | _ => trivial

/-- **C76** (2). From every state of every execution, server and clients come to rest by themselves, without waiting for a timer, and without a failing write. -/
theorem C76_settles (cfg : Server.Config) (es : List Ev) (s : State) (h : State.init.run cfg es = some s) :
    ∃ es' s', Spec.Calm cfg s es' ∧ s.run cfg es' = some s' ∧ Spec.Still cfg s' := by
  have hp := parts_run (parts_init cfg) h
  clear h
  induction s using joint_less_wf.induction with
  | _ s ih =>
    by_cases hs : Spec.Still cfg s
    · exact ⟨[], s, trivial, rfl, hs⟩
    · obtain ⟨e, he⟩ := Classical.not_forall.1 hs
      obtain ⟨hpr, he⟩ := Classical.not_imp.1 he
      cases hst : s.step cfg e with
      | none => exact absurd hst he
      | some s1 =>
        clear he
        obtain ⟨e, s1, hpr, hsm, hst⟩ := joint_smooth hpr hst
        obtain ⟨es', s', h1, h2, h3⟩ := ih s1 (joint_less hp (joint_prompt hpr) hst) (parts_step hp hst)
        refine ⟨e :: es', s', ⟨hpr, hsm, fun s2 h4 => ?_⟩, ?_, h3⟩
        · rw [hst] at h4; cases h4; exact h1
        · simp only [State.run, hst]; exact h2

/-- The state in which they come to rest is one of those which the other parts are about, unless the server has crashed (`C42_false`). -/
theorem C76_reached {cfg : Server.Config} {s s' : State} {es : List Ev} (h : Spec.Reached cfg s) (hc : Spec.Calm cfg s es) (hr : s.run cfg es = some s') (hu : s'.server.crashed = false) : Spec.Reached cfg s' := by
  refine ⟨?_, hu⟩
  obtain ⟨es0, h0, hsane⟩ := h.run
  clear hu h
  induction es generalizing s es0 with
  | nil => simp only [State.run, Option.some.injEq] at hr; subst hr; exact ⟨es0, h0, hsane⟩
  | cons e es ih =>
    obtain ⟨h1, _, h2⟩ := hc
    simp only [State.run] at hr
    split at hr
    · rename_i s1 hst
      refine ih (h2 s1 hst) hr (es0 := es0 ++ [e]) (joint_snoc h0 hst) ?_
      intro x hx
      rcases List.mem_append.1 hx with hx | hx
      · exact hsane x hx
      · rw [List.mem_singleton.1 hx]
        cases e with
        | dial => exact h1.elim
        | client c n e => cases e <;> first | exact trivial | exact h1.elim
        | _ => exact trivial
    · cases hr

/-- When all bytes have arrived, all of the stream can be read. -/
theorem legible_all {l : List (Option Frame)} (h : ∀ f, some f ∈ l → Stomp.Spec.WellFormed f) : legible l (wireBytes l).length = l := by
  unfold legible
  rw [List.take_length]
  have := C02_stream l h
  unfold writeAll at this
  exact congrArg Prod.fst this

/-- Where server and clients can do nothing, the server can do nothing. -/
theorem still_server {cfg : Server.Config} {s : State} (hs : Spec.Still cfg s) : Server.Spec.Still cfg s.server := by
  intro e ho
  have h1 := hs (.server 0 e) (by
    cases e with
    | conn c ce => cases ce <;> first | exact ho | exact trivial
    | _ => exact ho)
  have hcan : s.can 0 e = true := by
    cases e with
    | accept => exact ho.elim
    | conn c ce => cases ce <;> first | rfl | exact ho.elim
    | _ => rfl
  simp only [State.step, hcan, if_true] at h1
  split at h1
  · cases h1
  · assumption

theorem still_client {cfg : Server.Config} {s : State} (hs : Spec.Still cfg s) {c : Nat} {p : Peer} {k : Server.Conn} (hp : s.peers[c]? = some p) (hk : s.server.conns[c]? = some k)
    (hw : p.welcome.isSome = true) : Client.Spec.Still p.cfg p.client := by
  intro e ho
  have h1 := hs (.client c 0 e) (by cases e <;> first | exact ho | exact ho.elim)
  have hcan : p.can k 0 e = true := by cases e <;> first | rfl | exact ho.elim
  simp only [State.step, hp, hk, hw, hcan, Bool.and_self, if_true] at h1
  split at h1
  · cases h1
  · assumption

/-- Where nothing can be done, the server has read all there is on an open connection with room. -/
theorem still_up {cfg : Server.Config} {s : State} (h : Spec.Reached cfg s) (hs : Spec.Still cfg s) {c : Nat} {p : Peer} {k : Server.Conn} (hp : s.peers[c]? = some p)
    (hk : s.server.conns[c]? = some k) (hi : k.inq = []) (hr : k.readDone = false) : takenIn k = (p.up.filterMap id).length := by
  have hinv := inv_reached h
  have hpi := hinv.peer c p k hp hk
  have hle : takenIn k ≤ (p.up.filterMap id).length := by
    rw [up_frames]
    have := hpi.up.length_le
    rwa [List.length_append] at this
  rcases Nat.lt_or_eq_of_le hle with hlt | he
  · exfalso
    have h1 := hs (.server (wireBytes p.up).length (.conn c (.recv (p.up.filterMap id)[takenIn k]))) trivial
    have hcan : s.can (wireBytes p.up).length (.conn c (.recv (p.up.filterMap id)[takenIn k])) = true := by
      simp only [State.can, hp, hk, legible_all hpi.up_wf]
      exact decide_eq_true (List.getElem?_eq_getElem hlt)
    obtain ⟨s', h2⟩ := Server.conn_enabled (cfg := cfg) hinv.alive hk (e := .recv (p.up.filterMap id)[takenIn k]) (k' := { k with inq := k.inq ++ [(p.up.filterMap id)[takenIn k]] }) rfl (by
      unfold Server.Conn.step
      simp only [hi, hr, List.length_nil]
      rfl)
    simp only [State.step, hcan, if_true, h2] at h1
    cases h1
  · exact he

/-- Where nothing can be done, a client with room has read all there is. -/
theorem still_down {cfg : Server.Config} {s : State} (h : Spec.Reached cfg s) (hs : Spec.Still cfg s) {c : Nat} {p : Peer} {k : Server.Conn} (hp : s.peers[c]? = some p)
    (hk : s.server.conns[c]? = some k) (hw : p.welcome.isSome = true) (hc : p.client.crashed = none) (hi : p.client.readCh = []) (hr : p.client.readDone = false) (hcap : 0 < p.cfg.readCap) :
    1 + p.reads = k.out.length := by
  have hinv := inv_reached h
  have hpi := hinv.peer c p k hp hk
  have hle : 1 + p.reads ≤ (down k).length := by
    have := hpi.down.length_le
    rw [List.length_append, List.length_map, ← reads_eq] at this
    cases hx : p.welcome with
    | none => rw [hx] at hw; cases hw
    | some w => rw [hx] at this; simpa using this
  rw [show k.out.length = (down k).length by simp [down]]
  rcases Nat.lt_or_eq_of_le hle with hlt | he
  · exfalso
    have h1 := hs (.client c (wireBytes (down k)).length (.net (down k)[1 + p.reads])) trivial
    have hcan : p.can k (wireBytes (down k)).length (.net (down k)[1 + p.reads]) = true := by
      simp only [Peer.can, legible_all (hinv.down_wf hk)]
      exact decide_eq_true (List.getElem?_eq_getElem hlt)
    simp only [State.step, hp, hk, hw, hcan, Bool.and_self, if_true, Client.Sys.step, hc, hr, hi, Option.isSome_none, Bool.false_eq_true, if_false, List.length_nil, hcap] at h1
    cases h1
  · exact he

/-- Where nothing can be done, a client that waits for the answer to its CONNECT frame has got none. -/
theorem still_welcome {cfg : Server.Config} {s : State} (h : Spec.Reached cfg s) (hs : Spec.Still cfg s) {c : Nat} {p : Peer} {k : Server.Conn} (hp : s.peers[c]? = some p)
    (hk : s.server.conns[c]? = some k) (hw : p.welcome = none) : ∀ w, (down k).head? = some (some w) → w.command ≠ b!"CONNECTED" := by
  have hinv := inv_reached h
  intro w hh hc
  have h1 := hs (.welcome c (wireBytes (down k)).length) trivial
  simp only [State.step, hp, hk, legible_all (hinv.down_wf hk), hw, hh] at h1
  rw [if_pos (show w.command = Cmd.connected from hc)] at h1
  cases h1

/-- A client at rest with `processLoop` at its `select`. -/
theorem still_select {cfg : Client.Cfg} {s : Client.Sys} (hs : Client.Spec.Still cfg s) (hc : s.crashed = none) (hl : s.loop = .select) :
    s.readCh = [] ∧ s.readDone = false ∧ s.writeCh = [] ∧ s.writeClosed = false := by
  have no : ∀ {e s'}, Client.Spec.Prompt e → s.step cfg e = some s' → False := fun ho he => by rw [hs _ ho] at he; cases he
  obtain ⟨h1, h2⟩ := Client.C26_select_partial (cfg := cfg) hc hl
  have h1 : ¬(s.readCh ≠ [] ∨ s.readDone = true) := fun x => by
    obtain ⟨o, s', hx⟩ := h1 x; exact no (e := .loopRead o) trivial hx
  have h2 : ¬(s.writeCh ≠ [] ∨ s.writeClosed = true) := fun x => by
    obtain ⟨o, s', hx⟩ := h2 x; exact no (e := .loopWrite (!s.netClosed) o) trivial hx
  simp only [not_or, Classical.not_not, Bool.not_eq_true] at h1 h2
  exact ⟨h1.1, h1.2, h2.1, h2.2⟩

/-- **C76** (3). Where server and clients stop while all of them go on working, nothing is left to do: the server has dealt with all that the programs have handed over, and the clients with all that the server has written. Or the server's processor waits for a connection that waits for the processor (`C47_false`). -/
theorem C76_rest {cfg : Server.Config} {s : State} (h : Spec.Reached cfg s) (hs : Spec.Still cfg s)
    (hw : ∀ (c : Nat) (p : Peer) (k : Server.Conn), s.peers[c]? = some p → s.server.conns[c]? = some k → Spec.Working p k) :
    (∃ c, Server.Spec.ProcessorWaitsFor s.server c ∧ Server.Spec.WaitsForProcessor s.server c) ∨
    (Spec.AtRest s.server ∧
      ∀ (c : Nat) (p : Peer) (k : Server.Conn), s.peers[c]? = some p → s.server.conns[c]? = some k → Spec.Through p k) := by
  have hinv := inv_reached h
  rcases Server.C74_rest cfg _ _ hinv.run (still_server hs) with hc | ⟨c, hc, hd⟩ | ⟨h1, h2, h3⟩
  · rw [hinv.alive] at hc; cases hc
  · refine .inl ⟨c, hc, ?_⟩
    rcases hd with hd | ⟨k, hk, hd⟩
    · exact hd
    · obtain ⟨p, hp⟩ := hinv.both hk
      have := (hw c p k hp hk).opened.1
      simp_all
  · right
    have hopen : ∀ k ∈ s.server.conns, k.stage = .run ∧ k.wfail = false ∧ k.inq = [] ∧ k.outbox = [] ∧ k.subCh = [] ∧ k.writeCh = [] ∧ k.readDone = false := by
      intro k hm
      obtain ⟨c, hk⟩ := List.getElem?_of_mem hm
      obtain ⟨p, hp⟩ := hinv.both hk
      obtain ⟨e1, e2⟩ := (hw c p k hp hk).opened
      obtain ⟨e3, ⟨_, e4, e5, e6, e7⟩ | e4⟩ := h3 k hm
      · exact ⟨e1, e2, e4, e3, e6, e7, e5⟩
      · rw [e1] at e4; cases e4
    refine ⟨⟨h1, h2, fun k hm => ?_⟩, fun c p k hp hk => ?_⟩
    · obtain ⟨e1, e2, e3, e4, e5, e6, _⟩ := hopen k hm
      exact ⟨e1, e2, e3, e4, e5, e6⟩
    · have w := hw c p k hp hk
      obtain ⟨e1, e2, e3, e4, e5, e6, e7⟩ := hopen k (List.mem_of_getElem? hk)
      have hst := still_client hs hp hk w.welcomed
      obtain ⟨f1, f2, f3, f4⟩ := still_select hst w.alive w.select
      have hi := hinv.peer c p k hp hk
      refine ⟨⟨still_down h hs hp hk w.welcomed w.alive f1 f2 w.room.1, f1, w.select⟩, f3, still_up h hs hp hk e3 e7, fun b hb => ?_⟩
      obtain ⟨i, hb'⟩ := List.getElem?_of_mem hb
      obtain ⟨g1, g2⟩ := Client.rest_sub hi.run w.alive hst hb'
      refine ⟨g1, ?_⟩
      rcases g2 with ⟨e, _⟩ | e
      · exact .inl e
      · exact .inr (((Client.woken_run (Client.uinv_init _) (Client.woken_init _) hi.run).sub i b hb').rl e)

theorem through_settled {p : Peer} {k : Server.Conn} (h : Spec.Through p k) (hs : ∀ b ∈ p.client.subs, b.state ≠ .closed) : Spec.Settled p k :=
  ⟨h.idle, h.requests, h.read, fun b hb => ((h.subs b hb).2).resolve_right (hs b hb)⟩

/-- Where nothing is left to do, no call waits for an answer, `Unsubscribe` apart. -/
theorem no_wait {cfg : Server.Config} {s : State} (h : Spec.Reached cfg s) (hs : Spec.Still cfg s) (hr : Spec.AtRest s.server) {c : Nat} {p : Peer} {k : Server.Conn}
    (hp : s.peers[c]? = some p) (hk : s.server.conns[c]? = some k) (hw : Spec.Working p k) (hset : Spec.Through p k) (hd : Client.Spec.Distinct p.client)
    {t : Nat} {th : Client.Thread} {m : Nat} (ht : p.client.threads[t]? = some th) (hpc : th.pc = .wait m) : ∃ i o, th.call = .unsubscribe i o := by
  have hinv := inv_reached h
  have hi := hinv.peer c p k hp hk
  have hst := still_client hs hp hk hw.welcomed
  have ha := Client.all_run hi.run
  apply Classical.byContradiction
  intro hnu
  have hns := Client.no_sub_wait hi.run t th m ht hpc
  -- the request
  obtain ⟨r, hacc, hchan⟩ := (ha.origin.callers t th ht).wait m hpc
  obtain ⟨th', ht', hq⟩ := ha.origin.acc t r hacc
  rw [ht] at ht'; cases ht'
  obtain ⟨hf, ⟨h1, _⟩ | ⟨n, ch, h1, h2, h3, h4⟩⟩ := (Client.reqOf_caller hns).1 hq
  · rw [hchan] at h1; cases h1
  rw [hchan] at h1; cases h1
  obtain ⟨v, hv⟩ := Option.isSome_iff_exists.1 h4
  have hwaits : th.call.waits = true := by
    cases hc : th.call with
    | subscribe d a o => exact absurd hc (hns d a o)
    | unsubscribe i o => exact absurd ⟨i, o, hc⟩ hnu
    | mustDisconnect => rw [hc] at hf; exact hf.elim
    | _ => rfl
  have hplain := Client.frameOf_plain hwaits hf
  have hcl : p.client.chanClosed m = false := by
    cases Client.rest_call hi.run hw.alive hst ht with
    | answer e hcl => rw [hpc] at e; cases e; exact hcl
    | returned e => rw [hpc] at e; cases e
    | lock e => rcases e with e | ⟨_, e⟩ <;> rw [hpc] at e <;> cases e
    | full e => rw [hpc] at e; cases e
    | broadcast e => exact absurd ⟨_, _, e⟩ hnu
  -- it is registered
  have haw : Client.Awaits p.client m := ⟨hcl, .inl ⟨t, ch.closed, th, by rw [h2, ← h3], ht, hpc⟩⟩
  have hreg := ((Client.told_run hi.run).told hd t r m v hacc hchan (by rw [hset.requests]; simp) (.inl hv) haw).1 (by rw [hw.select]; rfl)
  obtain ⟨a, r', b, htr, hch', hreg', hnone⟩ := Client.unmet_run hi.run v m hreg (by rw [hw.select]; simp)
  obtain ⟨t', hacc'⟩ := Client.taken_accepted hi.run (r := r') (by rw [htr]; simp)
  have := ha.origin.chan t t' r r' m hacc hacc' hchan hch'
  subst this
  have := ha.origin.one hacc hacc'
  subst this
  -- the server has processed it
  have hmem : r.frame ∈ k.hist := by
    rw [(processed_of h hp hk (hr.conns k (List.mem_of_getElem? hk)).2.2.1 hw.select hset.requests hset.read).2]
    refine List.mem_cons_of_mem _ ?_
    rw [(Client.C75_served _ _ _ _ hi.run hw.alive hst hw.select hw.room.2).1]
    refine List.mem_filterMap.2 ⟨r, ?_, Client.wire_plain hplain⟩
    rw [handedOver_eq]
    exact List.mem_map.2 ⟨_, hacc, rfl⟩
  obtain ⟨ces, hrun, henv⟩ := Server.conn_run hinv.run hinv.alive hk
  have hcount := (Server.C34_counts_partial cfg c ces k hrun henv v).2 (hr.conns k (List.mem_of_getElem? hk)).2.1
  have hpos : 0 < (k.hist.filter (fun f => Server.Spec.asks v f && !Server.Spec.subscribing f)).length := by
    refine List.length_pos_of_mem (List.mem_filter.2 ⟨hmem, ?_⟩)
    have e1 : Server.Spec.asks v r.frame = true := by
      refine decide_eq_true ?_
      rw [contains_eq_firstValue] at hv
      exact hv
    have e2 : Server.Spec.subscribing r.frame = false := decide_eq_false (by rintro (e | e); exact hplain.1 e; exact hplain.2 e)
    rw [e1, e2]; rfl
  obtain ⟨w, hwm⟩ := List.exists_mem_of_length_pos (Nat.lt_of_lt_of_le hpos hcount)
  obtain ⟨hwo, hans⟩ := List.mem_filter.1 hwm
  unfold Server.Spec.answers at hans
  split at hans
  case h_2 => cases hans
  rename_i g hg
  obtain ⟨hcmd, hid⟩ := of_decide_eq_true hans
  -- the client has read it
  have hall : p.welcome.toList.map some ++ Client.readIn p.client.trace = down k := by
    refine hi.down.eq_of_length ?_
    rw [List.length_append, List.length_map, ← reads_eq, show (down k).length = k.out.length by simp [down], ← hset.idle.1]
    obtain ⟨w, e⟩ := Option.isSome_iff_exists.1 hw.welcomed
    rw [e]; rfl
  have hgd : some g ∈ down k := List.mem_map.2 ⟨w, hwo, hg⟩
  rw [← hall] at hgd
  have hread : some g ∈ Client.readIn p.client.trace := by
    rcases List.mem_append.1 hgd with e | e
    · obtain ⟨w', hw', e⟩ := List.mem_map.1 e
      cases e
      have := hi.greeted g (by simpa using hw')
      rw [this] at hcmd
      rcases hcmd with e | e <;> exact absurd e (by decide)
    · exact e
  have hri := Client.read_run hi.run
  have htook : some g ∈ Client.tookIn p.client.trace := by
    have := hri.queue
    rw [hset.idle.2.1, List.append_nil] at this
    rwa [this] at hread
  rcases hcmd with hcmd | hcmd
  · have hrf : Client.Spec.ReceiptFor g v := ⟨hcmd, by rw [contains_eq_firstValue]; exact hid⟩
    have ht1 : Client.Obs.took (some g) ∈ p.client.trace := by
      obtain ⟨o, ho, e⟩ := List.mem_filterMap.1 htook
      cases o <;> simp at e
      subst e; exact ho
    rw [htr] at ht1
    have hta : Client.Obs.took (some g) ∈ a := by
      rcases List.mem_append.1 ht1 with e | e
      · exact e
      · rcases List.mem_cons.1 e with e | e
        · cases e
        · exact absurd e (hnone g hrf)
    have hra : some g ∈ Client.readIn a := (hri.pre a (by rw [htr]; exact List.prefix_append _ _)).subset (List.mem_filterMap.2 ⟨_, hta, rfl⟩)
    have hra : Client.Obs.read (some g) ∈ a := by
      obtain ⟨o, ho, e⟩ := List.mem_filterMap.1 hra
      cases o <;> simp at e
      subst e; exact ho
    obtain ⟨pre, post, hab⟩ := List.append_of_mem hra
    have htr' : p.client.trace = pre ++ .read (some g) :: (post ++ .taken r :: b) := by rw [htr, hab]; simp
    obtain ⟨t2, r2, _, h5, h6, h7⟩ := receipt_cause h hp htr' hrf
    obtain ⟨t3, r3, h8, h9, h10, _⟩ := Client.sent_accepted hi.run htr' h5 (fun e => h7 (by rw [e]; decide))
    have hk3 : Client.Spec.Registers r3.frame v := .inl (by rw [h9]; exact h6)
    have hc3 := Client.registers_chan ha.origin h8 hk3
    have := hd.uniq t3 r3 t r v (Client.mem_acceptedIn h8) (Client.mem_acceptedIn hacc) hc3 (by rw [hchan]; simp) hk3 (.inl hv)
    subst this
    have := ha.origin.one h8 hacc
    subst this
    exact Client.taken_twice ha htr (by rw [hab]; exact List.mem_append_left _ h10) hchan hchan
  · have := Client.error_ended hi.run g htook hcmd
    rw [hw.select] at this
    cases this

/-- **C76** (4). Where server and clients stop while all of them go on working, every call of every program has returned, `Unsubscribe` apart: each receipt asked for has come, and has been given to the caller. (`Unsubscribe` never gets an answer from this server, `C66_false`.) -/
theorem C76_returned {cfg : Server.Config} {s : State} (h : Spec.Reached cfg s) (hs : Spec.Still cfg s)
    (hw : ∀ (c : Nat) (p : Peer) (k : Server.Conn), s.peers[c]? = some p → s.server.conns[c]? = some k → Spec.Working p k) :
    (∃ c, Server.Spec.ProcessorWaitsFor s.server c ∧ Server.Spec.WaitsForProcessor s.server c) ∨
    ∀ (c : Nat) (p : Peer), s.peers[c]? = some p → Client.Spec.Distinct p.client →
      ∀ (t : Nat) (th : Client.Thread), p.client.threads[t]? = some th → (∃ r, th.pc = .ret r) ∨ ∃ i o, th.call = .unsubscribe i o := by
  rcases C76_rest h hs hw with h1 | ⟨hr, hall⟩
  · exact .inl h1
  · refine .inr fun c p hp hd t th ht => ?_
    have hinv := inv_reached h
    obtain ⟨k, hk⟩ := hinv.conn hp
    have w := hw c p k hp hk
    have hi := hinv.peer c p k hp hk
    have hst := still_client hs hp hk w.welcomed
    rcases (Client.C75_served _ _ _ _ hi.run w.alive hst w.select w.room.2).2.2 t th ht with h1 | ⟨m, h1, _⟩ | ⟨u, thu, m, h1, h2, h3, _⟩ | ⟨i, _, o, _, h1, _⟩
    · exact .inl h1
    · exact .inr (no_wait h hs hr hp hk w (hall c p k hp hk) hd ht h1)
    · obtain ⟨i, o, hc⟩ := no_wait h hs hr hp hk w (hall c p k hp hk) hd h2 h3
      obtain ⟨thu', hu, hh⟩ := (Client.lock_run (Client.lock_init _) hi.run).held u h1
      rw [h2] at hu; cases hu
      simp [Client.Thread.holds, h3, hc] at hh
    · exact .inr ⟨i, o, h1⟩

/-- **C76** (5). Where server and clients stop while all of them go on working, and no subscription was given up or closed: every message which a program has sent to a queue outside transactions is stored in the queue, and then no subscription waits for it, or has arrived at a program;
every message which a topic has sent on has arrived at each of the subscriptions it had. -/
theorem C76_delivered {cfg : Server.Config} {s : State} (h : Spec.Reached cfg s) (hs : Spec.Still cfg s)
    (hw : ∀ (c : Nat) (p : Peer) (k : Server.Conn), s.peers[c]? = some p → s.server.conns[c]? = some k → Spec.Working p k)
    (hd : ∀ p ∈ s.peers, Client.Spec.Distinct p.client ∧ Spec.Stays p ∧ ∀ b ∈ p.client.subs, b.state ≠ .closed) :
    (∃ c, Server.Spec.ProcessorWaitsFor s.server c ∧ Server.Spec.WaitsForProcessor s.server c) ∨
    (∀ (c : Nat) (p : Peer) (k : Server.Conn), s.peers[c]? = some p → s.server.conns[c]? = some k →
      ∃ ms : List Server.Msg, ms.Sublist (Server.Spec.messages c 0 k.effective) ∧ ms.map (·.frame) = ((Stomp.Spec.sentIn p.client.trace).filter Stomp.Spec.lone).map Stomp.Spec.asMessage ∧
        (ms.map (·.tag)).Nodup ∧
        ∀ m ∈ ms, ∀ d, Server.Spec.target m = some d → Server.Spec.IsQueue d →
          (m.tag ∈ Server.Spec.stored s.server d ∧ s.server.queues.list d = []) ∨ Spec.Arrived s m.tag) ∧
    (∀ d, ¬Server.Spec.IsQueue d → ∀ m r, Server.Spec.SentTo d cfg s.events m r → Spec.ArrivedAt s r m.tag) := by
  rcases C76_rest h hs hw with h1 | ⟨hr, hall⟩
  · exact .inl h1
  · have hset : ∀ (c : Nat) (p : Peer) (k : Server.Conn), s.peers[c]? = some p → s.server.conns[c]? = some k → Spec.Settled p k ∧ Client.Spec.Distinct p.client ∧ Spec.Stays p := by
      intro c p k hp hk
      obtain ⟨h1, h2, h3⟩ := hd p (List.mem_of_getElem? hp)
      exact ⟨through_settled (hall c p k hp hk) h3, h1, h2⟩
    exact .inr ⟨fun c p k hp hk => C68_queue h hr hset hp hk, fun d hq => (C68_topic h hr hset hq).2⟩

/-- **C76** (6). The same for programs which also refuse no message: the messages of a queue that the programs have got, and those stored in the queue, are exactly the messages for the queue that took effect, each of them once. -/
theorem C76_once {cfg : Server.Config} {s : State} (h : Spec.Reached cfg s) (hs : Spec.Still cfg s)
    (hw : ∀ (c : Nat) (p : Peer) (k : Server.Conn), s.peers[c]? = some p → s.server.conns[c]? = some k → Spec.Working p k)
    (hd : ∀ p ∈ s.peers, Client.Spec.Distinct p.client ∧ Spec.Stays p ∧ Spec.Takes p ∧ ∀ b ∈ p.client.subs, b.state ≠ .closed) {d : Bytes} (hq : Server.Spec.IsQueue d) :
    (∃ c, Server.Spec.ProcessorWaitsFor s.server c ∧ Server.Spec.WaitsForProcessor s.server c) ∨
    (∃ ps : List (Frame × Server.Tag), ps.map (·.1) = s.peers.flatMap (Spec.gotFrom d) ∧ (∀ x ∈ ps, Server.Spec.CopyOf s.server x.2 x.1) ∧
      (ps.map (·.2) ++ Server.Spec.stored s.server d).Perm (Spec.allSent d s.server)) ∧ (Spec.allSent d s.server).Nodup := by
  rcases C76_rest h hs hw with h1 | ⟨hr, hall⟩
  · exact .inl h1
  · have hset : ∀ (c : Nat) (p : Peer) (k : Server.Conn), s.peers[c]? = some p → s.server.conns[c]? = some k → Spec.Settled p k ∧ Client.Spec.Distinct p.client ∧ Spec.Stays p ∧ Spec.Takes p := by
      intro c p k hp hk
      obtain ⟨h1, h2, h3, h4⟩ := hd p (List.mem_of_getElem? hp)
      exact ⟨through_settled (hall c p k hp hk) h4, h1, h2, h3⟩
    obtain ⟨h1, h2, _⟩ := C73_once h hr hset hq
    exact .inr ⟨h1, h2⟩

/-- **C76** (7). When `processLoop` is at its `select`: a client at rest that has met with no end of its connection, whose program has called `Unsubscribe` nowhere, and has no call that gave up waiting. -/
theorem C76_select {cfg : Server.Config} {s : State} (h : Spec.Reached cfg s) (hs : Spec.Still cfg s) {c : Nat} {p : Peer} {k : Server.Conn} (hp : s.peers[c]? = some p)
    (hk : s.server.conns[c]? = some k) (hw : p.welcome.isSome = true) (hc : p.client.crashed = none) (hd : Client.Spec.Distinct p.client)
    (he : (∀ f l, p.client.loop ≠ .errs f l) ∧ (∀ f l, p.client.loop ≠ .fail f l) ∧ p.client.loop ≠ .done)
    (hu : ∀ th ∈ p.client.threads, (∀ i o, th.call ≠ .unsubscribe i o) ∧ th.pc ≠ .ret .receiptTimeout ∧ th.pc ≠ .ret .disconnectTimeout ∧ th.pc ≠ .ret .closedUnexpectedly ∧
      ∀ f, th.pc = .ret (.response f) → f.command ≠ b!"MESSAGE") : p.client.loop = .select := by
  have hi := (inv_reached h).peer c p k hp hk
  have hend : ¬Client.Spec.Ending p.client := by
    rintro (⟨f, l, e⟩ | ⟨f, l, e⟩ | e)
    · exact he.1 f l e
    · exact he.2.1 f l e
    · exact he.2.2 e
  cases Client.rest_loop hi.run hc (still_client hs hp hk hw) hd.noReceipt with
  | waits e => exact e
  | returned e => exact absurd e he.2.2
  | locked e => exact absurd e hend
  | left _ _ ht hl =>
    obtain ⟨h1, h2, h3, h4, h5⟩ := hu _ (List.mem_of_getElem? ht)
    rcases hl with ⟨r, e, e1 | e1 | e1 | ⟨f, e1, e2⟩⟩ | ⟨⟨i, o, e⟩, _⟩
    · exact absurd (e1 ▸ e) h2
    · exact absurd (e1 ▸ e) h3
    · exact absurd (e1 ▸ e) h4
    · exact absurd e2 (h5 f (e1 ▸ e))
    · exact absurd e (h1 i o)

end Stomp.Joint

/-! ## Examples -/

namespace Stomp.Joint.BusyEx
open Stomp Ex RestEx OnceEx

/-- The client can do nothing, decided. -/
def stillClient (cfg : Client.Cfg) (s : Client.Sys) : Bool :=
  decide (s.crashed = none ∧ s.loop = .select ∧ s.readCh = [] ∧ s.readDone = false ∧ s.writeCh = [] ∧ s.writeClosed = false) &&
  (List.range s.threads.length).all (fun t => (s.thread cfg t).isNone && (s.helper t).isNone) &&
  (List.range s.subs.length).all (fun i => (s.subStep i).isNone && (s.step cfg (.take i)).isNone)

theorem client_still {cfg : Client.Cfg} {s : Client.Sys} (h : stillClient cfg s = true) : Client.Spec.Still cfg s := by
  simp only [stillClient, Bool.and_eq_true, List.all_eq_true, List.mem_range, Option.isNone_iff_eq_none] at h
  obtain ⟨⟨h0, h1⟩, h2⟩ := h
  obtain ⟨hc, hl, hr, hd, hw, hx⟩ := of_decide_eq_true h0
  intro e he
  cases e with
  | thread t =>
    simp only [Client.Sys.step, hc, Option.isSome_none, Bool.false_eq_true, if_false]
    by_cases ht : t < s.threads.length
    · exact (h1 t ht).1
    · simp [Client.Sys.thread, List.getElem?_eq_none (l := s.threads) (i := t) (by omega)]
  | helper t =>
    simp only [Client.Sys.step, hc, Option.isSome_none, Bool.false_eq_true, if_false]
    by_cases ht : t < s.threads.length
    · exact (h1 t ht).2
    · simp [Client.Sys.helper, List.getElem?_eq_none (l := s.threads) (i := t) (by omega)]
  | sub i =>
    simp only [Client.Sys.step, hc, Option.isSome_none, Bool.false_eq_true, if_false]
    by_cases ht : i < s.subs.length
    · exact (h2 i ht).1
    · simp [Client.Sys.subStep, List.getElem?_eq_none (l := s.subs) (i := i) (by omega)]
  | take i =>
    by_cases ht : i < s.subs.length
    · exact (h2 i ht).2
    · simp [Client.Sys.step, hc, List.getElem?_eq_none (l := s.subs) (i := i) (by omega)]
  | loopRead o => simp [Client.Sys.step, hc, hl, Client.Sys.loopRead, hr, hd]
  | loopWrite k o => simp [Client.Sys.step, hc, hl, Client.Sys.loopWrite, hw, hx]
  | deliver k => simp [Client.Sys.step, hc, hl, Client.Sys.deliver]
  | finish => simp [Client.Sys.step, hc, hl, Client.Sys.finish]
  | _ => exact he.elim

def calm (p : Peer) (k : Server.Conn) : Bool :=
  p.welcome.isSome && stillClient p.cfg p.client && decide (1 + p.reads = k.out.length) && decide (takenIn k = (p.up.filterMap id).length)

def allCalm (s : State) : Bool :=
  (List.range s.server.conns.length).all fun c =>
    match s.peers[c]?, s.server.conns[c]? with
    | some p, some k => calm p k
    | _, _ => false

/-- Server and clients can do nothing, decided. -/
theorem still_of {cfg : Server.Config} {s : State} (h : Spec.Reached cfg s) (h1 : Server.Spec.Idle s.server) (h2 : allCalm s = true) : Spec.Still cfg s := by
  have hinv := inv_reached h
  have hcalm : ∀ {c : Nat} {p : Peer} {k : Server.Conn}, s.peers[c]? = some p → s.server.conns[c]? = some k → calm p k = true := by
    intro c p k hp hk
    have := List.all_eq_true.1 h2 c (List.mem_range.2 (List.getElem?_eq_some_iff.1 hk).1)
    rwa [hp, hk] at this
  intro e he
  cases hst : s.step cfg e with
  | none => rfl
  | some s' =>
    exfalso
    cases e with
    | dial => exact he
    | welcome c n =>
      simp only [State.step] at hst
      split at hst
      · rename_i p k hp hk
        have := hcalm hp hk
        simp only [calm, Bool.and_eq_true] at this
        split at hst
        · rename_i hw _
          rw [hw] at this
          cases this.1.1.1
        · cases hst
      · cases hst
    | client c n e =>
      simp only [State.step] at hst
      split at hst
      · rename_i p k hp hk
        have hx := hcalm hp hk
        simp only [calm, Bool.and_eq_true, decide_eq_true_eq] at hx
        split at hst
        · rename_i hcan
          split at hst
          · rename_i cl hcl
            by_cases hpr : Client.Spec.Prompt e
            · rw [client_still hx.1.1.2 e hpr] at hcl; cases hcl
            · cases e with
              | net x =>
                have hcan := of_decide_eq_true (Bool.and_eq_true_iff.1 hcan).2
                have hle := (legible_prefix (hinv.down_wf hk) n).length_le
                have := (List.getElem?_eq_some_iff.1 hcan).1
                have hlen : (down k).length = k.out.length := by simp [down]
                omega
              | _ => exact hpr he
          · cases hst
        · cases hst
      · cases hst
    | server n e =>
      simp only [State.step] at hst
      split at hst
      · rename_i hcan
        split at hst
        · rename_i srv hsrv
          by_cases hpr : Server.Spec.Own e
          · rw [Server.C74_idle cfg _ h1 e hpr] at hsrv; cases hsrv
          · cases e with
            | conn c x =>
              cases x with
              | recv f =>
                simp only [State.can] at hcan
                split at hcan
                · rename_i p k hp hk
                  have hx := hcalm hp hk
                  simp only [calm, Bool.and_eq_true, decide_eq_true_eq] at hx
                  have hcan := of_decide_eq_true hcan
                  have hle := ((legible_prefix (hinv.peer c p k hp hk).up_wf n).sublist.filterMap id).length_le
                  have := (List.getElem?_eq_some_iff.1 hcan).1
                  omega
                · cases hcan
              | _ => exact hpr he
            | _ => exact hpr he
        · cases hst
      · cases hst

def receiptSend : Frame := ⟨b!"SEND", [(b!"content-length", b!"1"), (b!"destination", b!"/queue/b"), (b!"receipt", b!"1")], [9]⟩
def receipt : Frame := ⟨b!"RECEIPT", [(b!"receipt-id", b!"1")], []⟩

/-- A program has sent two messages to a queue, another one has subscribed to it; now the first one sends a message and asks for a receipt. -/
def begun : List Ev := OnceEx.run ++ [.client 0 0 (.call (.send b!"/queue/b" [] [9] [.receipt])), .client 0 0 (.thread 2), .client 0 0 (.thread 2)]

/-- What server and clients do then by themselves. -/
def settle : List Ev :=
  [.client 1 0 (.take 0), .client 0 0 (.loopWrite true []), .server 999 (.conn 0 (.recv receiptSend)), .server 0 (.conn 0 (.frame true true)), .server 0 (.flush 0), .server 0 .proc,
   .client 0 999 (.net (some receipt)), .client 0 0 (.loopRead []), .client 0 0 (.deliver true)]

theorem sane_settle : ∀ e ∈ begun ++ settle, Spec.Sane e := by
  intro e he
  simp only [begun, settle, List.mem_append, List.mem_cons, List.not_mem_nil, or_false] at he
  rcases he with (he | he) | he
  · exact sane_run e he
  · rcases he with rfl | rfl | rfl <;> first | exact trivial | exact ⟨by simp, by decide, by simp⟩
  · rcases he with rfl | rfl | rfl | rfl | rfl | rfl | rfl | rfl | rfl <;> exact trivial

theorem reached_settle : Spec.Reached Server.sampleCfg (after (begun ++ settle)) := ⟨⟨begun ++ settle, run_after (by decide +kernel), sane_settle⟩, by decide +kernel⟩

theorem still_settle : Spec.Still Server.sampleCfg (after (begun ++ settle)) :=
  still_of reached_settle (by decide +kernel) (by decide +kernel)

def working (p : Peer) (k : Server.Conn) : Bool :=
  decide (p.welcome.isSome = true ∧ p.client.crashed = none ∧ p.client.loop = .select ∧ 0 < p.cfg.readCap ∧ 0 < p.cfg.writeCap ∧ k.stage = .run ∧ k.wfail = false)

theorem working_settle : ∀ (c : Nat) (p : Peer) (k : Server.Conn), (after (begun ++ settle)).peers[c]? = some p → (after (begun ++ settle)).server.conns[c]? = some k → Spec.Working p k := by
  intro c p k hp hk
  have h : ((List.range 2).all fun c => match (after (begun ++ settle)).peers[c]?, (after (begun ++ settle)).server.conns[c]? with
    | some p, some k => working p k
    | _, _ => false) = true ∧ (after (begun ++ settle)).peers.length = 2 := by decide +kernel
  have := List.all_eq_true.1 h.1 c (List.mem_range.2 (by rw [← h.2]; exact (List.getElem?_eq_some_iff.1 hp).1))
  rw [hp, hk] at this
  obtain ⟨h1, h2, h3, h4, h5, h6, h7⟩ := of_decide_eq_true this
  exact ⟨h1, h2, h3, ⟨h4, h5⟩, h6, h7⟩

-- C76_ends, C76_settles, C76_reached: a state in which there is something to do, and what is done then.
example : State.init.run Server.sampleCfg begun = some (after begun) ∧ ((after begun).step Server.sampleCfg (.client 0 0 (.loopWrite true []))).isSome = true ∧
    (after begun).run Server.sampleCfg settle = some (after (begun ++ settle)) :=
  ⟨run_after (by decide +kernel), by decide +kernel, by
    have h1 := run_after (es := begun) (by decide +kernel)
    have h2 := run_after (es := begun ++ settle) (by decide +kernel)
    have key : ∀ (a b : List Ev) (s0 s1 : State), s0.run Server.sampleCfg a = some s1 → s0.run Server.sampleCfg (a ++ b) = s1.run Server.sampleCfg b := by
      intro a
      induction a with
      | nil => intro b s0 s1 h; simp only [State.run, Option.some.injEq] at h; subst h; rfl
      | cons e a ih =>
        intro b s0 s1 h
        simp only [State.run, List.cons_append] at h ⊢
        split at h
        · exact ih b _ _ h
        · cases h
    rw [← key _ _ _ _ h1]; exact h2⟩
example : ∀ e ∈ settle, Spec.Prompt e ∧ ∀ s, Spec.Smooth s e := by
  intro e he
  simp only [settle, List.mem_cons, List.not_mem_nil, or_false] at he
  rcases he with rfl | rfl | rfl | rfl | rfl | rfl | rfl | rfl | rfl <;> exact ⟨trivial, fun _ => by first | exact trivial | exact ⟨rfl, rfl⟩⟩

-- C76_rest, C76_returned: nothing is left to do; the call that asked for a receipt waits before, and has returned after.
example : (after begun).peers.map (fun p => p.client.threads.map (·.pc)) = [[.ret .ok, .ret .ok, .wait 0], [.ret .ok]] ∧
    (after (begun ++ settle)).peers.map (fun p => p.client.threads.map (·.pc)) = [[.ret .ok, .ret .ok, .ret .ok], [.ret .ok]] := by decide +kernel
example : ∀ c, ¬(Server.Spec.ProcessorWaitsFor (after (begun ++ settle)).server c ∧ Server.Spec.WaitsForProcessor (after (begun ++ settle)).server c) := by
  rintro c ⟨h, _⟩
  have : (after (begun ++ settle)).server.todo = [] := by decide +kernel
  simp [Server.Spec.ProcessorWaitsFor, this] at h

-- C76_delivered, C76_once: the programs, what has arrived, what is stored.
theorem programs_settle : ∀ p ∈ (after (begun ++ settle)).peers, Client.Spec.Distinct p.client ∧ Spec.Stays p ∧ Spec.Takes p ∧ ∀ b ∈ p.client.subs, b.state ≠ .closed := by
  intro p hp
  have h : (after (begun ++ settle)).peers.all (fun p => Client.Spec.distinct p.client && stayed p && took p && p.client.subs.all (fun b => decide (b.state ≠ .closed))) = true := by decide +kernel
  have := List.all_eq_true.1 h p hp
  simp only [Bool.and_eq_true] at this
  exact ⟨Client.distinct_of this.1.1.1, stays this.1.1.2, takes this.1.2, fun b hb => of_decide_eq_true (List.all_eq_true.1 this.2 b hb)⟩

example : (after (begun ++ settle)).peers.flatMap (Spec.gotFrom b!"/queue/a") = [OnceEx.message] ∧ Server.Spec.stored (after (begun ++ settle)).server b!"/queue/a" = [⟨0, 1⟩] ∧
    Server.Spec.stored (after (begun ++ settle)).server b!"/queue/b" = [⟨0, 2⟩] := ⟨by decide +kernel, by decide +kernel, by decide +kernel⟩

-- C76_select: the conditions on the calls.
example : (after (begun ++ settle)).peers.all (fun p => p.client.threads.all fun th =>
    (match th.call with | .unsubscribe .. => false | _ => true) && decide (th.pc = .ret .ok)) = true := by decide +kernel

end Stomp.Joint.BusyEx
