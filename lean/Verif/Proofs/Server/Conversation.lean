import Verif.Props.Server.Conservation
import Verif.Props.Interop
import Verif.Proofs.Server.Dialogue
import Verif.Spec.Conversation
/-! # Proof: what the server writes is a conversation -/
namespace Stomp.Server
open Stomp

/-- Induction over the states that are reached, with the run at hand. -/
theorem reach_induction {cfg : Config} {P : Sys → Prop} (h0 : P Sys.init)
    (hstep : ∀ es s e s', Sys.init.run cfg es = some s → s.crashed = false → Sys.init.run cfg (es ++ [e]) = some s' → s'.crashed = false →
      SysStep cfg s e s' → P s → P s')
    (es : List Sys.Ev) (s : Sys) (h : Sys.init.run cfg es = some s) (hc : s.crashed = false) : P s := by
  have key : ∀ (es pre : List Sys.Ev) (s0 : Sys), Sys.init.run cfg pre = some s0 → P s0 → s0.run cfg es = some s → P s := by
    intro es
    induction es with
    | nil =>
      intro pre s0 _ hp h
      simp only [Sys.run, Option.some.injEq] at h
      subst h; exact hp
    | cons e es ih =>
      intro pre s0 hpre hp h
      have hc0 := not_crashed h hc
      simp only [Sys.run] at h
      split at h
      · cases h
      · rename_i s1 hs1
        have hc1 := not_crashed h hc
        have hrun : Sys.init.run cfg (pre ++ [e]) = some s1 := by
          rw [sysRun_append pre [e] _ _ hpre]
          simp only [Sys.run, hs1]
        have hsi := (sys_induction (P := fun _ => True) trivial (fun _ _ _ _ _ _ => trivial) pre s0 hpre hc0).1
        have hst := (sys_step hsi.refs hs1).2.resolve_left (by rw [hc1]; decide)
        exact ih (pre ++ [e]) s1 hrun (hstep pre s0 e s1 hpre hc0 hrun hc1 hst hp) h
  exact key es [] _ rfl h0 h

theorem Accepts.offered {cfg : Config} {f : Frame} {v : Bytes} {cx cy : Nat} (hac : Accepts cfg f v cx cy) :
    v = b!"1.2" ∧ Spec.offers f b!"1.2" ∨ v = b!"1.1" ∧ Spec.offers f b!"1.1" := by
  have hd := hac.version
  cases hav : Spec.hdr f b!"accept-version" with
  | none =>
    rw [C31_absent f hav] at hd
    split at hd
    · injection hd with hd; exact absurd hd.symm hac.notV10
    · split at hd <;> cases hd
  | some av =>
    rw [C31_highest f av hac.command hav] at hd
    unfold Spec.highest at hd
    by_cases h12 : b!"1.2" ∈ splitOn 44 av
    · rw [if_pos h12] at hd; injection hd with hd
      exact Or.inl ⟨hd.symm, (offers_iff hav).2 h12⟩
    · rw [if_neg h12] at hd
      by_cases h11 : b!"1.1" ∈ splitOn 44 av
      · rw [if_pos h11] at hd; injection hd with hd
        exact Or.inr ⟨hd.symm, (offers_iff hav).2 h11⟩
      · rw [if_neg h11] at hd
        split at hd
        · rename_i v' hv'
          injection hd with hd
          split at hv'
          · injection hv' with hv'; exact absurd (hd.symm.trans hv'.symm) hac.notV10
          · cases hv'
        · cases hd

theorem Accepts.unique {cfg : Config} {f : Frame} {v v' : Bytes} {cx cy cx' cy' : Nat} (h : Accepts cfg f v cx cy) (h' : Accepts cfg f v' cx' cy') :
    cy = cy' := by
  have := h.heartBeat.symm.trans h'.heartBeat
  injection this with this
  injection this

/-- The CONNECTED frame is what it has to be, and announces heart-beats if the client wants them. -/
theorem connected_greets {cfg : Config} {f : Frame} {v : Bytes} {cx cy : Nat} (h : Accepts cfg f v cx cy) (rx ry : Nat) :
    Spec.Greets f (connectedFrame v rx ry) := by
  refine ⟨rfl, v, rfl, ?_⟩
  rcases h.offered with ⟨rfl, ho⟩ | ⟨rfl, ho⟩
  · exact ⟨Or.inr rfl, ho⟩
  · exact ⟨Or.inl rfl, ho⟩

theorem connected_agreed {cfg : Config} {f : Frame} {v : Bytes} {cx cy : Nat} (h : Accepts cfg f v cx cy) (rx ry : Nat) (h0 : 0 < cy) (h1 : 0 < ry) :
    Spec.Agreed f (connectedFrame v rx ry) :=
  ⟨⟨cx, cy, (C10_server_parse f h.command cx cy).1 h.heartBeat, h0⟩,
   fmtUint ry, fmtUint rx, ry, rx, rfl, fmtUint_numeral ry, fmtUint_numeral rx, h1⟩

theorem error_complains (cfg : Config) (e : Err) (f : Frame) : Spec.Complains (errorFrame cfg e f) :=
  ⟨rfl, by rw [errorFrame_eq]; rfl⟩

/-! ## Growth -/

theorem Spec.During.mono {asked more : List Frame} {f g : Frame} {x : Option Frame} (h : Spec.During asked f g x) :
    Spec.During (asked ++ more) f g x := by
  cases h with
  | beat h => exact .beat h
  | receipt r h =>
    obtain ⟨q, hq, r', h1, h2⟩ := h.receiptId
    exact .receipt r ⟨h.command, q, List.mem_append_left _ hq, r', h1, h2⟩
  | message m h =>
    obtain ⟨q, hq, h1⟩ := h.subscription
    exact .message m ⟨h.command, h.messageId, q, List.mem_append_left _ hq, h1⟩

theorem Spec.Conversation.mono {asked more : List Frame} {said : List (Option Frame)} (h : Spec.Conversation asked said) :
    Spec.Conversation (asked ++ more) said := by
  rcases h with h | h | ⟨f, rest, g, middle, last, rfl, h2, h3, h4, h5⟩
  · exact Or.inl h
  · exact Or.inr (Or.inl h)
  · exact Or.inr (Or.inr ⟨f, rest ++ more, g, middle, last, rfl, h2, h3, fun x hx => (h4 x hx).mono, h5⟩)

/-- A session that can go on. -/
def Up (cfg : Config) (asked : List Frame) (said : List (Option Frame)) : Prop :=
  ∃ f rest v cx cy middle, asked = f :: rest ∧ Accepts cfg f v cx cy ∧
    said = some (connectedFrame v (Conn.raise cx (asMilliseconds cfg.heartBeat maxHeartBeat)) (Conn.raise cy (asMilliseconds cfg.heartBeat maxHeartBeat))) :: middle ∧
    ∀ x ∈ middle, Spec.During asked f
      (connectedFrame v (Conn.raise cx (asMilliseconds cfg.heartBeat maxHeartBeat)) (Conn.raise cy (asMilliseconds cfg.heartBeat maxHeartBeat))) x

theorem Up.mono {cfg : Config} {asked more : List Frame} {said : List (Option Frame)} (h : Up cfg asked said) : Up cfg (asked ++ more) said := by
  obtain ⟨f, rest, v, cx, cy, middle, rfl, h2, h3, h4⟩ := h
  exact ⟨f, rest ++ more, v, cx, cy, middle, rfl, h2, h3, fun x hx => (h4 x hx).mono⟩

theorem Up.conversation {cfg : Config} {asked : List Frame} {said : List (Option Frame)} (h : Up cfg asked said) : Spec.Conversation asked said := by
  obtain ⟨f, rest, v, cx, cy, middle, h1, h2, h3, h4⟩ := h
  exact Or.inr (Or.inr ⟨f, rest, _, middle, [], h1, by rw [List.append_nil]; exact h3, connected_greets h2 _ _, h4, Or.inl rfl⟩)

theorem Up.ends {cfg : Config} {asked : List Frame} {said : List (Option Frame)} (h : Up cfg asked said) {e : Frame} (he : Spec.Complains e) :
    Spec.Conversation asked (said ++ [some e]) := by
  obtain ⟨f, rest, v, cx, cy, middle, h1, h2, h3, h4⟩ := h
  exact Or.inr (Or.inr ⟨f, rest, _, middle, [some e], h1, by rw [h3]; rfl, connected_greets h2 _ _, h4, Or.inr ⟨e, he, rfl⟩⟩)


/-! ## The interval of the heart-beats -/

/-- The interval is the one the client has asked for, or the server's own, if it is greater. -/
def Interval (cfg : Config) (c : Conn) : Prop :=
  (c.connected = false → c.writeTimeout = 0) ∧
  (c.connected = true → ∃ f rest v cx cy, c.hist = f :: rest ∧ Accepts cfg f v cx cy ∧
    c.writeTimeout = Conn.raise cy (asMilliseconds cfg.heartBeat maxHeartBeat))

theorem interval_step {cfg : Config} {c : Conn} {e : Conn.Ev} {c' : Conn} (hg : Gate cfg c) (h : Interval cfg c) (hs : Step cfg c e c') :
    Interval cfg c' := by
  cases hfr : isFrame e with
  | true =>
    cases hs with
    | frame ok1 ok2 f q c1 _ f' r ha hq hsf hfin =>
      have hrun := (atSelect_run ha).1
      have first : c.connected = false → c.hist = [] := by
        intro h0
        rcases (hg.closed h0).2.2.2.2.2.2.2 with h1 | ⟨_, h1⟩
        · exact h1
        · exact absurd hrun h1
      rcases frame_cases hg hsf hfin with ⟨h0, v, cx, cy, hac, ⟨_, rfl⟩ | ⟨_, rfl⟩⟩ | ⟨h0, _, e, v, ⟨_, rfl⟩ | ⟨_, rfl⟩⟩ | ⟨h0, hh, hf⟩
      · refine ⟨fun h => (by cases h), fun _ => ⟨f, [], v, cx, cy, ?_, hac, rfl⟩⟩
        show c.hist ++ [f] = _
        rw [first h0]; rfl
      · refine ⟨fun h => (by cases h), fun _ => ⟨f, [], v, cx, cy, ?_, hac, rfl⟩⟩
        show c.hist ++ [f] = _
        rw [first h0]; rfl
      · exact ⟨fun _ => h.1 h0, fun h1 => by replace h1 : c.connected = true := h1; rw [h0] at h1; cases h1⟩
      · exact ⟨fun _ => h.1 h0, fun h1 => by replace h1 : c.connected = true := h1; rw [h0] at h1; cases h1⟩
      · obtain ⟨g, rest, v, cx, cy, h1, h2, h3⟩ := h.2 h0
        have k1 : c1.connected = true := hh.keeps.connected.trans h0
        have k2 : c1.hist = g :: (rest ++ [f]) := by rw [hh.keeps.hist]; show c.hist ++ [f] = _; rw [h1]; rfl
        have k3 : c1.writeTimeout = _ := hh.keeps.writeTimeout.trans h3
        have : Interval cfg c1 := ⟨fun h => (by rw [k1] at h; cases h), fun _ => ⟨g, _, v, cx, cy, k2, h2, k3⟩⟩
        cases hf <;> exact this
    | _ => cases hfr
  | false =>
    have hq := quiet_step hs hfr
    unfold Interval
    rw [hq.connected, hq.writeTimeout, hq.hist]
    exact h

theorem interval_run {cfg : Config} {me : Nat} {es : List Conn.Ev} {c : Conn} (hq : ∀ e ∈ es, EnvOk e) (h : (Conn.init me).run cfg es = some c) :
    Interval cfg c :=
  (run_inv (P := Interval cfg) (fun _ _ _ hg _ _ hp hs => interval_step hg hp hs) es c hq ⟨fun _ => rfl, fun h => by cases h⟩ h).2.2

/-! ## The invariant -/

def outs (c : Conn) : List (Option Frame) := c.out.map (·.frame)

/-- What has been written is a conversation, and as long as the process loop runs and the transport works, it can go on. -/
structure Shape (cfg : Config) (c : Conn) : Prop where
  conv : Spec.Conversation c.hist (outs c)
  live : c.stage = .run → c.wfail = false → (c.connected = false → outs c = []) ∧ (c.connected = true → Up cfg c.hist (outs c))

theorem Shape.frozen {cfg : Config} {c c' : Conn} (h : Shape cfg c) (ho : c'.out = c.out) (hh : c.hist <+: c'.hist) (hw : c'.stage ≠ .run ∨ c'.wfail = true) :
    Shape cfg c' := by
  obtain ⟨l, hl⟩ := hh
  refine ⟨?_, fun h1 h2 => ?_⟩
  · unfold outs; rw [ho, ← hl]; exact h.conv.mono
  · rcases hw with hw | hw
    · exact absurd h1 hw
    · rw [hw] at h2; cases h2

theorem shape_frame {cfg : Config} {c : Conn} {ok1 ok2 : Bool} {f : Frame} {q : List Frame} {c' c'' : Conn} {f' : Frame} {r : Res}
    (hg : Gate cfg c) (h : Shape cfg c) (ha : c.atSelect = true)
    (hs : ({ c with inq := q, hist := c.hist ++ [f] } : Conn).stateFunc cfg ok1 f = (c', f', r))
    (hf : Fin cfg c' ok2 f' r c'') : Shape cfg c'' := by
  have hrun := (atSelect_run ha).1
  have first : c.connected = false → c.hist = [] := by
    intro h0
    rcases (hg.closed h0).2.2.2.2.2.2.2 with h1 | ⟨_, h1⟩
    · exact h1
    · exact absurd hrun h1
  rcases frame_cases hg hs hf with ⟨h0, v, cx, cy, hac, ⟨hw, rfl⟩ | ⟨hw, rfl⟩⟩ | ⟨h0, _, e, v, ⟨hw, rfl⟩ | ⟨hw, rfl⟩⟩ | ⟨h0, hh, hf⟩
  · have hout := (h.live hrun hw).1 h0
    have hup : Up cfg (c.hist ++ [f]) (outs c ++ [some (connectedFrame v (Conn.raise cx (asMilliseconds cfg.heartBeat maxHeartBeat)) (Conn.raise cy (asMilliseconds cfg.heartBeat maxHeartBeat)))]) := by
      rw [first h0, hout]
      exact ⟨f, [], v, cx, cy, [], rfl, hac, rfl, by simp⟩
    have e : ∀ x : Frame, (c.out ++ [(⟨some x, none⟩ : Wr)]).map (·.frame) = outs c ++ [some x] := by intro x; rw [List.map_append]; rfl
    rw [← e] at hup
    exact ⟨hup.conversation, fun _ _ => ⟨fun h1 => (by cases h1), fun _ => hup⟩⟩
  · exact h.frozen rfl (List.prefix_append _ _) (Or.inr rfl)
  · have hout := (h.live hrun hw).1 h0
    refine ⟨Or.inr (Or.inl ⟨errorFrame cfg e f, error_complains _ _ _, ?_⟩), fun h1 => (by cases h1)⟩
    show (c.out ++ [(⟨some (errorFrame cfg e f), none⟩ : Wr)]).map (·.frame) = _
    rw [List.map_append]
    show outs c ++ _ = _
    rw [hout]; rfl
  · exact h.frozen rfl (List.prefix_append _ _) (Or.inr rfl)
  · have k0 : c'.hist = c.hist ++ [f] := hh.keeps.hist
    have k1 : c'.stage = .run := hh.keeps.stage.trans hrun
    have k2 : c'.connected = true := hh.keeps.connected.trans h0
    have hs1 : Shape cfg c' := by
      rcases hh.out with ⟨h1, h2, _⟩ | ⟨v, h1, h2, h3, _⟩ | ⟨h1, h2⟩
      · have h1 : c'.out = c.out := h1
        have h2 : c'.wfail = c.wfail := h2
        refine ⟨?_, fun _ hw => ⟨fun h => (by rw [k2] at h; cases h), fun _ => ?_⟩⟩
        · unfold outs; rw [h1, k0]; exact h.conv.mono
        · unfold outs; rw [h1, k0]; exact ((h.live hrun (h2 ▸ hw)).2 h0).mono
      · have h2 : c'.out = c.out ++ [⟨some (receiptFrame v), none⟩] := h2
        have h3 : c'.wfail = c.wfail := h3
        cases hwc : c.wfail with
        | true =>
          obtain ⟨m1, m2⟩ := hh.mute hwc
          exact h.frozen m1 (by rw [k0]; exact List.prefix_append _ _) (Or.inr m2)
        | false =>
          have hup : Up cfg c'.hist (outs c') := by
            obtain ⟨g, rest, v', cx, cy, middle, u1, u2, u3, u4⟩ := (h.live hrun hwc).2 h0
            refine ⟨g, rest ++ [f], v', cx, cy, middle ++ [some (receiptFrame v)], by rw [k0, u1]; rfl, u2, ?_, ?_⟩
            · unfold outs
              rw [h2, List.map_append]
              show outs c ++ _ = _
              rw [u3]; rfl
            · intro x hx
              rw [k0]
              rcases List.mem_append.1 hx with hx | hx
              · exact (u4 x hx).mono
              · rw [List.mem_singleton] at hx; subst hx
                refine .receipt _ ⟨rfl, f, by simp, v, ?_, rfl⟩
                rw [contains_eq] at h1; exact h1
          exact ⟨hup.conversation, fun _ _ => ⟨fun h => (by rw [k2] at h; cases h), fun _ => hup⟩⟩
      · exact h.frozen h1 (by rw [k0]; exact List.prefix_append _ _) (Or.inr h2)
    cases hf with
    | ok => exact hs1
    | panic => exact ⟨hs1.conv, hs1.live⟩
    | err e _ hw =>
      refine ⟨?_, fun h1 => (by cases h1)⟩
      show Spec.Conversation c'.hist ((c'.out ++ [(⟨some (errorFrame cfg e f'), none⟩ : Wr)]).map (·.frame))
      rw [List.map_append]
      exact ((hs1.live k1 hw).2 k2).ends (error_complains _ _ _)
    | errFail => exact hs1.frozen rfl (List.prefix_refl _) (Or.inr rfl)

theorem shape_step {cfg : Config} {c : Conn} {e : Conn.Ev} {c' : Conn} (hg : Gate cfg c) (hm : MsgsOk c) (hi : Interval cfg c)
    (htell : ∀ w ∈ c'.out, ∀ g, w.frame = some g → g.command = b!"MESSAGE" → Spec.Tells c'.hist g) (h : Shape cfg c) (hs : Step cfg c e c') :
    Shape cfg c' := by
  cases hfr : isFrame e with
  | true =>
    cases hs with
    | frame ok1 ok2 f q c1 _ f' r ha hq hsf hfin => exact shape_frame hg h ha hsf hfin
    | _ => cases hfr
  | false =>
    have hq := quiet_step hs hfr
    have back : c'.stage = .run → c.stage = .run := fun h1 => Decidable.byContradiction (fun hn => hq.stage hn h1)
    have backw : c'.wfail = false → c.wfail = false := by
      intro h1
      cases hw : c.wfail with
      | false => rfl
      | true => rw [hq.wfail hw] at h1; cases h1
    have first : c.stage = .run → c.connected = false → c.hist = [] := by
      intro hrun h0
      rcases (hg.closed h0).2.2.2.2.2.2.2 with h1 | ⟨_, h1⟩
      · exact h1
      · exact absurd hrun h1
    have add : c.stage = .run → c.wfail = false → c.connected = true → ∀ x : Wr, c'.out = c.out ++ [x] →
        (∀ f rest v cx cy, c.hist = f :: rest → Accepts cfg f v cx cy →
          Spec.During c.hist f (connectedFrame v (Conn.raise cx (asMilliseconds cfg.heartBeat maxHeartBeat)) (Conn.raise cy (asMilliseconds cfg.heartBeat maxHeartBeat))) x.frame) →
        Shape cfg c' := by
      intro hrun hw h0 x ho hx
      have hup : Up cfg c'.hist (outs c') := by
        obtain ⟨g, rest, v', cx, cy, middle, u1, u2, u3, u4⟩ := (h.live hrun hw).2 h0
        refine ⟨g, rest, v', cx, cy, middle ++ [x.frame], by rw [hq.hist, u1], u2, ?_, ?_⟩
        · unfold outs
          rw [ho, List.map_append]
          show outs c ++ _ = _
          rw [u3]; rfl
        · intro y hy
          rw [hq.hist]
          rcases List.mem_append.1 hy with hy | hy
          · exact u4 y hy
          · rw [List.mem_singleton] at hy; subst hy
            exact hx g rest v' cx cy u1 u2
      exact ⟨hup.conversation, fun _ _ => ⟨fun h1 => (by rw [hq.connected, h0] at h1; cases h1), fun _ => hup⟩⟩
    have wf : ∀ x : Wr, c'.out = c.out ++ [x] → c.wfail = false := by
      intro x hx
      cases hw : c.wfail with
      | false => rfl
      | true => exact absurd hx (by rw [(wfail_step hg hs hw).2]; simp)
    rcases out_step hg hm hs with ⟨ho, _⟩ | ⟨h1, _⟩ | ⟨_, _, ho, hrun, ht⟩ | ⟨_, hrun, m, a, hmc, _, ho⟩
    · refine ⟨?_, fun h1 h2 => ?_⟩
      · unfold outs; rw [ho, hq.hist]; exact h.conv
      · unfold outs; rw [ho, hq.hist, hq.connected]; exact h.live (back h1) (backw h2)
    · rw [hfr] at h1; cases h1
    · cases h0 : c.connected with
      | false => rw [hi.1 h0] at ht; omega
      | true =>
        refine add hrun (wf _ ho) h0 _ ho ?_
        intro f rest v cx cy h1 h2
        obtain ⟨f', rest', v', cx', cy', k1, k2, k3⟩ := hi.2 h0
        rw [h1] at k1; injection k1 with k1 _; subst k1
        have := h2.unique k2; subst this
        rw [k3] at ht
        exact .beat (connected_agreed h2 _ _ ((raise_pos _ _).1 ht) ht)
    · have ht := htell ⟨some (m.alloc c.lastMsgId a).frame, some m.tag⟩ (by rw [ho]; simp) _ rfl ((allocFrame_command ..).trans hmc)
      cases h0 : c.connected with
      | false =>
        obtain ⟨q, hq', _⟩ := ht.subscription
        rw [hq.hist, first hrun h0] at hq'
        cases hq'
      | true =>
        refine add hrun (wf _ ho) h0 _ ho ?_
        intro f rest v cx cy h1 h2
        rw [hq.hist] at ht
        exact .message _ ht

theorem shape_run {cfg : Config} {es : List Sys.Ev} {s : Sys} (h : Sys.init.run cfg es = some s) (hc : s.crashed = false) :
    ∀ (c : Nat) (k : Conn), s.conns[c]? = some k → Shape cfg k := by
  refine reach_induction (P := fun s => ∀ (c : Nat) (k : Conn), s.conns[c]? = some k → Shape cfg k) (by simp [Sys.init]) ?_ es s h hc
  intro es s e s' h hc h' hc' hs ih c k' hk'
  rcases conns_evol hs hk' with ⟨_, rfl⟩ | ⟨k, hk, ⟨ce, he, hcs⟩ | hO⟩
  · exact ⟨Or.inl rfl, fun _ _ => ⟨fun _ => rfl, fun h => by cases h⟩⟩
  · obtain ⟨ces, hr, henv⟩ := conn_run h hc hk
    have hgm := run_inv (P := fun _ => True) (fun _ _ _ _ _ _ _ _ => trivial) ces k henv trivial hr
    refine shape_step hgm.1 hgm.2.1 (interval_run henv hr) ?_ (ih c k hk) (step_of _ _ _ _ hcs)
    intro w hw g hg hcmd
    obtain ⟨p, f, q, _, _, _, hq, hqc, hd⟩ := C44_delivered_partial cfg _ s' h' hc' c k' hk' w hw g hg hcmd
    obtain ⟨d, _, d2, d3⟩ := hd.destination
    obtain ⟨i, i1, i2⟩ := hd.subscription
    exact ⟨hcmd, hd.messageId, q, hq, hqc, i, d, i1, d3, i2, d2⟩
  · have hs0 := ih c k hk
    obtain ⟨ces, hr, henv⟩ := conn_run h hc hk
    obtain ⟨ces', hr', henv'⟩ := conn_run h' hc' hk'
    have hg := gate_run cfg c ces k hr
    have hg' := gate_run cfg c ces' k' hr'
    have hcon : k'.connected = k.connected := by
      cases h1 : k.connected with
      | true =>
        obtain ⟨f, rest, v, cx, cy, e1, e2, _⟩ := hg.opened h1
        cases h2 : k'.connected with
        | true => rfl
        | false =>
          rcases (hg'.closed h2).2.2.2.2.2.2.2 with e | ⟨⟨f', e, hn⟩, _⟩
          · rw [hO.hist, e1] at e; cases e
          · rw [hO.hist, e1] at e; injection e with e _; subst e; exact absurd ⟨v, cx, cy, e2⟩ hn
      | false =>
        cases h2 : k'.connected with
        | false => rfl
        | true =>
          obtain ⟨f, rest, v, cx, cy, e1, e2, _⟩ := hg'.opened h2
          rw [hO.hist] at e1
          rcases (hg.closed h1).2.2.2.2.2.2.2 with e | ⟨⟨f', e, hn⟩, _⟩
          · rw [e1] at e; cases e
          · rw [e1] at e; injection e with e _; subst e; exact absurd ⟨v, cx, cy, e2⟩ hn
    refine ⟨?_, ?_⟩
    · unfold outs; rw [hO.out, hO.hist]; exact hs0.conv
    · unfold outs; rw [hO.out, hO.hist, hO.stage, hO.wfail, hcon]; exact hs0.live

end Stomp.Server
