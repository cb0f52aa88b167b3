import Verif.Proofs.Server.Output
import Verif.Proofs.Server.SessionInv
/-! # What a RECEIPT written to a client says about the frames processed -/
namespace Stomp.Server
open Stomp

/-- Frames that are never answered with a RECEIPT. -/
def unanswered : List Bytes := [b!"CONNECT", b!"STOMP", b!"SUBSCRIBE", b!"UNSUBSCRIBE"]

/-- A handler that writes has not failed to write, and the frame is one of those that are answered. -/
theorem Handled.wrote {c : Conn} {ok : Bool} {f : Frame} {c' : Conn} {f' : Frame} {r : Res} (h : Handled c ok f c' f' r) :
    c'.out = c.out ∨ (c'.wfail = false ∧ f.command ∉ unanswered ∧ ∃ v, f.header.contains Hdr.receipt = some v ∧ c'.out = c.out ++ [⟨some (receiptFrame v), none⟩]) := by
  have lift : ∀ {c1 : Conn} {f1 : Frame} {k : Bool} (c2 : Conn), Rcpt c ok f c1 f1 k → c2.out = c1.out → c2.wfail = c1.wfail → f.command ∉ unanswered →
      c2.out = c.out ∨ (c2.wfail = false ∧ f.command ∉ unanswered ∧ ∃ v, f.header.contains Hdr.receipt = some v ∧ c2.out = c.out ++ [⟨some (receiptFrame v), none⟩]) := by
    intro c1 f1 k c2 hr h1 h2 hn
    cases hr with
    | none h => exact Or.inl h1
    | sent v h hok hw => exact Or.inr ⟨h2.trans hw, hn, v, h, h1⟩
    | failed v h => exact Or.inl h1
  have nin : ∀ {l : List Bytes}, f.command ∈ l → (∀ x ∈ l, x ∉ unanswered) → f.command ∉ unanswered := fun h1 h2 => h2 _ h1
  have one : ∀ {x : Bytes}, f.command = x → x ∉ unanswered → f.command ∉ unanswered := fun h1 h2 => by rw [h1]; exact h2
  cases h with
  | commitMissing => exact Or.inl rfl
  | commitWrite hc _ _ hr => exact lift _ hr rfl rfl (one hc (by decide))
  | commitUnknown hc _ _ _ hr => exact lift _ hr rfl rfl (one hc (by decide))
  | commit hc _ _ _ _ hr hcm =>
    have : ∀ {a : Conn} {l : List Frame} {b : Conn} {r : Res}, Committed a l b r → b.out = a.out ∧ b.wfail = a.wfail := by
      intro a l b r h
      induction h with
      | nil => exact ⟨rfl, rfl⟩
      | cons h _ ih => exact ⟨ih.1.trans h.out.1, ih.2.trans h.out.2⟩
      | panic h => exact h.out
    exact lift _ hr (this hcm).1 (this hcm).2 (one hc (by decide))
  | basic hnc hb =>
    cases hb with
    | unexpected => exact Or.inl rfl
    | disconnect hc hr => exact lift _ hr rfl rfl (one hc (by decide))
    | refused => exact Or.inl rfl
    | writeFail hc hr => exact lift _ hr rfl rfl (nin hc (by decide))
    | txErr _ _ _ _ hc hr =>
      refine lift _ hr rfl rfl ?_
      rcases hc with ⟨hc, _⟩ | ⟨hc | hc | hc | hc, _⟩ <;> exact one hc (by decide)
    | begin_ _ _ hc _ hr => exact lift _ hr rfl rfl (one hc (by decide))
    | abort _ _ hc _ _ hr => exact lift _ hr rfl rfl (one hc (by decide))
    | store _ _ hc _ _ _ hr =>
      refine lift _ hr rfl rfl ?_
      rcases hc with hc | hc | hc <;> exact one hc (by decide)
    | subscribe hc => exact Or.inl rfl
    | unsubscribe hc => exact Or.inl rfl
    | send hc _ hr => exact lift _ hr rfl rfl (one hc (by decide))
    | ack hc _ _ _ hr => exact lift _ hr rfl rfl (one hc (by decide))
    | nack hc _ _ _ hr => exact lift _ hr rfl rfl (one hc (by decide))

/-- Every RECEIPT among the writes answers one of the frames. -/
def Answered (h : List Frame) (out : List Wr) : Prop :=
  ∀ w ∈ out, ∀ g, w.frame = some g → g.command = b!"RECEIPT" →
    ∃ f ∈ h, ∃ v, Spec.hdr g b!"receipt-id" = some v ∧ Spec.hdr f b!"receipt" = some v ∧ f.command ∉ unanswered

theorem Answered.mono {h h' : List Frame} {out out' : List Wr} (ha : Answered h out) (hh : ∀ f ∈ h, f ∈ h')
    (ho : ∀ w ∈ out', w ∈ out ∨ ∀ g, w.frame = some g → g.command ≠ b!"RECEIPT") : Answered h' out' := by
  intro w hw g hg hc
  rcases ho w hw with h1 | h1
  · obtain ⟨f, hf, v, h2⟩ := ha w h1 g hg hc
    exact ⟨f, hh f hf, v, h2⟩
  · exact absurd hc (h1 g hg)

theorem Answered.snoc {h : List Frame} {out : List Wr} (ha : Answered h out) {f : Frame} {v : Bytes} (hv : f.header.contains Hdr.receipt = some v)
    (hc : f.command ∉ unanswered) : Answered (h ++ [f]) (out ++ [⟨some (receiptFrame v), none⟩]) := by
  intro w hw g hg hgc
  rcases List.mem_append.1 hw with hw | hw
  · obtain ⟨f', hf', v', h2⟩ := ha w hw g hg hgc
    exact ⟨f', by simp [hf'], v', h2⟩
  · rw [List.mem_singleton] at hw; subst hw
    injection hg with hg; subst hg
    refine ⟨f, by simp, v, rfl, ?_, hc⟩
    rw [contains_eq] at hv; exact hv

/-- The session, and which of its frames have been answered. -/
def Conf (cfg : Config) (c : Conn) : Prop :=
  .panic ∈ c.outbox ∨
  ∃ h st, Spec.After cfg.auth h st ∧ c.effective = st.done ∧
    ((c.hist = h ∧ (c.stage = .run → Agrees c st) ∧ Answered h c.out) ∨
     (∃ f, c.hist = h ++ [f] ∧ c.stage ≠ .run ∧ (((¬∃ st', Spec.Step cfg.auth st f st') ∧ Answered (h ++ [f]) c.out) ∨ Answered h c.out)))

theorem Conf.quiet {cfg : Config} {c c' : Conn} (h : Conf cfg c) (q : Quiet c c')
    (ho : ∀ w ∈ c'.out, w ∈ c.out ∨ ∀ g, w.frame = some g → g.command ≠ b!"RECEIPT") : Conf cfg c' := by
  rcases h with h | ⟨h, st, h1, h2, h3⟩
  · exact Or.inl (q.panic h)
  · right
    refine ⟨h, st, h1, q.effective.trans h2, ?_⟩
    rcases h3 with ⟨h3, h4, h5⟩ | ⟨f, h3, h4, h5⟩
    · refine Or.inl ⟨q.hist.trans h3, ?_, h5.mono (fun _ h => h) ho⟩
      intro hr
      have hr' : c.stage = .run := Decidable.byContradiction (fun hn => q.stage hn hr)
      have ha := h4 hr'
      have htx := q.tx.resolve_right (fun hn => hn hr)
      have hsu := q.subs.resolve_right (fun hn => hn hr)
      exact ⟨q.connected.trans ha.opened, fun t => by rw [htx]; exact ha.tx t, fun id => by rw [hsu]; exact ha.subs id⟩
    · refine Or.inr ⟨f, q.hist.trans h3, q.stage h4, ?_⟩
      rcases h5 with ⟨h5, h6⟩ | h5
      · exact Or.inl ⟨h5, h6.mono (fun _ h => h) ho⟩
      · exact Or.inr (h5.mono (fun _ h => h) ho)

theorem conf_frame (cfg : Config) (c : Conn) (ok1 ok2 : Bool) (f : Frame) (q : List Frame) (c' c'' : Conn) (f' : Frame) (r : Res)
    (hg : Gate cfg c) (hs0 : Conf cfg c) (ha : c.atSelect = true)
    (hs : ({ c with inq := q, hist := c.hist ++ [f] } : Conn).stateFunc cfg ok1 f = (c', f', r))
    (hf : Fin cfg c' ok2 f' r c'') : Conf cfg c'' := by
  obtain ⟨hrun, hob⟩ := atSelect_run ha
  obtain ⟨st, h1, h2, h3, h4⟩ : ∃ st, Spec.After cfg.auth c.hist st ∧ c.effective = st.done ∧ (c.stage = .run → Agrees c st) ∧ Answered c.hist c.out := by
    rcases hs0 with h | ⟨h, st, h1, h2, ⟨h3, h4, h5⟩ | ⟨_, _, h3, _⟩⟩
    · rw [hob] at h; simp at h
    · rw [h3]; exact ⟨st, h1, h2, h4, h5⟩
    · exact absurd hrun h3
  have hag := h3 hrun
  have grow : ∀ {out : List Wr}, (∀ w ∈ out, w ∈ c.out ∨ ∀ g, w.frame = some g → g.command ≠ b!"RECEIPT") → Answered (c.hist ++ [f]) out :=
    fun ho => h4.mono (fun _ h => List.mem_append_left _ h) ho
  have plus : ∀ {w : Wr}, (∀ g, w.frame = some g → g.command ≠ b!"RECEIPT") → ∀ w' ∈ c.out ++ [w], w' ∈ c.out ∨ ∀ g, w'.frame = some g → g.command ≠ b!"RECEIPT" := by
    intro w hw w' hw'
    rcases List.mem_append.1 hw' with h | h
    · exact Or.inl h
    · rw [List.mem_singleton] at h; subst h; exact Or.inr hw
  rcases frame_cases hg hs hf with ⟨hcon, v, cx, cy, hac, ⟨_, rfl⟩ | ⟨_, rfl⟩⟩ | ⟨hcon, hna, e, v, ⟨_, rfl⟩ | ⟨_, rfl⟩⟩ | ⟨hcon, hh, hfin⟩
  · have ho : st.opened = false := by rw [← hag.opened]; exact hcon
    refine Or.inr ⟨_, _, h1.snoc (Spec.Step.connect ho ((accepts_iff cfg f).2 ⟨v, cx, cy, hac⟩)), h2, Or.inl ⟨rfl, fun _ => ⟨rfl, hag.tx, hag.subs⟩, ?_⟩⟩
    refine grow (plus ?_)
    intro g hg; injection hg with hg; subst hg; show b!"CONNECTED" ≠ b!"RECEIPT"; decide
  · have ho : st.opened = false := by rw [← hag.opened]; exact hcon
    exact Or.inr ⟨_, _, h1.snoc (Spec.Step.connect ho ((accepts_iff cfg f).2 ⟨v, cx, cy, hac⟩)), h2, Or.inl ⟨rfl, fun _ => ⟨rfl, hag.tx, hag.subs⟩, grow (fun w hw => Or.inl hw)⟩⟩
  · refine Or.inr ⟨_, _, h1, h2, Or.inr ⟨f, rfl, by simp, Or.inr (h4.mono (fun _ h => h) (plus ?_))⟩⟩
    intro g hg; injection hg with hg; subst hg; show b!"ERROR" ≠ b!"RECEIPT"; decide
  · exact Or.inr ⟨_, _, h1, h2, Or.inr ⟨f, rfl, by simp, Or.inr h4⟩⟩
  · have ho : st.opened = true := by rw [← hag.opened]; exact hcon
    have hk := hh.keeps
    have hsp := handled_spec (auth := cfg.auth) hh (st := st) ⟨hag.opened, hag.tx, hag.subs⟩ ho h2
    have hhist : c'.hist = c.hist ++ [f] := hk.hist
    have hw := hh.wrote
    have hans : Answered (c.hist ++ [f]) c'.out := by
      rcases hw with hw | ⟨_, hn, v, hv, hw⟩
      · have hw : c'.out = c.out := hw
        rw [hw]; exact grow (fun w hw => Or.inl hw)
      · have hw : c'.out = c.out ++ [⟨some (receiptFrame v), none⟩] := hw
        rw [hw]; exact h4.snoc hv hn
    have herr : ∀ {g' : Frame} {e : Err}, ∀ w ∈ c'.out ++ [⟨some (errorFrame cfg e g'), none⟩], w ∈ c'.out ∨ ∀ g, w.frame = some g → g.command ≠ b!"RECEIPT" := by
      intro g' e w hw
      rcases List.mem_append.1 hw with h | h
      · exact Or.inl h
      · rw [List.mem_singleton] at h; subst h
        refine Or.inr fun g hg => ?_
        injection hg with hg; subst hg
        show b!"ERROR" ≠ b!"RECEIPT"
        decide
    have fail : c'.wfail = true → c'.out = c.out := by
      intro hx
      rcases hw with hw | ⟨hw, _⟩
      · exact hw
      · rw [hx] at hw; cases hw
    cases hfin with
    | ok =>
      obtain ⟨st', h5, h6, h7⟩ := hsp.1 rfl
      refine Or.inr ⟨_, st', ?_, h6, Or.inl ⟨rfl, fun _ => h7, ?_⟩⟩
      · rw [hhist]; exact h1.snoc h5
      · rw [hhist]; exact hans
    | panic => left; simp
    | err e =>
      obtain ⟨h5, h6⟩ := hsp.2 e rfl
      refine Or.inr ⟨c.hist, st, h1, h5, Or.inr ⟨f, hhist, by simp, ?_⟩⟩
      rcases h6 with h6 | h6
      · exact Or.inl ⟨h6, hans.mono (fun _ h => h) herr⟩
      · refine Or.inr (Answered.mono h4 (fun _ h => h) ?_)
        have := fail h6
        rw [← this]; exact herr
    | errFail e =>
      obtain ⟨h5, h6⟩ := hsp.2 e rfl
      refine Or.inr ⟨c.hist, st, h1, h5, Or.inr ⟨f, hhist, by simp, ?_⟩⟩
      rcases h6 with h6 | h6
      · exact Or.inl ⟨h6, hans⟩
      · refine Or.inr ?_
        have := fail h6
        show Answered _ c'.out
        rw [this]; exact h4

theorem conf_run {cfg : Config} {me : Nat} {es : List Conn.Ev} {c : Conn} (h : (Conn.init me).run cfg es = some c) (he : ∀ e ∈ es, EnvOk e) : Conf cfg c := by
  refine (run_inv (P := Conf cfg) (fun c e c' hg hm he hp hs => ?_) es c he
    (Or.inr ⟨[], _, Spec.After.nil, rfl, Or.inl ⟨rfl, fun _ => ⟨rfl, fun _ => rfl, fun _ => rfl⟩, fun w hw => by cases hw⟩⟩) h).2.2
  cases hfr : isFrame e with
  | false =>
    refine hp.quiet (quiet_step hs hfr) ?_
    rcases out_step hg hm hs with ⟨h1, _⟩ | ⟨h1, _⟩ | ⟨_, _, h1, _, _⟩ | ⟨_, _, m, a, hmc, _, h1⟩
    · rw [h1]; exact fun w hw => Or.inl hw
    · rw [hfr] at h1; cases h1
    · rw [h1]
      intro w hw
      rcases List.mem_append.1 hw with hw | hw
      · exact Or.inl hw
      · rw [List.mem_singleton] at hw; subst hw; exact Or.inr (fun g hg => by cases hg)
    · rw [h1]
      intro w hw
      rcases List.mem_append.1 hw with hw | hw
      · exact Or.inl hw
      · rw [List.mem_singleton] at hw; subst hw
        refine Or.inr fun g hg => ?_
        injection hg with hg; subst hg
        have : (m.alloc c.lastMsgId a).frame.command = Cmd.message := by
          show (allocFrame _ _ _).command = _; rw [allocFrame_command]; exact hmc
        rw [this]; decide
  | true =>
    cases hs with
    | frame ok1 ok2 f q c1 _ f' res ha hq hsf hfin => exact conf_frame cfg c ok1 ok2 f q c1 c' f' res hg hp ha hsf hfin
    | _ => cases hfr

/-! ## Prefixes of a session -/

theorem after_prefix {auth : Bytes → Bytes → Bool} {h : List Frame} {st : Spec.St} (ha : Spec.After auth h st) : ∀ {a b : List Frame}, h = a ++ b →
    ∃ st', Spec.After auth a st' ∧ st'.done <+: st.done := by
  induction ha with
  | nil =>
    intro a b e
    have : a = [] := (List.append_eq_nil_iff.1 e.symm).1
    subst this
    exact ⟨_, .nil, List.prefix_refl _⟩
  | snoc h hs ih =>
    rename_i fs f st st'
    intro a b e
    have hle : st.done <+: st'.done := by cases hs <;> simp
    rcases List.eq_nil_or_concat b with rfl | ⟨b', x, rfl⟩
    · rw [List.append_nil] at e; subst e
      exact ⟨st', .snoc h hs, List.prefix_refl _⟩
    · rw [List.concat_eq_append, ← List.append_assoc] at e
      obtain ⟨e1, e2⟩ := List.append_inj' e rfl
      obtain ⟨st0, h0, h1⟩ := ih e1
      exact ⟨st0, h0, h1.trans hle⟩

theorem after_snoc_inv {auth : Bytes → Bytes → Bool} {h h' : List Frame} {f : Frame} {st : Spec.St} (ha : Spec.After auth h st) (e : h = h' ++ [f]) :
    ∃ st', Spec.After auth h' st' ∧ Spec.Step auth st' f st := by
  cases ha with
  | nil => simp at e
  | snoc ha hs =>
    obtain ⟨e1, e2⟩ := List.append_inj' e rfl
    injection e2 with e2
    subst e1 e2
    exact ⟨_, ha, hs⟩

/-- What a RECEIPT says: the frames before the one that asked for it were a session, whose effects have happened, and so has that of the frame itself, unless it is an error. -/
theorem receipt_session {cfg : Config} {me : Nat} {es : List Conn.Ev} {c : Conn} (h : (Conn.init me).run cfg es = some c) (he : ∀ e ∈ es, EnvOk e)
    (hp : .panic ∉ c.outbox) {w : Wr} (hw : w ∈ c.out) {g : Frame} (hg : w.frame = some g) (hc : g.command = b!"RECEIPT") :
    ∃ a f b v st, c.hist = a ++ f :: b ∧ Spec.hdr g b!"receipt-id" = some v ∧ Spec.hdr f b!"receipt" = some v ∧ f.command ∉ unanswered ∧ Spec.After cfg.auth a st ∧
      ((∃ st', Spec.Step cfg.auth st f st' ∧ st'.done <+: c.effective) ∨ ((¬∃ st', Spec.Step cfg.auth st f st') ∧ c.effective = st.done ∧ b = [])) := by
  rcases conf_run h he with hx | ⟨h0, st, h1, h2, h3⟩
  · exact absurd hx hp
  have inside : Answered h0 c.out → h0 <+: c.hist → ∃ a f b v st, c.hist = a ++ f :: b ∧ Spec.hdr g b!"receipt-id" = some v ∧ Spec.hdr f b!"receipt" = some v ∧ f.command ∉ unanswered ∧ Spec.After cfg.auth a st ∧
      ((∃ st', Spec.Step cfg.auth st f st' ∧ st'.done <+: c.effective) ∨ ((¬∃ st', Spec.Step cfg.auth st f st') ∧ c.effective = st.done ∧ b = [])) := by
    intro ha ⟨tl, htl⟩
    obtain ⟨f, hf, v, hv1, hv2, hv3⟩ := ha w hw g hg hc
    obtain ⟨a, b, rfl⟩ := List.append_of_mem hf
    obtain ⟨st', h4, h5⟩ := after_prefix h1 (a := a ++ [f]) (b := b) (by simp)
    obtain ⟨st0, h6, h7⟩ := after_snoc_inv h4 rfl
    exact ⟨a, f, b ++ tl, v, st0, by rw [← htl]; simp, hv1, hv2, hv3, h6, Or.inl ⟨st', h7, by rw [h2]; exact h5⟩⟩
  rcases h3 with ⟨h3, _, h4⟩ | ⟨f, h3, _, ⟨h4, h5⟩ | h4⟩
  · exact inside h4 (by rw [h3]; exact List.prefix_refl _)
  · obtain ⟨f0, hf, v, hv1, hv2, hv3⟩ := h5 w hw g hg hc
    rcases List.mem_append.1 hf with hf | hf
    · obtain ⟨a, b, rfl⟩ := List.append_of_mem hf
      obtain ⟨st', h4, h5⟩ := after_prefix h1 (a := a ++ [f0]) (b := b) (by simp)
      obtain ⟨st0, h6, h7⟩ := after_snoc_inv h4 rfl
      exact ⟨a, f0, b ++ [f], v, st0, by rw [h3]; simp, hv1, hv2, hv3, h6, Or.inl ⟨st', h7, by rw [h2]; exact h5⟩⟩
    · rw [List.mem_singleton] at hf; subst hf
      exact ⟨h0, f0, [], v, st, h3, hv1, hv2, hv3, h1, Or.inr ⟨h4, h2, rfl⟩⟩
  · exact inside h4 (by rw [h3]; exact List.prefix_append ..)

end Stomp.Server
