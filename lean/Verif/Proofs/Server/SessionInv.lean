import Verif.Proofs.Server.Session
/-! # The server connection implements the session specification: the invariant -/
namespace Stomp.Server
open Stomp

/-- The connection agrees with the session state. -/
structure Agrees (c : Conn) (st : Spec.St) : Prop where
  opened : c.connected = st.opened
  tx : ∀ t, c.tx.get? t = st.tx t
  subs : ∀ id, (c.subs.get? id).isSome = st.subs id

/-- The invariant: unless the process is about to panic, the frames processed so far are a session, or all but the
last are and the last one was an error (or a write failed on it). -/
def Sess (cfg : Config) (c : Conn) : Prop :=
  .panic ∈ c.outbox ∨
  (∃ st, Spec.After cfg.auth c.hist st ∧ c.effective = st.done ∧ (c.stage = .run → Agrees c st)) ∨
  (c.stage ≠ .run ∧ ∃ h f st, c.hist = h ++ [f] ∧ Spec.After cfg.auth h st ∧ c.effective = st.done ∧
    ((¬∃ st', Spec.Step cfg.auth st f st') ∨ c.wfail = true))

theorem Sess.quiet {cfg : Config} {c c' : Conn} (h : Sess cfg c) (q : Quiet c c') : Sess cfg c' := by
  rcases h with h | ⟨st, h1, h2, h3⟩ | ⟨h0, h, f, st, h1, h2, h3, h4⟩
  · exact Or.inl (q.panic h)
  · right; left
    refine ⟨st, by rw [q.hist]; exact h1, by rw [q.effective]; exact h2, ?_⟩
    intro hr
    have hr' : c.stage = .run := Decidable.byContradiction (fun hn => q.stage hn hr)
    have ha := h3 hr'
    have htx := q.tx.resolve_right (fun hn => hn hr)
    have hsu := q.subs.resolve_right (fun hn => hn hr)
    exact ⟨q.connected.trans ha.opened, fun t => by rw [htx]; exact ha.tx t, fun id => by rw [hsu]; exact ha.subs id⟩
  · right; right
    refine ⟨q.stage h0, h, f, st, q.hist.trans h1, h2, q.effective.trans h3, ?_⟩
    rcases h4 with h4 | h4
    · exact Or.inl h4
    · exact Or.inr (q.wfail h4)

theorem Rcpt.frame {c : Conn} {ok : Bool} {f : Frame} {c1 : Conn} {f1 : Frame} {k : Bool} (h : Rcpt c ok f c1 f1 k) :
    c1.effective = c.effective ∧ c1.subs = c.subs ∧ c1.outbox = c.outbox ∧ c1.heap = c.heap ∧ c1.subList = c.subList ∧
    c1.log = c.log ∧ c1.sent = c.sent ∧ c1.acked = c.acked ∧ c1.hist = c.hist ∧ c1.connected = c.connected ∧
    c1.stage = c.stage := by
  cases h <;> exact ⟨rfl, rfl, rfl, rfl, rfl, rfl, rfl, rfl, rfl, rfl, rfl⟩

theorem Applied.effective {c : Conn} {f : Frame} {c' : Conn} {r : Res} (h : Applied c f c' r) :
    c'.effective = c.effective ++ [f] ∧ c'.subs = c.subs := by
  cases h <;> exact ⟨rfl, rfl⟩

theorem Committed.effective {c : Conn} {fs : List Frame} {c' : Conn} {r : Res} (h : Committed c fs c' r) (hr : r = .ok) :
    c'.effective = c.effective ++ fs ∧ c'.subs = c.subs := by
  induction h with
  | nil => simp
  | cons h _ ih =>
    have := h.effective
    have ih := ih hr
    exact ⟨by rw [ih.1, this.1]; simp, by rw [ih.2, this.2]⟩
  | panic => cases hr

theorem Committed.res {c : Conn} {fs : List Frame} {c' : Conn} {r : Res} (h : Committed c fs c' r) : r = .ok ∨ r = .panic := by
  induction h with
  | nil => exact Or.inl rfl
  | cons _ _ ih => exact ih
  | panic => exact Or.inr rfl

instance (b : Bytes) : Decidable (isTxCmd b) := by unfold isTxCmd; infer_instance

theorem spec_cmd_unique {auth : Bytes → Bytes → Bool} {st st' : Spec.St} {f : Frame} (ho : st.opened = true) (h : Spec.Step auth st f st') :
    (f.command = Cmd.disconnect) ∨
    (f.command = Cmd.begin_ ∧ ∃ t, f.header.contains Hdr.transaction = some t ∧ st.tx t = none) ∨
    (f.command = Cmd.abort ∧ ∃ t l, f.header.contains Hdr.transaction = some t ∧ st.tx t = some l) ∨
    (f.command = Cmd.commit ∧ ∃ t l, f.header.contains Hdr.transaction = some t ∧ st.tx t = some l) ∨
    (isTxCmd f.command ∧ (f.command ≠ Cmd.send → (Conn.ackId f).toOption.isSome) ∧
      ∀ t, f.header.contains Hdr.transaction = some t → ∃ l, st.tx t = some l) ∨
    (f.command = Cmd.subscribe ∧ ∃ id dest, f.header.contains Hdr.id = some id ∧ f.header.contains Hdr.destination = some dest ∧
      st.subs id = false) ∨
    (f.command = Cmd.unsubscribe ∧ ∃ id, f.header.contains Hdr.id = some id ∧ st.subs id = true) := by
  have tr : Spec.transactional f → isTxCmd f.command ∧ (f.command ≠ Cmd.send → (Conn.ackId f).toOption.isSome) := by
    rintro (h | ⟨h | h, h'⟩)
    · exact ⟨Or.inl h, fun hn => absurd h hn⟩
    · exact ⟨Or.inr (Or.inl h), fun _ => (ackId_some f).2 h'⟩
    · exact ⟨Or.inr (Or.inr h), fun _ => (ackId_some f).2 h'⟩
  cases h with
  | connect h => rw [h] at ho; cases ho
  | disconnect _ hc => exact Or.inl hc
  | begin_ t _ hc ht hn => exact Or.inr (Or.inl ⟨hc, t, by rw [contains_eq]; exact ht, hn⟩)
  | abort t l _ hc ht hl => exact Or.inr (Or.inr (Or.inl ⟨hc, t, l, by rw [contains_eq]; exact ht, hl⟩))
  | commit t l _ hc ht hl => exact Or.inr (Or.inr (Or.inr (Or.inl ⟨hc, t, l, by rw [contains_eq]; exact ht, hl⟩)))
  | hold t l _ hc ht hl =>
    refine Or.inr (Or.inr (Or.inr (Or.inr (Or.inl ⟨(tr hc).1, (tr hc).2, ?_⟩))))
    intro t' ht'
    rw [contains_eq] at ht'
    have : Stomp.Spec.firstValue f.header Hdr.transaction = some t := ht
    rw [this] at ht'; injection ht' with e; subst e; exact ⟨l, hl⟩
  | now _ hc ht =>
    refine Or.inr (Or.inr (Or.inr (Or.inr (Or.inl ⟨(tr hc).1, (tr hc).2, ?_⟩))))
    intro t' ht'
    rw [contains_eq] at ht'
    have : Stomp.Spec.firstValue f.header Hdr.transaction = none := ht
    rw [this] at ht'; cases ht'
  | subscribe id dest _ hc hi hd hs =>
    exact Or.inr (Or.inr (Or.inr (Or.inr (Or.inr (Or.inl ⟨hc, id, dest, by rw [contains_eq]; exact hi, by rw [contains_eq]; exact hd, hs⟩)))))
  | unsubscribe id _ hc hi hs =>
    exact Or.inr (Or.inr (Or.inr (Or.inr (Or.inr (Or.inr ⟨hc, id, by rw [contains_eq]; exact hi, hs⟩)))))

theorem transactional_of {f : Frame} (hc : isTxCmd f.command) (hid : f.command ≠ Cmd.send → (Conn.ackId f).toOption.isSome) :
    Spec.transactional f := by
  by_cases h : f.command = Cmd.send
  · exact Or.inl h
  · exact Or.inr ⟨hc.resolve_left h, (ackId_some f).1 (hid h)⟩

/-- One frame of a connected connection: success is a transition of the specification, an error is not. -/
theorem handled_spec {auth : Bytes → Bytes → Bool} {c : Conn} {ok : Bool} {f : Frame} {c' : Conn} {f' : Frame} {r : Res}
    (h : Handled c ok f c' f' r) {st : Spec.St} (ha : Agrees c st) (ho : st.opened = true) (he : c.effective = st.done) :
    (r = .ok → ∃ st', Spec.Step auth st f st' ∧ c'.effective = st'.done ∧ Agrees c' st') ∧
    (∀ e, r = .err e → c'.effective = st.done ∧ ((¬∃ st', Spec.Step auth st f st') ∨ c'.wfail = true)) := by
  have hd : ∀ k v, f.header.contains k = some v → Spec.hdr f k = some v := fun k v h => by rw [contains_eq] at h; exact h
  have hd0 : ∀ k, f.header.contains k = none → Spec.hdr f k = none := fun k h => by rw [contains_eq] at h; exact h
  have hk := h.keeps
  have hcon : c'.connected = st.opened := hk.connected.trans ha.opened
  have wf : ∀ {c1 : Conn} {f1 : Frame}, Rcpt c ok f c1 f1 false → c1.wfail = true := by
    intro c1 f1 hr; cases hr; rfl
  have upds : ∀ (m : TxStore) (t : Bytes) (v : List Frame), (∀ x, m.get? x = st.tx x) →
      ∀ x, (m.set t v).get? x = Spec.upd st.tx t (some v) x := by
    intro m t v hm x
    rw [AMap.get?_set, Spec.upd]
    by_cases hx : x = t
    · rw [if_pos hx.symm, if_pos hx]
    · rw [if_neg (Ne.symm hx), if_neg hx, hm]
  have updd : ∀ (m : TxStore) (t : Bytes), (∀ x, m.get? x = st.tx x) →
      ∀ x, (m.del t).get? x = Spec.upd st.tx t none x := by
    intro m t hm x
    rw [AMap.get?_del, Spec.upd]
    by_cases hx : x = t
    · rw [if_pos hx.symm, if_pos hx]
    · rw [if_neg (Ne.symm hx), if_neg hx, hm]
  cases h with
  | commitMissing hc ht =>
    refine ⟨fun h => (by cases h), fun e _ => ⟨he, Or.inl ?_⟩⟩
    rintro ⟨st', hst⟩
    rcases spec_cmd_unique ho hst with h | ⟨h, _⟩ | ⟨h, _⟩ | ⟨h, t, l, h', _⟩ | ⟨h, _⟩ | ⟨h, _⟩ | ⟨h, _⟩
    · rw [hc] at h; revert h; decide
    · rw [hc] at h; revert h; decide
    · rw [hc] at h; revert h; decide
    · rw [ht] at h'; cases h'
    · rw [hc] at h; revert h; decide
    · rw [hc] at h; revert h; decide
    · rw [hc] at h; revert h; decide
  | commitWrite hc t ht hr =>
    exact ⟨fun h => (by cases h), fun e _ => ⟨hr.frame.1.trans he, Or.inr (wf hr)⟩⟩
  | commitUnknown hc t ht hn hr =>
    refine ⟨fun h => (by cases h), fun e _ => ⟨hr.frame.1.trans he, Or.inl ?_⟩⟩
    rintro ⟨st', hst⟩
    rcases spec_cmd_unique ho hst with h | ⟨h, _⟩ | ⟨h, _⟩ | ⟨h, t', l, h', hl⟩ | ⟨h, _⟩ | ⟨h, _⟩ | ⟨h, _⟩
    · rw [hc] at h; revert h; decide
    · rw [hc] at h; revert h; decide
    · rw [hc] at h; revert h; decide
    · rw [ht] at h'; injection h' with h'; subst h'; rw [← ha.tx, hn] at hl; cases hl
    · rw [hc] at h; revert h; decide
    · rw [hc] at h; revert h; decide
    · rw [hc] at h; revert h; decide
  | commit hc t ht l hl hr hcm =>
    refine ⟨fun h => ?_, fun e h => ?_⟩
    · have hce := hcm.effective h
      refine ⟨_, Spec.Step.commit t l ho hc (hd _ _ ht) (by rw [← ha.tx]; exact hl), ?_, hcon, updd _ _ ha.tx, ?_⟩
      · rw [hce.1, hr.frame.1, he]
      · intro id; rw [hce.2, hr.frame.2.1]; exact ha.subs id
    · exfalso
      have := hcm.res
      rcases this with h' | h' <;> rw [h'] at h <;> cases h
  | basic hnc hb =>
    cases hb with
    | unexpected e hu h =>
      refine ⟨fun h => (by cases h), fun e _ => ⟨he, Or.inl ?_⟩⟩
      rintro ⟨st', hst⟩
      rcases spec_cmd_unique ho hst with h' | ⟨h', _⟩ | ⟨h', _⟩ | ⟨h', _⟩ | ⟨h' | h' | h', _⟩ | ⟨h', _⟩ | ⟨h', _⟩
      all_goals first | exact hnc h' | (rw [h'] at h; revert h; decide)
    | disconnect hc hr =>
      refine ⟨fun _ => ⟨st, Spec.Step.disconnect ho hc, hr.frame.1.trans he, hcon, ?_, ?_⟩, fun e h => (by cases h)⟩
      · intro t; rw [hr.tx]; exact ha.tx t
      · intro id; rw [hr.frame.2.1]; exact ha.subs id
    | refused e h hne hwhy hsub hunsub hack =>
      refine ⟨fun h => (by cases h), fun e _ => ⟨he, Or.inl ?_⟩⟩
      rintro ⟨st', hst⟩
      rcases spec_cmd_unique ho hst with h' | ⟨h', t, ht, _⟩ | ⟨h', t, l, ht, _⟩ | ⟨h', _⟩ | ⟨h', hi, _⟩ | ⟨h', id, dest, hi, hde, hs⟩ | ⟨h', id, hi, hs⟩
      · rw [h'] at h; revert h; decide
      · rw [hwhy (Or.inl h')] at ht; cases ht
      · rw [hwhy (Or.inr h')] at ht; cases ht
      · exact hnc h'
      · rcases h' with h' | h' | h'
        · rw [h'] at h; revert h; decide
        · have h1 := hack (Or.inl h')
          have h2 := hi (by rw [h']; decide)
          rw [h1] at h2; cases h2
        · have h1 := hack (Or.inr h')
          have h2 := hi (by rw [h']; decide)
          rw [h1] at h2; cases h2
      · rcases hsub h' with h1 | h1 | ⟨id', h1, h2⟩
        · rw [hi] at h1; cases h1
        · rw [hde] at h1; cases h1
        · rw [hi] at h1; injection h1 with h1; subst h1
          rw [ha.subs, hs] at h2; cases h2
      · rcases hunsub h' with h1 | ⟨id', h1, h2⟩
        · rw [hi] at h1; cases h1
        · rw [hi] at h1; injection h1 with h1; subst h1
          rw [← ha.subs, h2] at hs; cases hs
    | writeFail hc hr => exact ⟨fun h => (by cases h), fun e _ => ⟨hr.frame.1.trans he, Or.inr (wf hr)⟩⟩
    | txErr e t ht hee hc hr =>
      refine ⟨fun h => (by cases h), fun e _ => ⟨hr.frame.1.trans he, Or.inl ?_⟩⟩
      rintro ⟨st', hst⟩
      rcases spec_cmd_unique ho hst with h' | ⟨h', t', ht', hn⟩ | ⟨h', t', l, ht', hn⟩ | ⟨h', _⟩ | ⟨h', hi, hn⟩ | ⟨h', _⟩ | ⟨h', _⟩
      · rcases hc with ⟨hc, _⟩ | ⟨hc | hc, _⟩
        all_goals (rw [h'] at hc; revert hc; decide)
      · rw [ht] at ht'; injection ht' with ht'; subst ht'
        rcases hc with ⟨_, hc⟩ | ⟨hc | hc, _⟩
        · rw [ha.tx, hn] at hc; cases hc
        · rw [h'] at hc; revert hc; decide
        · rw [h'] at hc; revert hc; decide
      · rw [ht] at ht'; injection ht' with ht'; subst ht'
        rcases hc with ⟨hc, _⟩ | ⟨_, hc⟩
        · rw [h'] at hc; revert hc; decide
        · rw [ha.tx, hn] at hc; cases hc
      · exact hnc h'
      · obtain ⟨l, hn⟩ := hn t ht
        rcases hc with ⟨hc, _⟩ | ⟨_, hc⟩
        · rw [hc] at h'; revert h'; decide
        · rw [ha.tx, hn] at hc; cases hc
      · rcases hc with ⟨hc, _⟩ | ⟨hc | hc, _⟩
        all_goals (rw [h'] at hc; revert hc; decide)
      · rcases hc with ⟨hc, _⟩ | ⟨hc | hc, _⟩
        all_goals (rw [h'] at hc; revert hc; decide)
    | begin_ t ht hc hn hr =>
      refine ⟨fun _ => ⟨_, Spec.Step.begin_ t ho hc (hd _ _ ht) (by rw [← ha.tx]; exact hn), hr.frame.1.trans he, hcon, upds _ _ _ ha.tx, ?_⟩, fun e h => (by cases h)⟩
      intro id; rw [hr.frame.2.1]; exact ha.subs id
    | abort t ht hc l hl hr =>
      refine ⟨fun _ => ⟨_, Spec.Step.abort t l ho hc (hd _ _ ht) (by rw [← ha.tx]; exact hl), hr.frame.1.trans he, hcon, updd _ _ ha.tx, ?_⟩, fun e h => (by cases h)⟩
      intro id; rw [hr.frame.2.1]; exact ha.subs id
    | store t ht hc hid l hl hr =>
      refine ⟨fun _ => ⟨_, Spec.Step.hold t l ho (transactional_of hc hid) (hd _ _ ht) (by rw [← ha.tx]; exact hl), hr.frame.1.trans he, hcon, ?_, ?_⟩, fun e h => (by cases h)⟩
      · rw [hr.frame_eq, clean_eq]; exact upds _ _ _ ha.tx
      · intro id; rw [hr.frame.2.1]; exact ha.subs id
    | subscribe hc id dest hi hde hn =>
      refine ⟨fun _ => ⟨_, Spec.Step.subscribe id dest ho hc (hd _ _ hi) (hd _ _ hde) (by rw [← ha.subs, hn]; rfl), he, hcon, ha.tx, ?_⟩, fun e h => (by cases h)⟩
      intro x
      show ((c.subs.set id c.heap.length).get? x).isSome = Spec.upd st.subs id true x
      rw [AMap.get?_set, Spec.upd]
      by_cases hx : x = id
      · rw [if_pos hx.symm, if_pos hx]; rfl
      · rw [if_neg (Ne.symm hx), if_neg hx, ha.subs]
    | unsubscribe hc id hi i hs =>
      refine ⟨fun _ => ⟨_, Spec.Step.unsubscribe id ho hc (hd _ _ hi) (by rw [← ha.subs, hs]; rfl), he, hcon, ha.tx, ?_⟩, fun e h => (by cases h)⟩
      intro x
      show ((c.subs.del id).get? x).isSome = Spec.upd st.subs id false x
      rw [AMap.get?_del, Spec.upd]
      by_cases hx : x = id
      · rw [if_pos hx.symm, if_pos hx]; rfl
      · rw [if_neg (Ne.symm hx), if_neg hx, ha.subs]
    | send hc ht hr =>
      refine ⟨fun _ => ⟨_, Spec.Step.now ho (Or.inl hc) (hd0 _ ht), ?_, hcon, ?_, ?_⟩, fun e h => (by cases h)⟩
      · have e1 := hr.frame_eq
        rw [clean_of_noTx (hd0 _ ht)] at e1
        show (sendApply _ _).effective = _
        rw [← e1, ← he, ← hr.frame.1]; rfl
      · intro t; show AMap.get? (Conn.tx _) t = _; rw [← ha.tx, ← hr.tx]; rfl
      · intro id; rw [← ha.subs, ← hr.frame.2.1]; rfl
    | ack hc ht n hid hr =>
      refine ⟨fun _ => ⟨_, Spec.Step.now ho (Or.inr ⟨Or.inl hc, n, (ackId_ok f n).1 hid⟩) (hd0 _ ht), ?_, hcon, ?_, ?_⟩, fun e h => ?_⟩
      · have e1 := hr.frame_eq
        rw [clean_of_noTx (hd0 _ ht)] at e1
        show _ = st.done ++ [Spec.clean f]
        rw [← e1, ← he, ← hr.frame.1]; rfl
      · intro t; show AMap.get? (Conn.tx _) t = _; rw [← ha.tx, ← hr.tx]; rfl
      · intro id; rw [← ha.subs, ← hr.frame.2.1]; rfl
      · exfalso
        revert h
        unfold Conn.applyAck
        dsimp only
        split <;> intro h <;> cases h
    | nack hc ht n hid hr =>
      refine ⟨fun _ => ⟨_, Spec.Step.now ho (Or.inr ⟨Or.inr hc, n, (ackId_ok f n).1 hid⟩) (hd0 _ ht), ?_, hcon, ?_, ?_⟩, fun e h => (by cases h)⟩
      · have e1 := hr.frame_eq
        rw [clean_of_noTx (hd0 _ ht)] at e1
        show _ = st.done ++ [Spec.clean f]
        rw [← e1, ← he, ← hr.frame.1]; rfl
      · intro t; show AMap.get? (Conn.tx _) t = _; rw [← ha.tx, ← hr.tx]; rfl
      · intro id; rw [← ha.subs, ← hr.frame.2.1]; rfl

theorem sess_frame (cfg : Config) (c : Conn) (ok1 ok2 : Bool) (f : Frame) (q : List Frame) (c' c'' : Conn) (f' : Frame) (r : Res)
    (hg : Gate cfg c) (hs0 : Sess cfg c) (ha : c.atSelect = true)
    (hs : ({ c with inq := q, hist := c.hist ++ [f] } : Conn).stateFunc cfg ok1 f = (c', f', r))
    (hf : Fin cfg c' ok2 f' r c'') : Sess cfg c'' := by
  obtain ⟨hrun, hob⟩ := atSelect_run ha
  obtain ⟨st, h1, h2, h3⟩ : ∃ st, Spec.After cfg.auth c.hist st ∧ c.effective = st.done ∧ (c.stage = .run → Agrees c st) := by
    rcases hs0 with h | h | ⟨h0, _⟩
    · rw [hob] at h; simp at h
    · exact h
    · exact absurd hrun h0
  have hag := h3 hrun
  by_cases hc : c.connected = true
  · have ho : st.opened = true := by rw [← hag.opened]; exact hc
    have hh := handled cfg { c with inq := q, hist := c.hist ++ [f] } ok1 f hc hg.tx
    rw [hs] at hh
    dsimp only at hh
    have hk := hh.keeps
    have hsp := handled_spec (auth := cfg.auth) hh (st := st) ⟨hag.opened, hag.tx, hag.subs⟩ ho h2
    have hhist : c'.hist = c.hist ++ [f] := hk.hist
    cases hf with
    | ok =>
      obtain ⟨st', h4, h5, h6⟩ := hsp.1 rfl
      exact Or.inr (Or.inl ⟨st', by rw [hhist]; exact h1.snoc h4, h5, fun _ => h6⟩)
    | panic => left; simp
    | err e =>
      obtain ⟨h4, h5⟩ := hsp.2 e rfl
      exact Or.inr (Or.inr ⟨by simp, c.hist, f, st, hhist, h1, h4, h5⟩)
    | errFail e =>
      obtain ⟨h4, h5⟩ := hsp.2 e rfl
      exact Or.inr (Or.inr ⟨by simp, c.hist, f, st, hhist, h1, h4, Or.inr rfl⟩)
  · have hc : c.connected = false := by simpa using hc
    have ho : st.opened = false := by rw [← hag.opened]; exact hc
    unfold Conn.stateFunc at hs
    rw [if_pos (by simp [hc])] at hs
    rcases connecting_cases cfg { c with inq := q, hist := c.hist ++ [f] } ok1 f with ⟨v, cx, cy, hac, he⟩ | ⟨hna, e, v, he⟩
    · have hst := h1.snoc (Spec.Step.connect ho ((accepts_iff cfg f).2 ⟨v, cx, cy, hac⟩))
      rw [he] at hs
      dsimp only at hs
      rcases Conn.write_cases ({ c with inq := q, hist := c.hist ++ [f], version := v, writeTimeout := Conn.raise cy (asMilliseconds cfg.heartBeat maxHeartBeat) } : Conn) ok1
        (some (connectedFrame v (Conn.raise cx (asMilliseconds cfg.heartBeat maxHeartBeat)) (Conn.raise cy (asMilliseconds cfg.heartBeat maxHeartBeat)))) none with ⟨_, _, hw⟩ | ⟨_, hw⟩
      · rw [hw] at hs
        injection hs with e1 e2
        injection e2 with e2 e3
        subst e1 e3
        cases hf
        exact Or.inr (Or.inl ⟨_, hst, h2, fun _ => ⟨rfl, hag.tx, hag.subs⟩⟩)
      · rw [hw] at hs
        injection hs with e1 e2
        injection e2 with e2 e3
        subst e1 e3
        cases hf
        exact Or.inr (Or.inl ⟨_, hst, h2, fun _ => ⟨rfl, hag.tx, hag.subs⟩⟩)
    · have hno : ¬∃ st', Spec.Step cfg.auth st f st' := by
        rintro ⟨st', h⟩
        cases h with
        | connect _ h => exact hna ((accepts_iff cfg f).1 h)
        | disconnect h => rw [ho] at h; cases h
        | begin_ _ h => rw [ho] at h; cases h
        | abort _ _ h => rw [ho] at h; cases h
        | commit _ _ h => rw [ho] at h; cases h
        | hold _ _ h => rw [ho] at h; cases h
        | now h => rw [ho] at h; cases h
        | subscribe _ _ h => rw [ho] at h; cases h
        | unsubscribe _ h => rw [ho] at h; cases h
      rw [he] at hs
      injection hs with e1 e2
      injection e2 with e2 e3
      subst e1 e3
      cases hf with
      | err e => exact Or.inr (Or.inr ⟨by simp, c.hist, f, st, rfl, h1, h2, Or.inl hno⟩)
      | errFail e => exact Or.inr (Or.inr ⟨by simp, c.hist, f, st, rfl, h1, h2, Or.inl hno⟩)

theorem sess_run (cfg : Config) (me : Nat) (es : List Conn.Ev) (c : Conn) (h : (Conn.init me).run cfg es = some c) :
    Sess cfg c := by
  have := run_induction (cfg := cfg) (P := fun c => Gate cfg c ∧ Sess cfg c) (Q := fun _ => True) ?_ es (Conn.init me) c
    (fun _ _ => trivial) ⟨gate_init cfg me, Or.inr (Or.inl ⟨_, Spec.After.nil, rfl, fun _ => ⟨rfl, fun _ => rfl, fun _ => rfl⟩⟩)⟩ h
  · exact this.2
  · intro c e c' _ hp hs
    refine ⟨gate_step cfg c e c' hp.1 hs, ?_⟩
    cases hfr : isFrame e with
    | false => exact hp.2.quiet (quiet_step hs hfr)
    | true =>
      cases hs with
      | frame ok1 ok2 f q c1 _ f' r ha hq hsf hfin => exact sess_frame cfg c ok1 ok2 f q c1 c' f' r hp.1 hp.2 ha hsf hfin
      | _ => cases hfr

end Stomp.Server
