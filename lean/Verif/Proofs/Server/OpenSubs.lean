import Verif.Proofs.Server.Writes
import Verif.Proofs.Server.SubIds
import Verif.Proofs.Server.SubFrom
import Verif.Spec.Subscriptions
/-! # The subscriptions of a connection are those its frames have left open -/
namespace Stomp.Server
open Stomp
open Stomp.Spec (firstValue)

/-- A handled frame that leaves the subscriptions alone was refused or is neither SUBSCRIBE nor UNSUBSCRIBE. -/
theorem Handled.subsExact {c : Conn} {ok : Bool} {f : Frame} {c' : Conn} {f' : Frame} {r : Res} (h : Handled c ok f c' f' r) :
    (∃ e, r = .err e) ∨
    (f.command ≠ Cmd.subscribe ∧ f.command ≠ Cmd.unsubscribe ∧ c'.subs = c.subs ∧
      c'.heap.map (fun s => (s.id, s.dest, s.ack, s.msgId)) = c.heap.map (fun s => (s.id, s.dest, s.ack, s.msgId))) ∨
    (f.command = Cmd.subscribe ∧ ∃ id dest, f.header.contains Hdr.id = some id ∧ f.header.contains Hdr.destination = some dest ∧
      c.subs.get? id = none ∧ c'.subs = c.subs.set id c.heap.length ∧
      c'.heap = c.heap ++ [newSubscription dest id ((f.header.contains Hdr.ack).getD ackAuto)]) ∨
    (f.command = Cmd.unsubscribe ∧ ∃ id i, f.header.contains Hdr.id = some id ∧ c.subs.get? id = some i ∧
      c'.subs = c.subs.del id ∧ c'.heap = c.heap) := by
  have key : ∀ {c1 : Conn} {f1 : Frame} {k : Bool}, Rcpt c ok f c1 f1 k → c1.subs = c.subs ∧ c1.heap = c.heap := by
    intro c1 f1 k hr; exact ⟨hr.frame.2.1, hr.frame.2.2.2.1⟩
  have ne : ∀ {x : Bytes}, f.command = x → x ≠ Cmd.subscribe → x ≠ Cmd.unsubscribe → f.command ≠ Cmd.subscribe ∧ f.command ≠ Cmd.unsubscribe :=
    fun h h1 h2 => by rw [h]; exact ⟨h1, h2⟩
  cases h with
  | commitMissing => exact Or.inl ⟨_, rfl⟩
  | commitWrite => exact Or.inl ⟨_, rfl⟩
  | commitUnknown => exact Or.inl ⟨_, rfl⟩
  | commit hc _ _ _ _ hr hcm =>
    obtain ⟨n1, n2⟩ := ne hc (by decide) (by decide)
    exact Or.inr (Or.inl ⟨n1, n2, hcm.static.1.trans (key hr).1, hcm.static.2.trans (by rw [(key hr).2])⟩)
  | basic hnc hb =>
    cases hb with
    | unexpected => exact Or.inl ⟨_, rfl⟩
    | disconnect hc hr =>
      obtain ⟨n1, n2⟩ := ne hc (by decide) (by decide)
      exact Or.inr (Or.inl ⟨n1, n2, (key hr).1, by rw [(key hr).2]⟩)
    | refused => exact Or.inl ⟨_, rfl⟩
    | writeFail => exact Or.inl ⟨_, rfl⟩
    | txErr => exact Or.inl ⟨_, rfl⟩
    | begin_ _ _ hc _ hr =>
      obtain ⟨n1, n2⟩ := ne hc (by decide) (by decide)
      exact Or.inr (Or.inl ⟨n1, n2, (key hr).1, by dsimp only; rw [(key hr).2]⟩)
    | abort _ _ hc _ _ hr =>
      obtain ⟨n1, n2⟩ := ne hc (by decide) (by decide)
      exact Or.inr (Or.inl ⟨n1, n2, (key hr).1, by dsimp only; rw [(key hr).2]⟩)
    | store _ _ hc _ _ _ hr =>
      have hn : f.command ≠ Cmd.subscribe ∧ f.command ≠ Cmd.unsubscribe := by
        rcases hc with hc | hc | hc <;> exact ne hc (by decide) (by decide)
      exact Or.inr (Or.inl ⟨hn.1, hn.2, (key hr).1, by dsimp only; rw [(key hr).2]⟩)
    | subscribe hc id dest hi hd hn => exact Or.inr (Or.inr (Or.inl ⟨hc, id, dest, hi, hd, hn, rfl, rfl⟩))
    | unsubscribe hc id hi i hs => exact Or.inr (Or.inr (Or.inr ⟨hc, id, i, hi, hs, rfl, rfl⟩))
    | send hc _ hr =>
      obtain ⟨n1, n2⟩ := ne hc (by decide) (by decide)
      exact Or.inr (Or.inl ⟨n1, n2, (key hr).1, by show List.map _ _ = _; unfold sendApply; dsimp only [Conn.emit]; rw [(key hr).2]⟩)
    | ack hc _ _ _ hr =>
      obtain ⟨n1, n2⟩ := ne hc (by decide) (by decide)
      exact Or.inr (Or.inl ⟨n1, n2, (key hr).1, (static_clearFrames _ _).trans (by dsimp only; rw [(key hr).2])⟩)
    | nack hc _ _ _ hr =>
      obtain ⟨n1, n2⟩ := ne hc (by decide) (by decide)
      exact Or.inr (Or.inl ⟨n1, n2, (key hr).1, (static_clearFrames _ _).trans (by dsimp only; rw [(key hr).2])⟩)

/-- What is kept of the subscriptions. -/
def subView (c : Conn) : List (Bytes × Bytes) := c.subs.map (fun e => (e.1, (deref c.heap e.2).dest))

/-- While the connection serves frames, its subscriptions are those open after the frames it has processed. -/
structure OpenInv (c : Conn) : Prop where
  subs : c.stage = .run → subView c = Spec.openSubs c.hist
  heap : c.stage = .run → c.heap.map (fun s => (s.id, s.dest)) = c.hist.filterMap Spec.opens

theorem openSubs_snoc (fs : List Frame) (f : Frame) : Spec.openSubs (fs ++ [f]) = Spec.openStep (Spec.openSubs fs) f := by
  simp [Spec.openSubs]

theorem subView_static {c c' : Conn} (h1 : c'.subs = c.subs)
    (h2 : c'.heap.map (fun s => (s.id, s.dest, s.ack, s.msgId)) = c.heap.map (fun s => (s.id, s.dest, s.ack, s.msgId))) : subView c' = subView c := by
  unfold subView
  rw [h1]
  refine List.map_congr_left (fun e _ => ?_)
  rw [((ids_static h2).2 e.2).2.1]

theorem heapView_static {h h' : List Sub}
    (e : h'.map (fun s => (s.id, s.dest, s.ack, s.msgId)) = h.map (fun s => (s.id, s.dest, s.ack, s.msgId))) :
    h'.map (fun s => (s.id, s.dest)) = h.map (fun s => (s.id, s.dest)) := by
  have := congrArg (List.map (fun t : Bytes × Bytes × Bytes × Nat => (t.1, t.2.1))) e
  simpa [List.map_map, Function.comp_def] using this

theorem map_set_new {m : AMap Nat} {k : Bytes} {v : Nat} (h : m.get? k = none) : m.set k v = m ++ [(k, v)] := by
  induction m with
  | nil => rfl
  | cons e m ih =>
    obtain ⟨a, b⟩ := e
    unfold AMap.get? at h
    unfold AMap.set
    split at h
    · cases h
    · rename_i hne
      rw [if_neg hne, ih h]; rfl

theorem del_filter (m : AMap Nat) (k : Bytes) : m.del k = m.filter (fun e => decide (e.1 ≠ k)) := by
  induction m with
  | nil => rfl
  | cons e m ih =>
    obtain ⟨a, b⟩ := e
    unfold AMap.del
    by_cases h : a = k
    · rw [if_pos h, List.filter_cons_of_neg (by simp [h]), ih]
    · rw [if_neg h, List.filter_cons_of_pos (by simp [h]), ih]

theorem other_opens {f : Frame} (h1 : f.command ≠ Cmd.subscribe) : Spec.opens f = none := by
  exact if_neg h1

theorem other_closes {f : Frame} (h1 : f.command ≠ Cmd.unsubscribe) : Spec.closes f = none := by
  exact if_neg h1

theorem OpenInv.other {c c' : Conn} {f : Frame} (hp : OpenInv c) (hrun : c.stage = .run) (h1 : f.command ≠ Cmd.subscribe)
    (h2 : f.command ≠ Cmd.unsubscribe) (hs : c'.subs = c.subs)
    (hh : c'.heap.map (fun s => (s.id, s.dest, s.ack, s.msgId)) = c.heap.map (fun s => (s.id, s.dest, s.ack, s.msgId)))
    (hist : c'.hist = c.hist ++ [f]) : OpenInv c' := by
  refine ⟨fun _ => ?_, fun _ => ?_⟩
  · rw [hist, openSubs_snoc, subView_static hs hh, hp.subs hrun]
    unfold Spec.openStep
    rw [other_opens h1, other_closes h2]
  · rw [hist, heapView_static hh, hp.heap hrun, List.filterMap_append]
    simp [other_opens h1]

theorem openInv_step {cfg : Config} {c : Conn} {e : Conn.Ev} {c' : Conn} (hg : Gate cfg c) (hso : SubsOk c) (hp : OpenInv c)
    (h : Step cfg c e c') : OpenInv c' := by
  cases hfr : isFrame e with
  | false =>
    have q := quiet_step h hfr
    have hst : c'.stage = .run → c.stage = .run := fun h1 => Classical.byContradiction (fun h2 => q.stage h2 h1)
    refine ⟨fun h1 => ?_, fun h1 => ?_⟩
    · rcases q.subs with h2 | h2
      · rw [subView_static h2 q.heap, q.hist]; exact hp.subs (hst h1)
      · exact absurd h1 h2
    · rw [heapView_static q.heap, q.hist]; exact hp.heap (hst h1)
  | true =>
    cases h with
    | frame ok1 ok2 f q c1 _ f' r ha hq hsf hfin =>
      have hrun : c.stage = .run := (atSelect_run ha).1
      rcases frame_cases hg hsf hfin with ⟨_, v, cx, cy, hacc, hc⟩ | ⟨_, _, e, v, ⟨_, rfl⟩ | ⟨_, rfl⟩⟩ | ⟨_, hh', hf⟩
      · have hn : f.command ≠ Cmd.subscribe ∧ f.command ≠ Cmd.unsubscribe := by
          rcases hacc.command with h | h <;> rw [h] <;> exact ⟨by decide, by decide⟩
        rcases hc with ⟨_, rfl⟩ | ⟨_, rfl⟩
        · exact hp.other hrun hn.1 hn.2 rfl rfl rfl
        · exact hp.other hrun hn.1 hn.2 rfl rfl rfl
      · exact ⟨fun h => by simp at h, fun h => by simp at h⟩
      · exact ⟨fun h => by simp at h, fun h => by simp at h⟩
      · have hk : c1.hist = c.hist ++ [f] := hh'.keeps.hist
        rcases hh'.subsExact with ⟨e, rfl⟩ | ⟨n1, n2, h1, h2⟩ | ⟨hc, id, dest, hid, hd, hn, h1, h2⟩ | ⟨hc, id, i, hid, hi, h1, h2⟩
        · cases hf <;> exact ⟨fun h => by simp at h, fun h => by simp at h⟩
        · have := hp.other hrun n1 n2 h1 h2 hk
          cases hf
          · exact this
          · exact ⟨this.subs, this.heap⟩
          · exact ⟨fun h => by simp at h, fun h => by simp at h⟩
          · exact ⟨fun h => by simp at h, fun h => by simp at h⟩
        · have h1 : c1.subs = c.subs.set id c.heap.length := h1
          have h2 : c1.heap = c.heap ++ [_] := h2
          have hn : c.subs.get? id = none := hn
          have hask : Spec.opens f = some (id, dest) := by
            unfold Spec.opens Spec.hdr
            rw [contains_eq] at hid hd
            rw [if_pos (show f.command = b!"SUBSCRIBE" from hc), show firstValue f.header b!"id" = some id from hid, show firstValue f.header b!"destination" = some dest from hd]
          have this : OpenInv c1 := by
            refine ⟨fun _ => ?_, fun _ => ?_⟩
            · rw [hk, openSubs_snoc, ← hp.subs hrun]
              unfold Spec.openStep
              rw [hask]
              dsimp only
              unfold subView
              rw [h1, map_set_new hn, h2, List.map_append]
              congr 1
              · refine List.map_congr_left (fun e he => ?_)
                have := (hso.ids e he).1
                unfold deref
                rw [List.getD_eq_getElem?_getD, List.getD_eq_getElem?_getD, List.getElem?_append_left this]
              · simp [deref, newSubscription]
            · rw [hk, h2, List.map_append, hp.heap hrun, List.filterMap_append]
              simp [hask, newSubscription]
          cases hf
          · exact this
          · exact ⟨this.subs, this.heap⟩
          · exact ⟨fun h => by simp at h, fun h => by simp at h⟩
          · exact ⟨fun h => by simp at h, fun h => by simp at h⟩
        · have h1 : c1.subs = c.subs.del id := h1
          have h2 : c1.heap = c.heap := h2
          have hns : f.command ≠ Cmd.subscribe := by rw [hc]; decide
          have hgiv : Spec.closes f = some id := by
            unfold Spec.closes Spec.hdr
            rw [contains_eq] at hid
            rw [if_pos (show f.command = b!"UNSUBSCRIBE" from hc)]; exact hid
          have this : OpenInv c1 := by
            refine ⟨fun _ => ?_, fun _ => ?_⟩
            · rw [hk, openSubs_snoc, ← hp.subs hrun]
              unfold Spec.openStep
              rw [other_opens hns, hgiv]
              dsimp only
              unfold subView
              rw [h1, h2, del_filter, List.filter_map]
              rfl
            · rw [hk, h2, hp.heap hrun, List.filterMap_append]
              simp [other_opens hns]
          cases hf
          · exact this
          · exact ⟨this.subs, this.heap⟩
          · exact ⟨fun h => by simp at h, fun h => by simp at h⟩
          · exact ⟨fun h => by simp at h, fun h => by simp at h⟩
    | _ => cases hfr

theorem openInv_run {cfg : Config} {me : Nat} {es : List Conn.Ev} {c : Conn} (h : (Conn.init me).run cfg es = some c) : OpenInv c :=
  (gate_induction (P := fun c => SubsOk c ∧ OpenInv c)
    (fun _ _ _ hg hp hs => ⟨subsOk_step hg hp.1 hs, openInv_step hg hp.1 hp.2 hs⟩) es c
    ⟨⟨List.nodup_nil, by simp [Conn.init]⟩, ⟨fun _ => rfl, fun _ => rfl⟩⟩ h).2.2

/-- A MESSAGE frame is written from the write channel, or for a subscription whose id is in use. -/
theorem message_step {cfg : Config} {c : Conn} {e : Conn.Ev} {c' : Conn} (hg : Gate cfg c) (hm : MsgsOk c) (h : Step cfg c e c') {w : Wr} {g : Frame}
    {old : List Wr} (ho : c'.out = c.out ++ old) (hw : w ∈ old) (hf : w.frame = some g) (hc : g.command = b!"MESSAGE") :
    c.stage = .run ∧ ((∃ m n, m ∈ c.writeCh ∧ g = (Msg.alloc m n none).frame) ∨
      ∃ i j m n, i ∈ c.subCh ∧ (deref c.heap i).frame = some m ∧ c.subs.get? (deref c.heap i).id = some j ∧
        g = (Msg.alloc m n (some (deref c.heap i).ack)).frame) := by
  have new : ∀ {l : List Wr}, c'.out = c.out ++ l → w ∈ l := by
    intro l hl
    rw [hl] at ho
    rw [List.append_cancel_left ho]; exact hw
  have none_ : c'.out = c.out → False := by
    intro hl
    have := new (l := []) (by rw [hl]; simp)
    simp at this
  cases h with
  | frame ok1 ok2 f q c1 _ f' r ha hq hsf hfin =>
    rcases out_step hg hm (Step.frame ok1 ok2 f q c1 _ f' r ha hq hsf hfin) with ⟨h1, _⟩ | ⟨_, _, _, l, h1, h2⟩ | ⟨h1, _⟩ | ⟨h1, _⟩
    · exact (none_ h1).elim
    · obtain ⟨_, g', h3, h4⟩ := h2 w (new h1)
      rw [hf] at h3; injection h3 with h3; subst h3
      rw [hc] at h4; exact absurd h4 (by decide)
    · cases h1
    · cases h1
  | wrOk m l ha hwr hwf hcm =>
    have := new (l := [_]) rfl
    rw [List.mem_singleton] at this; subst this
    injection hf with hf
    exact ⟨(atSelect_run ha).1, Or.inl ⟨m, _, by rw [hwr]; simp, hf.symm⟩⟩
  | wrErr m l ha hwr hwf hcm =>
    have := new (l := [_]) rfl
    rw [List.mem_singleton] at this; subst this
    injection hf with hf
    exact ⟨(atSelect_run ha).1, Or.inl ⟨m, _, by rw [hwr]; simp, hf.symm⟩⟩
  | subAuto i l j m ha hl hj hfm hwf hk =>
    have := new (l := [_]) rfl
    rw [List.mem_singleton] at this; subst this
    injection hf with hf
    exact ⟨(atSelect_run ha).1, Or.inr ⟨i, j, m, _, by rw [hl]; simp, hfm, hj, hf.symm⟩⟩
  | subPanic i l j m ha hl hj hfm hwf hk hi =>
    have := new (l := [_]) rfl
    rw [List.mem_singleton] at this; subst this
    injection hf with hf
    exact ⟨(atSelect_run ha).1, Or.inr ⟨i, j, m, _, by rw [hl]; simp, hfm, hj, hf.symm⟩⟩
  | subAdd i l j m ha hl hj hfm hwf hk hi =>
    have := new (l := [_]) rfl
    rw [List.mem_singleton] at this; subst this
    injection hf with hf
    exact ⟨(atSelect_run ha).1, Or.inr ⟨i, j, m, _, by rw [hl]; simp, hfm, hj, hf.symm⟩⟩
  | timerOk =>
    have := new (l := [_]) rfl
    rw [List.mem_singleton] at this; subst this
    cases hf
  | recv => exact (none_ rfl).elim
  | readErr => exact (none_ rfl).elim
  | readClosed => exact (none_ rfl).elim
  | wrFail => exact (none_ rfl).elim
  | subGone => exact (none_ rfl).elim
  | subNil => exact (none_ rfl).elim
  | subFail => exact (none_ rfl).elim
  | timerFail => exact (none_ rfl).elim
  | discard => exact (none_ rfl).elim
  | discardEnd => exact (none_ rfl).elim
  | acklist => exact (none_ rfl).elim
  | drain => exact (none_ rfl).elim
  | drainEnd => exact (none_ rfl).elim
  | announce => exact (none_ rfl).elim
  | unsub => exact (none_ rfl).elim
  | flushed => exact (none_ rfl).elim
  | setFrame => exact (none_ rfl).elim
  | setInList => exact (none_ rfl).elim
  | pushSub => exact (none_ rfl).elim
  | pushTopic => exact (none_ rfl).elim

end Stomp.Server
