import Verif.Proofs.Server.Writes
/-! # The places of messages -/
namespace Stomp.Server
open Stomp
open Stomp.Spec (firstValue)

theorem unsent_eq (k : Conn) : Spec.unsent k = pending k.outbox := by
  unfold Spec.unsent pending
  congr 1
  funext o
  cases o <;> rfl

theorem inRequests_eq (l : List Req) : Spec.inRequests l = reqTags l := rfl

theorem allocatedTo_eq (k : Conn) (l : List Nat) : Spec.allocatedTo k l = Conn.frameTags k.heap l := by
  unfold Spec.allocatedTo Conn.frameTags
  congr 1
  funext i
  unfold deref
  rw [List.getD_eq_getElem?_getD]
  cases k.heap[i]? with
  | none => rfl
  | some x => rfl

theorem count_flatMap_append {α : Type} (l : List α) (f g : α → List Tag) (t : Tag) :
    (l.flatMap (fun x => f x ++ g x)).count t = (l.flatMap f).count t + (l.flatMap g).count t := by
  induction l with
  | nil => rfl
  | cons x l ih =>
    simp only [List.flatMap_cons, List.count_append, ih]
    omega

theorem connSum_eq (conns : List Conn) (t : Tag) : connSum conns t =
    (conns.flatMap (fun k => Spec.inRequests (Spec.unsent k))).count t + (conns.flatMap (fun k => Spec.allocatedTo k (k.subCh ++ k.subList))).count t +
    (conns.flatMap (fun k => k.acked ++ k.autoDone)).count t + (conns.flatMap (·.lost)).count t := by
  unfold connSum
  induction conns with
  | nil => rfl
  | cons k l ih =>
    simp only [List.map_cons, List.sum_cons, List.flatMap_cons, List.count_append, ih]
    have : k.core.tags.count t = (Spec.inRequests (Spec.unsent k)).count t + (Spec.allocatedTo k (k.subCh ++ k.subList)).count t + (k.acked.count t + k.autoDone.count t) + k.lost.count t := by
      rw [allocatedTo_eq, frameTags_append]
      unfold Core.tags
      simp only [List.count_append]
      show (reqTags (pending k.outbox)).count t + (Conn.frameTags k.heap k.subCh).count t + (Conn.frameTags k.heap k.subList).count t + k.acked.count t +
        k.autoDone.count t + k.lost.count t = _
      rw [unsent_eq, inRequests_eq]
      omega
    rw [this]
    omega

theorem look_eq (s : Sys) (r : SubRef) : look s.conns r = Spec.theSub s r := rfl

theorem todoTags_eq (s : Sys) : todoTags s.conns s.todo = Spec.onTheWay s := rfl

/-! ## Storage -/

theorem AMap.sum_single {γ : Type} (w : List γ → Nat) (hw : w [] = 0) (m : AMap (List γ)) (d : Bytes) (hn : m.keys.Nodup)
    (h : ∀ e, e ≠ d → w (m.list e) = 0) : AMap.sum w m = w (m.list d) := by
  have zero : ∀ m : AMap (List γ), m.keys.Nodup → (∀ e, w (m.list e) = 0) → AMap.sum w m = 0 := by
    intro m hn h
    induction m with
    | nil => rfl
    | cons e m ih =>
      obtain ⟨k, v⟩ := e
      have hn' := List.nodup_cons.1 (show (k :: AMap.keys m).Nodup from hn)
      have h1 : w v = 0 := by
        have := h k
        simpa [AMap.list, AMap.get?] using this
      have h2 := ih hn'.2 (fun e => by
        have := h e
        by_cases he : k = e
        · subst he
          rw [show AMap.list m k = [] from by unfold AMap.list; rw [(AMap.get?_none_iff m k).2 hn'.1]; rfl]; exact hw
        · simpa [AMap.list, AMap.get?, he] using this)
      show w v + AMap.sum w m = 0
      omega
  induction m with
  | nil => exact hw.symm
  | cons e m ih =>
    obtain ⟨k, v⟩ := e
    have hn' := List.nodup_cons.1 (show (k :: AMap.keys m).Nodup from hn)
    have nk : AMap.list m k = [] := by unfold AMap.list; rw [(AMap.get?_none_iff m k).2 hn'.1]; rfl
    show w v + AMap.sum w m = _
    by_cases hk : k = d
    · subst hk
      have : AMap.sum w m = 0 := zero m hn'.2 (fun e => by
        by_cases he : k = e
        · subst he; rw [nk]; exact hw
        · have := h e (Ne.symm he)
          simpa [AMap.list, AMap.get?, he] using this)
      rw [this]
      simp [AMap.list, AMap.get?]
    · have h1 : w v = 0 := by
        have := h k hk
        simpa [AMap.list, AMap.get?] using this
      have := ih hn'.2 (fun e he => by
        by_cases hke : k = e
        · subst hke; rw [nk]; exact hw
        · have := h e he
          simpa [AMap.list, AMap.get?, hke] using this)
      rw [h1, this]
      simp [AMap.list, AMap.get?, hk]

theorem store_keys {cfg : Config} {es : List Sys.Ev} {s : Sys} (h : Sys.init.run cfg es = some s) (hc : s.crashed = false) : AMap.keys s.store |>.Nodup := by
  refine (sys_induction (P := fun s => (AMap.keys s.store).Nodup) (by simp [Sys.init, AMap.keys]) (fun s e s' hi hp hs => ?_) es s h hc).2
  cases hs with
  | take => exact AMap.keys_nodup_set _ _ _ hp
  | store => exact AMap.keys_nodup_set _ _ _ hp
  | _ => exact hp

/-- Where a message accepted for a queue is. -/
theorem places_run {cfg : Config} {es : List Sys.Ev} {s : Sys} (h : Sys.init.run cfg es = some s) (hc : s.crashed = false) {d : Bytes} {o : Msg}
    (hd : isQueueDestination d = true) (ht : firstValue o.frame.header Hdr.destination = some d)
    {c : Nat} {k : Conn} (hk : s.conns[c]? = some k) (ho : o ∈ Spec.messages c 0 k.effective) :
    (Spec.pendingRequests s).count o.tag + (Spec.stored s d).count o.tag + (Spec.allocated s).count o.tag + (Spec.finished s).count o.tag +
      (Spec.failed s).count o.tag = 1 := by
  have hi := (sys_induction (P := fun _ => True) trivial (fun _ _ _ _ _ _ => trivial) es s h hc).1
  have ha := addr_run h hc
  have hO := origin_run h hc
  have htot := total_run h hc o.tag
  obtain ⟨h1, _⟩ := messages_tag ho
  have hcnt := (hi.counted hk)
  have hmade : made s.conns o.tag = 1 := by
    unfold made
    rw [h1, hk]
    dsimp only
    have := (messages_get c 0 k.effective o.tag.seq).1 ⟨o, ho, by rw [← h1]⟩
    have hs : k.sent = (Spec.messages c 0 k.effective).length := by
      have := hcnt.1; unfold Counted at this
      rw [show k.core.me = c from hcnt.2] at this; exact this
    rw [if_pos (by omega)]
  have same : ∀ k' o', s.conns[o.tag.src]? = some k' → o' ∈ Spec.messages o.tag.src 0 k'.effective → o'.tag = o.tag → o' = o := by
    intro k' o' h2 h3 h4
    rw [h1] at h2 h3
    rw [hk] at h2; injection h2 with h2; subst h2
    exact messages_inj h3 ho h4
  have hcast : (castTags s.tlog).count o.tag = 0 := by
    rw [List.count_eq_zero]
    intro hm
    obtain ⟨k', o', d', h2, h3, h4, h5, h6⟩ := castOk_run h hc _ hm
    rw [same k' o' h2 h3 h4, ht] at h5
    injection h5 with h5; subst h5
    rw [hd] at h6; cases h6
  have hstore : storeSum s.store o.tag = (Spec.stored s d).count o.tag := by
    unfold storeSum Spec.stored
    refine AMap.sum_single (fun l => (l.map (fun m : Msg => m.tag)).count o.tag) rfl s.store d (store_keys h hc) ?_
    intro e he
    rw [List.count_eq_zero]
    intro hm
    obtain ⟨m, hm, hmt⟩ := List.mem_map.1 hm
    obtain ⟨k', o', h2, h3, h4, _, _, h5⟩ := hO.store e m hm
    rw [hmt] at h2 h3 h4
    have := (ha.store e m hm).2
    rw [others_value h5 (by decide), same k' o' h2 h3 h4, ht] at this
    injection this with this
    exact he this.symm
  unfold total at htot
  rw [hmade, hcast, ha.dropped, hstore, connSum_eq, todoTags_eq, ← inRequests_eq] at htot
  unfold Spec.pendingRequests Spec.allocated Spec.finished Spec.failed
  simp only [List.count_append]
  simp only [List.count_nil] at htot
  omega

/-! ## Dropped messages -/

theorem select_empty {c : Conn} (h : c.atSelect = true) : c.stage = .run ∧ c.outbox = [] := by
  unfold Conn.atSelect at h
  rw [Bool.and_eq_true, decide_eq_true_eq, List.isEmpty_iff] at h
  exact h

/-- A connection drops messages only when writing has failed or it has panicked. -/
def LostOk (c : Conn) : Prop := c.lost ≠ [] → c.wfail = true ∨ .panic ∈ c.outbox

theorem lostOk_run {cfg : Config} {me : Nat} {es : List Conn.Ev} {c : Conn} (h : (Conn.init me).run cfg es = some c) : LostOk c := by
  refine (gate_induction (P := LostOk) (fun c e c' hg hp hs => ?_) es c (fun h => absurd rfl h) h).2
  have sel : c.atSelect = true → c.lost ≠ [] → c.wfail = true := by
    intro ha hl
    rcases hp hl with h1 | h1
    · exact h1
    · rw [(select_empty ha).2] at h1; cases h1
  cases hs with
  | frame ok1 ok2 f q c1 _ f' r ha hq hsf hfin =>
    rcases frame_cases hg hsf hfin with ⟨_, v, cx, cy, _, ⟨_, rfl⟩ | ⟨_, rfl⟩⟩ | ⟨_, _, e, v, ⟨_, rfl⟩ | ⟨_, rfl⟩⟩ | ⟨_, hh, hf⟩
    · exact fun hl => Or.inl (sel ha hl)
    · exact fun _ => Or.inl rfl
    · exact fun hl => Or.inl (sel ha hl)
    · exact fun _ => Or.inl rfl
    · have h1 : c1.lost ≠ [] → c1.wfail = true := by
        intro hl
        rw [hh.keeps.lost] at hl
        have h2 := sel ha hl
        rcases hh.out with ⟨_, h, _⟩ | ⟨v, _, _, h, _⟩ | ⟨_, h⟩
        · exact h.trans h2
        · exact h.trans h2
        · exact h
      cases hf with
      | ok => exact fun hl => Or.inl (h1 hl)
      | panic => exact fun hl => Or.inl (h1 hl)
      | err => exact fun hl => Or.inl (h1 hl)
      | errFail => exact fun _ => Or.inl rfl
  | recv => exact hp
  | readErr => exact hp
  | readClosed => exact hp
  | wrOk => exact hp
  | wrErr => exact hp
  | wrFail => exact fun _ => Or.inl rfl
  | subGone ok i l ha => exact fun hl => Or.inl (sel ha hl)
  | subNil ok i l j ha => exact fun hl => Or.inl (sel ha hl)
  | subFail => exact fun _ => Or.inl rfl
  | subAuto i l j m ha => exact fun hl => Or.inl (sel ha hl)
  | subPanic => exact fun _ => Or.inr (by simp)
  | subAdd i l j m ha => exact fun hl => Or.inl (sel ha hl)
  | timerOk => exact hp
  | timerFail => exact fun _ => Or.inl rfl
  | discard => exact hp
  | discardEnd => exact hp
  | acklist => exact fun hl => (hp hl).imp_right (fun h => List.mem_append_left _ h)
  | drain => exact fun hl => (hp hl).imp_right (fun h => List.mem_append_left _ h)
  | drainEnd => exact hp
  | announce => exact fun hl => (hp hl).imp_right (fun h => List.mem_append_left _ h)
  | unsub => exact fun hl => (hp hl).imp_right (fun h => List.mem_append_left _ h)
  | flushed r o ho =>
    intro hl
    rcases hp hl with h1 | h1
    · exact Or.inl h1
    · rw [ho] at h1
      rcases List.mem_cons.1 h1 with h1 | h1
      · cases h1
      · exact Or.inr h1
  | setFrame => exact hp
  | setInList => exact hp
  | pushSub => exact hp
  | pushTopic => exact hp

/-! ## The end of a connection -/

/-- The stages after the list of unacknowledged messages has been emptied. -/
def Stage.late : Stage → Bool
  | .discard2 | .drain1 | .announce | .discard3 | .drain2 | .closed => true
  | _ => false

/-- What is left late in the clean-up. -/
structure EndOk (c : Conn) : Prop where
  subList : c.stage.late = true → c.subList = []
  subs : c.stage.late = true → c.subs = []
  subs' : c.stage = .acklist → c.subs = []
  outbox : c.stage = .closed → c.outbox = []

theorem endOk_run {cfg : Config} {me : Nat} {es : List Conn.Ev} {c : Conn} (h : (Conn.init me).run cfg es = some c) : EndOk c := by
  refine (gate_induction (P := EndOk) (fun c e c' hg hp hs => ?_) es c ⟨nofun, nofun, nofun, nofun⟩ h).2
  have runs : ∀ {c' : Conn}, c'.stage = .run ∨ c'.stage = .discard1 → EndOk c' := by
    intro c' h
    rcases h with h | h <;> refine ⟨?_, ?_, ?_, ?_⟩ <;> rw [h] <;> intro h <;> cases h
  cases hs with
  | frame ok1 ok2 f q c1 _ f' r ha hq hsf hfin =>
    have hst := (select_empty ha).1
    rcases frame_cases hg hsf hfin with ⟨_, v, cx, cy, _, ⟨_, rfl⟩ | ⟨_, rfl⟩⟩ | ⟨_, _, e, v, ⟨_, rfl⟩ | ⟨_, rfl⟩⟩ | ⟨_, hh, hf⟩
    · exact runs (Or.inl hst)
    · exact runs (Or.inl hst)
    · exact runs (Or.inr rfl)
    · exact runs (Or.inr rfl)
    · have h1 : c1.stage = .run := hh.keeps.stage.trans hst
      cases hf with
      | ok => exact runs (Or.inl h1)
      | panic => exact runs (Or.inl h1)
      | err => exact runs (Or.inr rfl)
      | errFail => exact runs (Or.inr rfl)
  | recv => exact ⟨hp.1, hp.2, hp.3, hp.4⟩
  | readErr => exact ⟨hp.1, hp.2, hp.3, hp.4⟩
  | readClosed => exact runs (Or.inr rfl)
  | wrOk m w ha => exact runs (Or.inl (select_empty ha).1)
  | wrErr => exact runs (Or.inr rfl)
  | wrFail => exact runs (Or.inr rfl)
  | subGone ok i l ha => exact runs (Or.inl (select_empty ha).1)
  | subNil ok i l j ha => exact runs (Or.inl (select_empty ha).1)
  | subFail => exact runs (Or.inr rfl)
  | subAuto i l j m ha => exact runs (Or.inl (select_empty ha).1)
  | subPanic i l j m ha => exact runs (Or.inl (select_empty ha).1)
  | subAdd i l j m ha => exact runs (Or.inl (select_empty ha).1)
  | timerOk ha => exact runs (Or.inl (select_empty ha).1)
  | timerFail => exact runs (Or.inr rfl)
  | discard => exact ⟨hp.1, hp.2, hp.3, hp.4⟩
  | discardEnd st ho hw hs =>
    rcases hs with ⟨h1, rfl⟩ | ⟨h1, rfl⟩ | ⟨h1, rfl⟩
    · exact ⟨nofun, nofun, nofun, nofun⟩
    · exact ⟨fun _ => hp.1 (by rw [h1]; rfl), fun _ => hp.2 (by rw [h1]; rfl), nofun, nofun⟩
    · exact ⟨fun _ => hp.1 (by rw [h1]; rfl), fun _ => hp.2 (by rw [h1]; rfl), nofun, nofun⟩
  | acklist ho hs => exact ⟨fun _ => rfl, fun _ => hp.3 hs, nofun, nofun⟩
  | drain i l ho hs =>
    have hl : c.stage.late = true := by rcases hs with h | h <;> rw [h] <;> rfl
    refine ⟨fun _ => hp.1 hl, fun _ => hp.2 hl, hp.3, fun h => ?_⟩
    have h : c.stage = .closed := h
    rcases hs with h1 | h1 <;> rw [h1] at h <;> cases h
  | drainEnd st ho hl hs =>
    have hl : c.stage.late = true := by rcases hs with h | h <;> rw [h.1] <;> rfl
    exact ⟨fun _ => hp.1 hl, fun _ => hp.2 hl, fun _ => hp.2 hl, fun _ => ho⟩
  | announce ho hs =>
    have hl : c.stage.late = true := by rw [hs]; rfl
    exact ⟨fun _ => hp.1 hl, fun _ => hp.2 hl, nofun, nofun⟩
  | unsub => exact ⟨nofun, nofun, fun _ => rfl, nofun⟩
  | flushed r o ho => exact ⟨hp.1, hp.2, hp.3, fun h => by have := hp.4 h; rw [ho] at this; cases this⟩
  | setFrame => exact ⟨hp.1, hp.2, hp.3, hp.4⟩
  | setInList => exact ⟨hp.1, hp.2, hp.3, hp.4⟩
  | pushSub => exact ⟨hp.1, hp.2, hp.3, hp.4⟩
  | pushTopic => exact ⟨hp.1, hp.2, hp.3, hp.4⟩

/-- The messages a connection holds. -/
def heldTags (c : Conn) : List Tag := Conn.frameTags c.heap (c.subCh ++ c.subList)

theorem foldl_frame (l : List Nat) (b : Bool) (heap : List Sub) (i : Nat) :
    (deref (l.foldl (fun h j => putInList h j b) heap) i).frame = (deref heap i).frame := by
  induction l generalizing heap with
  | nil => rfl
  | cons j l ih => rw [List.foldl_cons, ih, frame_putInList]

/-- During the clean-up, what is held stays held or is sent back. -/
theorem cleaning_step {cfg : Config} {c : Conn} {e : Conn.Ev} {c' : Conn} (hst : c.stage ≠ .run) (hi : Sys.internal e = true) (h : Step cfg c e c') :
    c'.stage ≠ .run ∧ ∃ new, c'.log = c.log ++ new ∧ ∀ t ∈ heldTags c, t ∈ heldTags c' ∨ ∃ m, .requeue (some m) ∈ new ∧ m.tag = t := by
  have no : c.atSelect = true → False := fun h => hst (select_empty h).1
  have same : ∀ {c' : Conn}, c'.stage ≠ .run → c'.log = c.log → heldTags c' = heldTags c →
      c'.stage ≠ .run ∧ ∃ new, c'.log = c.log ++ new ∧ ∀ t ∈ heldTags c, t ∈ heldTags c' ∨ ∃ m, .requeue (some m) ∈ new ∧ m.tag = t :=
    fun h1 h2 h3 => ⟨h1, [], by rw [h2, List.append_nil], fun t ht => Or.inl (by rw [h3]; exact ht)⟩
  cases h with
  | recv => exact same hst rfl rfl
  | readErr => exact same hst rfl rfl
  | frame ok1 ok2 f q c1 _ f' r ha => exact (no ha).elim
  | readClosed ha => exact (no ha).elim
  | wrOk m w ha => exact (no ha).elim
  | wrErr m w ha => exact (no ha).elim
  | wrFail ok m w ha => exact (no ha).elim
  | subGone ok i l ha => exact (no ha).elim
  | subNil ok i l j ha => exact (no ha).elim
  | subFail ok i l j m ha => exact (no ha).elim
  | subAuto i l j m ha => exact (no ha).elim
  | subPanic i l j m ha => exact (no ha).elim
  | subAdd i l j m ha => exact (no ha).elim
  | timerOk ha => exact (no ha).elim
  | timerFail ok ha => exact (no ha).elim
  | discard => exact same hst rfl rfl
  | discardEnd st ho hw hs =>
    refine same ?_ rfl rfl
    rcases hs with ⟨_, rfl⟩ | ⟨_, rfl⟩ | ⟨_, rfl⟩ <;> simp
  | acklist ho hs =>
    refine ⟨by simp [Conn.emit], _, rfl, fun t ht => ?_⟩
    obtain ⟨i, hil, m, hm, hmt⟩ := mem_frameTags.1 ht
    rcases List.mem_append.1 hil with h1 | h1
    · left
      refine mem_frameTags.2 ⟨i, List.mem_append_left _ h1, m, ?_, hmt⟩
      show (deref (c.subList.foldl (fun h j => putInList h j false) c.heap) i).frame = _
      rw [foldl_frame]; exact hm
    · exact Or.inr ⟨m, List.mem_map.2 ⟨i, h1, by rw [hm]⟩, hmt⟩
  | drain i l ho hs hl =>
    refine ⟨hst, _, rfl, fun t ht => ?_⟩
    obtain ⟨j, hjl, m, hm, hmt⟩ := mem_frameTags.1 ht
    rw [hl] at hjl
    rcases List.mem_append.1 hjl with h1 | h1
    · rcases List.mem_cons.1 h1 with rfl | h1
      · exact Or.inr ⟨m, by rw [hm]; exact List.mem_cons_self, hmt⟩
      · exact Or.inl (mem_frameTags.2 ⟨j, List.mem_append_left _ h1, m, hm, hmt⟩)
    · exact Or.inl (mem_frameTags.2 ⟨j, List.mem_append_right _ h1, m, hm, hmt⟩)
  | drainEnd st ho hl hs =>
    refine same ?_ rfl rfl
    rcases hs with ⟨_, rfl⟩ | ⟨_, rfl⟩ <;> simp
  | announce ho hs => exact ⟨by simp [Conn.emit], _, rfl, fun t ht => Or.inl ht⟩
  | unsub order => exact ⟨by simp [Conn.emit], _, rfl, fun t ht => Or.inl ht⟩
  | flushed => cases hi
  | setFrame => cases hi
  | setInList => cases hi
  | pushSub => cases hi
  | pushTopic => cases hi

theorem Outer.held {k k' : Conn} (h : Outer k k') : ∀ t ∈ heldTags k, t ∈ heldTags k' := by
  intro t ht
  obtain ⟨i, hi, m, hm, hmt⟩ := mem_frameTags.1 ht
  refine mem_frameTags.2 ⟨i, ?_, m, h.frames i m hm, hmt⟩
  rw [h.subList]
  rcases List.mem_append.1 hi with h1 | h1
  · refine List.mem_append_left _ ?_
    rcases h.subCh with h2 | ⟨j, h2⟩
    · rw [h2]; exact h1
    · rw [h2]; exact List.mem_append_left _ h1
  · exact List.mem_append_right _ h1

/-- From the start of the clean-up on, everything held is still held or has been sent back. -/
theorem cleaning_run {cfg : Config} {es es' : List Sys.Ev} {s s' : Sys} (h : Sys.init.run cfg es = some s) (h' : s.run cfg es' = some s') (hc : s'.crashed = false)
    {c : Nat} {k : Conn} (hk : s.conns[c]? = some k) (hst : k.stage ≠ .run) :
    ∃ k', s'.conns[c]? = some k' ∧ k'.stage ≠ .run ∧ ∃ new, k'.log = k.log ++ new ∧
      ∀ t ∈ heldTags k, t ∈ heldTags k' ∨ ∃ m, .requeue (some m) ∈ new ∧ m.tag = t := by
  have hi := (sys_induction (P := fun _ => True) trivial (fun _ _ _ _ _ _ => trivial) es s h (not_crashed h' hc)).1
  refine (sys_induction_from (cfg := cfg) (P := fun s' => ∃ k', s'.conns[c]? = some k' ∧ k'.stage ≠ .run ∧ ∃ new, k'.log = k.log ++ new ∧
      ∀ t ∈ heldTags k, t ∈ heldTags k' ∨ ∃ m, .requeue (some m) ∈ new ∧ m.tag = t) (fun s1 e s2 hi hp hs => ?_) es' s s'
      ⟨hi, k, hk, hst, [], (List.append_nil _).symm, fun t ht => Or.inl ht⟩ h' hc).2
  obtain ⟨k1, hk1, hst1, new, hl, hb⟩ := hp
  obtain ⟨k2, hk2⟩ := conns_keep hs hk1
  refine ⟨k2, hk2, ?_⟩
  rcases conns_evol hs hk2 with ⟨h0, _⟩ | ⟨k1', hk1', hev⟩
  · rw [hk1] at h0; cases h0
  · rw [hk1] at hk1'; injection hk1' with hk1'; subst hk1'
    rcases hev with ⟨e, he, hst⟩ | hO
    · obtain ⟨h1, new2, h2, h3⟩ := cleaning_step hst1 he (step_of _ _ _ _ hst)
      refine ⟨h1, new ++ new2, by rw [h2, hl, List.append_assoc], fun t ht => ?_⟩
      rcases hb t ht with h4 | ⟨m, h4, h5⟩
      · exact (h3 t h4).imp_right (fun ⟨m, h5, h6⟩ => ⟨m, List.mem_append_right _ h5, h6⟩)
      · exact Or.inr ⟨m, List.mem_append_left _ h4, h5⟩
    · exact ⟨by rw [hO.stage]; exact hst1, new, by rw [hO.log]; exact hl, fun t ht => (hb t ht).imp_left (hO.held t)⟩

/-- A closed connection keeps what it holds. -/
theorem closed_run {cfg : Config} {es es' : List Sys.Ev} {s s' : Sys} (h : Sys.init.run cfg es = some s) (h' : s.run cfg es' = some s') (hc : s'.crashed = false)
    {c : Nat} {k : Conn} (hk : s.conns[c]? = some k) (hst : k.stage = .closed) :
    ∃ k', s'.conns[c]? = some k' ∧ k'.stage = .closed ∧ k'.out = k.out ∧ ∀ t ∈ heldTags k, t ∈ heldTags k' := by
  have hi := (sys_induction (P := fun _ => True) trivial (fun _ _ _ _ _ _ => trivial) es s h (not_crashed h' hc)).1
  refine (sys_induction_from (cfg := cfg) (P := fun s' => ∃ k', s'.conns[c]? = some k' ∧ k'.stage = .closed ∧ k'.out = k.out ∧ ∀ t ∈ heldTags k, t ∈ heldTags k')
      (fun s1 e s2 hi hp hs => ?_) es' s s' ⟨hi, k, hk, hst, rfl, fun t ht => ht⟩ h' hc).2
  obtain ⟨k1, hk1, hst1, ho, hb⟩ := hp
  obtain ⟨k2, hk2⟩ := conns_keep hs hk1
  refine ⟨k2, hk2, ?_⟩
  rcases conns_evol hs hk2 with ⟨h0, _⟩ | ⟨k1', hk1', hev⟩
  · rw [hk1] at h0; cases h0
  · rw [hk1] at hk1'; injection hk1' with hk1'; subst hk1'
    rcases hev with ⟨e, he, hst⟩ | hO
    · have no : k1.atSelect = true → False := fun h => by have := (select_empty h).1; rw [hst1] at this; cases this
      cases step_of _ _ _ _ hst with
      | recv => exact ⟨hst1, ho, hb⟩
      | readErr => exact ⟨hst1, ho, hb⟩
      | frame ok1 ok2 f q c1 _ f' r ha => exact (no ha).elim
      | readClosed ha => exact (no ha).elim
      | wrOk m w ha => exact (no ha).elim
      | wrErr m w ha => exact (no ha).elim
      | wrFail ok m w ha => exact (no ha).elim
      | subGone ok i l ha => exact (no ha).elim
      | subNil ok i l j ha => exact (no ha).elim
      | subFail ok i l j m ha => exact (no ha).elim
      | subAuto i l j m ha => exact (no ha).elim
      | subPanic i l j m ha => exact (no ha).elim
      | subAdd i l j m ha => exact (no ha).elim
      | timerOk ha => exact (no ha).elim
      | timerFail ok ha => exact (no ha).elim
      | discard m w _ hs => rw [hst1] at hs; rcases hs with h | h | h <;> cases h
      | discardEnd st _ _ hs => rw [hst1] at hs; rcases hs with h | h | h <;> cases h.1
      | acklist _ hs => rw [hst1] at hs; cases hs
      | drain i l _ hs => rw [hst1] at hs; rcases hs with h | h <;> cases h
      | drainEnd st _ _ hs => rw [hst1] at hs; rcases hs with h | h <;> cases h.1
      | announce _ hs => rw [hst1] at hs; cases hs
      | unsub order _ hs => rw [hst1] at hs; cases hs
      | flushed => cases he
      | setFrame => cases he
      | setInList => cases he
      | pushSub => cases he
      | pushTopic => cases he
    · exact ⟨by rw [hO.stage]; exact hst1, by rw [hO.out]; exact ho, fun t ht => hO.held t (hb t ht)⟩

end Stomp.Server
