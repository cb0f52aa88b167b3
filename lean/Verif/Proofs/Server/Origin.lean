import Verif.Proofs.Server.Conserve
import Verif.Spec.Delivery
/-! # Where the messages in the server come from, and what is written about them -/
namespace Stomp.Server
open Stomp
open Stomp.Spec (firstValue)

theorem others_set (h : Header) (k v : Bytes) (hk : k ∈ Spec.own) : Spec.others (h.set k v) = Spec.others h := by
  unfold Spec.others
  induction h with
  | nil => simp [Header.set, hk]
  | cons e h ih =>
    obtain ⟨k', v'⟩ := e
    simp only [Header.set]
    split
    · rename_i he; subst he; simp [hk]
    · rw [List.filter_cons, List.filter_cons, ih]

theorem others_del (h : Header) (k : Bytes) (hk : k ∈ Spec.own) : Spec.others (h.del k) = Spec.others h := by
  unfold Spec.others
  induction h with
  | nil => rfl
  | cons e h ih =>
    obtain ⟨k', v'⟩ := e
    simp only [Header.del]
    split
    · rename_i he; subst he; rw [ih]; simp [hk]
    · rw [List.filter_cons, List.filter_cons, ih]

theorem others_alloc (m : Msg) (n : Nat) (a : Option Bytes) : Spec.others (m.alloc n a).frame.header = Spec.others m.frame.header := by
  show Spec.others (allocFrame n m.frame a).header = _
  unfold allocFrame
  split
  · dsimp only
    have base : Spec.others ((m.frame.header.set Hdr.messageId (fmtUint ((n + 1) % 2 ^ 64))).set Hdr.id (fmtUint ((n + 1) % 2 ^ 64))) = Spec.others m.frame.header := by
      rw [others_set _ _ _ (by decide), others_set _ _ _ (by decide)]
    cases a with
    | none => dsimp only; rw [others_del _ _ (by decide), base]
    | some a =>
      dsimp only
      split
      · rw [others_del _ _ (by decide), base]
      · rw [others_set _ _ _ (by decide), base]
  · rfl

theorem others_addressed (m : Msg) (id : Bytes) : Spec.others (m.addressed id).frame.header = Spec.others m.frame.header :=
  others_set _ _ _ (by decide)

theorem others_value {a b : Header} (h : Spec.others a = Spec.others b) {k : Bytes} (hk : k ∉ Spec.own) : firstValue a k = firstValue b k := by
  have key : ∀ h : Header, firstValue (Spec.others h) k = firstValue h k := by
    intro h
    unfold Spec.others
    induction h with
    | nil => rfl
    | cons e h ih =>
      obtain ⟨k', v'⟩ := e
      rw [List.filter_cons]
      split
      · rw [firstValue_cons, firstValue_cons, ih]
      · rename_i hn
        rw [ih, firstValue_cons, if_neg]
        rintro rfl
        simp [hk] at hn
  rw [← key a, ← key b, h]

/-! ## Connections from one system state to the next -/

/-- What the processor can do to a connection. -/
structure Outer (k k' : Conn) : Prop where
  me : k'.me = k.me
  out : k'.out = k.out
  hist : k'.hist = k.hist
  effective : k'.effective = k.effective
  sent : k'.sent = k.sent
  acked : k'.acked = k.acked
  autoDone : k'.autoDone = k.autoDone
  lost : k'.lost = k.lost
  subList : k'.subList = k.subList
  len : k'.heap.length = k.heap.length
  fixed : ∀ i, (deref k'.heap i).fixed = (deref k.heap i).fixed
  stage : k'.stage = k.stage
  log : k'.log = k.log
  wfail : k'.wfail = k.wfail
  subs : k'.subs = k.subs
  outbox : k'.outbox = k.outbox ∨ ∃ r, k.outbox = .req r :: k'.outbox
  subCh : k'.subCh = k.subCh ∨ ∃ i, k'.subCh = k.subCh ++ [i]
  frames : ∀ i m, (deref k.heap i).frame = some m → (deref k'.heap i).frame = some m

theorem Outer.refl (k : Conn) : Outer k k :=
  ⟨rfl, rfl, rfl, rfl, rfl, rfl, rfl, rfl, rfl, rfl, fun _ => rfl, rfl, rfl, rfl, rfl, Or.inl rfl, Or.inl rfl, fun _ _ h => h⟩

theorem putFrame_keeps {heap : List Sub} {j i : Nat} {m : Option Msg} {x : Msg} (h : (deref heap j).frame = none) (hi : (deref heap i).frame = some x) :
    (deref (putFrame heap j m) i).frame = some x := by
  rw [deref_putFrame]
  split
  · rename_i h1; rw [← h1.1, h] at hi; cases hi
  · exact hi

theorem conns_evol {cfg : Config} {s s' : Sys} {e : Sys.Ev} (hs : SysStep cfg s e s') {c : Nat} {k' : Conn} (hk' : s'.conns[c]? = some k') :
    (s.conns[c]? = none ∧ k' = Conn.init c) ∨
    ∃ k, s.conns[c]? = some k ∧ ((∃ e, Sys.internal e = true ∧ k.step cfg e = some k') ∨ Outer k k') := by
  have same : s'.conns = s.conns → (s.conns[c]? = none ∧ k' = Conn.init c) ∨
      ∃ k, s.conns[c]? = some k ∧ ((∃ e, Sys.internal e = true ∧ k.step cfg e = some k') ∨ Outer k k') := by
    intro h; rw [h] at hk'
    exact Or.inr ⟨k', hk', Or.inr (Outer.refl _)⟩
  have one : ∀ {j : Nat} {k1 k2 : Conn}, s.conns[j]? = some k1 → s'.conns = s.conns.set j k2 → Outer k1 k2 → (s.conns[c]? = none ∧ k' = Conn.init c) ∨
      ∃ k, s.conns[c]? = some k ∧ ((∃ e, Sys.internal e = true ∧ k.step cfg e = some k') ∨ Outer k k') := by
    intro j k1 k2 h1 h2 h3
    rw [h2, get_set h1] at hk'
    split at hk'
    · rename_i hj; injection hk' with hk'; subst hk' hj
      exact Or.inr ⟨k1, h1, Or.inr h3⟩
    · exact Or.inr ⟨k', hk', Or.inr (Outer.refl _)⟩
  cases hs with
  | accept =>
    dsimp only at hk'
    by_cases hlt : c < s.conns.length
    · rw [List.getElem?_append_left hlt] at hk'
      exact Or.inr ⟨k', hk', Or.inr (Outer.refl _)⟩
    · rw [List.getElem?_append_right (by omega)] at hk'
      left
      refine ⟨List.getElem?_eq_none (by omega), ?_⟩
      cases hn : c - s.conns.length with
      | zero =>
        rw [hn] at hk'
        simp at hk'
        subst hk'
        have : c = s.conns.length := by omega
        subst this; rfl
      | succ n => rw [hn] at hk'; simp at hk'
  | conn j e k1 k2 h1 hin hst =>
    dsimp only at hk'
    rw [get_set h1] at hk'
    split at hk'
    · rename_i hj; injection hk' with hk'; subst hk' hj
      exact Or.inr ⟨k1, h1, Or.inl ⟨e, hin, hst⟩⟩
    · exact Or.inr ⟨k', hk', Or.inr (Outer.refl _)⟩
  | flush j k r o h1 ho hc => exact one h1 rfl ⟨rfl, rfl, rfl, rfl, rfl, rfl, rfl, rfl, rfl, rfl, fun _ => rfl, rfl, rfl, rfl, rfl, Or.inr ⟨r, ho⟩, Or.inl rfl, fun _ _ h => h⟩
  | skip => exact same rfl
  | joinTopic => exact same rfl
  | wait r rs k dest ht hr hk =>
    exact one hk rfl ⟨rfl, rfl, rfl, rfl, rfl, rfl, rfl, rfl, rfl, putInList_length _ _ _, fun _ => fixed_putInList _ _ _ _, rfl, rfl, rfl, rfl, Or.inl rfl, Or.inl rfl, fun _ _ h => (frame_putInList _ _ _ _).trans h⟩
  | take r rs k dest m l ht hr hk hx hdd hq hm hf =>
    exact one hk rfl ⟨rfl, rfl, rfl, rfl, rfl, rfl, rfl, rfl, rfl, putFrame_length _ _ _, fun _ => fixed_putFrame _ _ _ _, rfl, rfl, rfl, rfl, Or.inl rfl, Or.inl rfl, fun i x h => putFrame_keeps hf h⟩
  | leaveQueue r rs k dest ht hr hk =>
    exact one hk rfl ⟨rfl, rfl, rfl, rfl, rfl, rfl, rfl, rfl, rfl, putInList_length _ _ _, fun _ => fixed_putInList _ _ _ _, rfl, rfl, rfl, rfl, Or.inl rfl, Or.inl rfl, fun _ _ h => (frame_putInList _ _ _ _).trans h⟩
  | absent => exact same rfl
  | leaveTopic => exact same rfl
  | store => exact same rfl
  | give front m rs dest r q k ht hr hdd hq he hk hx hf =>
    exact one hk rfl ⟨rfl, rfl, rfl, rfl, rfl, rfl, rfl, rfl, rfl, (putFrame_length _ _ _).trans (putInList_length _ _ _),
      fun _ => (fixed_putFrame _ _ _ _).trans (fixed_putInList _ _ _ _), rfl, rfl, rfl, rfl, Or.inl rfl, Or.inl rfl, fun i x h => putFrame_keeps ((frame_putInList _ _ _ _).trans hf) ((frame_putInList _ _ _ _).trans h)⟩
  | cast => exact same rfl
  | drop => exact same rfl
  | pushQueue r t k ht hk => exact one hk rfl ⟨rfl, rfl, rfl, rfl, rfl, rfl, rfl, rfl, rfl, rfl, fun _ => rfl, rfl, rfl, rfl, rfl, Or.inl rfl, Or.inr ⟨_, rfl⟩, fun _ _ h => h⟩
  | pushTopic dest r m t k ht hk => exact one hk rfl ⟨rfl, rfl, rfl, rfl, rfl, rfl, rfl, rfl, rfl, rfl, fun _ => rfl, rfl, rfl, rfl, rfl, Or.inl rfl, Or.inl rfl, fun _ _ h => h⟩

theorem conns_keep {cfg : Config} {s s' : Sys} {e : Sys.Ev} (hs : SysStep cfg s e s') {c : Nat} {k : Conn} (hk : s.conns[c]? = some k) :
    ∃ k', s'.conns[c]? = some k' := by
  have hl : c < s.conns.length := (List.getElem?_eq_some_iff.1 hk).1
  have : c < s'.conns.length := by
    cases hs <;> simp <;> omega
  exact ⟨_, List.getElem?_eq_getElem this⟩

theorem effective_grows {cfg : Config} {s s' : Sys} {e : Sys.Ev} (hi : SInv cfg s) (hs : SysStep cfg s e s') {c : Nat} {k : Conn}
    (hk : s.conns[c]? = some k) : ∃ k' l, s'.conns[c]? = some k' ∧ k'.effective = k.effective ++ l := by
  obtain ⟨k', hk'⟩ := conns_keep hs hk
  rcases conns_evol hs hk' with ⟨h, _⟩ | ⟨k0, h0, h⟩
  · rw [hk] at h; cases h
  · rw [hk] at h0; injection h0 with h0; subst h0
    rcases h with ⟨e, he, hst⟩ | h
    · obtain ⟨l, hl⟩ := (mics_conn hi hk he hst).evol.effective
      exact ⟨k', l, hk', hl⟩
    · exact ⟨k', [], hk', by rw [h.effective, List.append_nil]⟩

/-- The message comes from a SEND that took effect. -/
def Origin (conns : List Conn) (m : Msg) : Prop :=
  ∃ k o, conns[m.tag.src]? = some k ∧ o ∈ Spec.messages m.tag.src 0 k.effective ∧ o.tag = m.tag ∧ m.frame.command = o.frame.command ∧
    m.frame.body = o.frame.body ∧ Spec.others m.frame.header = Spec.others o.frame.header

theorem Origin.step {cfg : Config} {s s' : Sys} {e : Sys.Ev} (hi : SInv cfg s) (hs : SysStep cfg s e s') {m : Msg} (h : Origin s.conns m) :
    Origin s'.conns m := by
  obtain ⟨k, o, hk, ho, h⟩ := h
  obtain ⟨k', l, hk', he⟩ := effective_grows hi hs hk
  exact ⟨k', o, hk', by rw [he, messages_append]; exact List.mem_append_left _ ho, h⟩

theorem Origin.alloc {conns : List Conn} {m : Msg} (h : Origin conns m) (n : Nat) (a : Option Bytes) : Origin conns (m.alloc n a) := by
  obtain ⟨k, o, h1, h2, h3, h4, h5, h6⟩ := h
  exact ⟨k, o, h1, h2, h3, (allocFrame_command _ _ _).trans h4, (allocFrame_body _ _ _).trans h5, (others_alloc m n a).trans h6⟩

theorem Origin.addressed {conns : List Conn} {m : Msg} (h : Origin conns m) (id : Bytes) : Origin conns (m.addressed id) := by
  obtain ⟨k, o, h1, h2, h3, h4, h5, h6⟩ := h
  exact ⟨k, o, h1, h2, h3, h4, h5, (others_addressed m id).trans h6⟩

/-- The number of SENDs is right. -/
def Counted (a : Core) : Prop := a.sent = (Spec.messages a.me 0 a.effective).length

theorem Mic.counted {a b : Core} (h : Counted a) (hm : Mic a b) : Counted b := by
  unfold Counted at *
  cases hm with
  | send f hf =>
    dsimp only
    rw [messages_append, List.length_append, ← h]
    have : f.command = b!"SEND" := hf
    simp [Spec.messages, this]
  | effect f hf =>
    dsimp only
    rw [messages_append, List.length_append, ← h]
    have : ¬ f.command = b!"SEND" := hf
    simp [Spec.messages, this]
  | _ => exact h

theorem Mics.counted {a b : Core} (h : Counted a) (hm : Mics a b) : Counted b := by
  induction hm with
  | refl => exact h
  | step _ hm ih => exact hm.counted ih

theorem SInv.counted {cfg : Config} {s : Sys} (h : SInv cfg s) {c : Nat} {k : Conn} (hk : s.conns[c]? = some k) : Counted k.core ∧ k.me = c := by
  obtain ⟨es, he⟩ := h.run c k hk
  exact ⟨(sends_run he).sent, me_run he⟩

theorem origin_step {cfg : Config} {s s' : Sys} {e : Sys.Ev} (hi : SInv cfg s) (h : s.All (Origin s.conns)) (hs : SysStep cfg s e s') :
    s'.All (Origin s'.conns) := by
  refine all_step hi (h.mono (fun m hm => hm.step hi hs)) (fun m n a hm => hm.alloc n a) (fun m id hm => hm.addressed id) hs ?_
  intro c k k' a' f hk hk' hm hf hl
  obtain ⟨l, hl⟩ := hl
  have hc := hi.counted hk
  have hc' := hm.counted hc.1
  have hme : a'.me = c := hm.evol.me.trans hc.2
  refine ⟨k', ⟨⟨a'.me, a'.sent⟩, { f with command := Cmd.message }⟩, by rw [← hk']; exact congrArg _ hme, ?_, rfl, rfl, rfl, rfl⟩
  have hf : f.command = b!"SEND" := hf
  unfold Counted at hc'
  rw [hl, messages_append, messages_append, hc']
  refine List.mem_append_left _ (List.mem_append_right _ ?_)
  show _ ∈ Spec.messages a'.me _ [f]
  simp [Spec.messages, hf, Cmd.message]

theorem origin_run {cfg : Config} {es : List Sys.Ev} {s : Sys} (h : Sys.init.run cfg es = some s) (hc : s.crashed = false) :
    s.All (Origin s.conns) :=
  (sys_induction (P := fun s => s.All (Origin s.conns)) (Sys.All.init _) (fun _ _ _ hi hp hs => origin_step hi hp hs) es s h hc).2

/-! ## Messages sent to topics -/

theorem messages_tag {me i : Nat} {fs : List Frame} {a : Msg} (ha : a ∈ Spec.messages me i fs) : a.tag.src = me ∧ i ≤ a.tag.seq := by
  induction fs generalizing i with
  | nil => cases ha
  | cons f fs ih =>
    simp only [Spec.messages] at ha
    split at ha
    · rcases List.mem_cons.1 ha with rfl | ha
      · exact ⟨rfl, Nat.le_refl _⟩
      · have := ih ha; exact ⟨this.1, by omega⟩
    · exact ih ha

/-- Messages with the same tag are the same. -/
theorem messages_inj {me i : Nat} {fs : List Frame} {a b : Msg} (ha : a ∈ Spec.messages me i fs) (hb : b ∈ Spec.messages me i fs)
    (h : a.tag = b.tag) : a = b := by
  induction fs generalizing i with
  | nil => cases ha
  | cons f fs ih =>
    simp only [Spec.messages] at ha hb
    split at ha
    · rename_i hf
      rw [if_pos hf] at hb
      rcases List.mem_cons.1 ha with rfl | ha
      · rcases List.mem_cons.1 hb with rfl | hb
        · rfl
        · have h2 := (messages_tag hb).2
          rw [← h] at h2; dsimp only at h2; omega
      · rcases List.mem_cons.1 hb with rfl | hb
        · have h2 := (messages_tag ha).2
          rw [h] at h2; dsimp only at h2; omega
        · exact ih ha hb
    · rename_i hf
      rw [if_neg hf] at hb
      exact ih ha hb

theorem messages_get (me i : Nat) (fs : List Frame) (n : Nat) :
    (∃ a ∈ Spec.messages me i fs, a.tag = ⟨me, n⟩) ↔ i ≤ n ∧ n < i + (Spec.messages me i fs).length := by
  induction fs generalizing i with
  | nil => simp only [Spec.messages, List.not_mem_nil, false_and, exists_false, List.length_nil, false_iff]; omega
  | cons f fs ih =>
    simp only [Spec.messages]
    split
    · simp only [List.mem_cons, List.length_cons]
      constructor
      · rintro ⟨a, rfl | ha, e⟩
        · dsimp only at e; injection e with _ e; subst e; omega
        · have := (ih (i + 1)).1 ⟨a, ha, e⟩; omega
      · intro h
        by_cases hn : n = i
        · subst hn; exact ⟨_, Or.inl rfl, rfl⟩
        · obtain ⟨a, ha, e⟩ := (ih (i + 1)).2 (by omega)
          exact ⟨a, Or.inr ha, e⟩
    · exact ih i

/-- Messages sent to topics are not for queues. -/
def CastOk (s : Sys) : Prop := ∀ t ∈ castTags s.tlog, ∃ k o d, s.conns[t.src]? = some k ∧ o ∈ Spec.messages t.src 0 k.effective ∧ o.tag = t ∧
  firstValue o.frame.header Hdr.destination = some d ∧ isQueueDestination d = false

theorem castOk_step {cfg : Config} {s s' : Sys} {e : Sys.Ev} (hi : SInv cfg s) (h : CastOk s) (ho : s.All (Origin s.conns)) (hs : SysStep cfg s e s') : CastOk s' := by
  have up : ∀ t, (∃ k o d, s.conns[t.src]? = some k ∧ o ∈ Spec.messages t.src 0 k.effective ∧ o.tag = t ∧
      firstValue o.frame.header Hdr.destination = some d ∧ isQueueDestination d = false) → ∃ k o d, s'.conns[t.src]? = some k ∧ o ∈ Spec.messages t.src 0 k.effective ∧ o.tag = t ∧
      firstValue o.frame.header Hdr.destination = some d ∧ isQueueDestination d = false := by
    rintro t ⟨k, o, d, hk, h1, h2⟩
    obtain ⟨k', l, hk', he⟩ := effective_grows hi hs hk
    exact ⟨k', o, d, hk', by rw [he, messages_append]; exact List.mem_append_left _ h1, h2⟩
  have new : ∀ x, s'.tlog = s.tlog ++ [x] → (∀ t, x.2 ≠ .cast t) → CastOk s' := by
    intro x hx hn t ht
    have ht : t ∈ castTags (s.tlog ++ [x]) := by rw [← hx]; exact ht
    unfold castTags at ht
    rw [List.filterMap_append, List.mem_append] at ht
    rcases ht with ht | ht
    · exact up t (h t ht)
    · obtain ⟨y, hy, he⟩ := List.mem_filterMap.1 ht
      rw [List.mem_singleton] at hy; subst hy
      split at he
      · rename_i t' h'; exact absurd h' (hn t')
      · cases he
  have same : s'.tlog = s.tlog → CastOk s' := by
    intro hx t ht; rw [hx] at ht; exact up t (h t ht)
  cases hs with
  | joinTopic => exact new _ rfl (by simp)
  | leaveTopic => exact new _ rfl (by simp)
  | pushTopic => exact new _ rfl (by simp)
  | cast m rs dest ht hr hd hq =>
    intro t htt
    have htt : t ∈ castTags (s.tlog ++ [(dest, .cast m.tag)]) := htt
    unfold castTags at htt
    rw [List.filterMap_append, List.mem_append] at htt
    rcases htt with htt | htt
    · exact up t (h t htt)
    · simp only [List.filterMap_cons, List.filterMap_nil, List.mem_singleton] at htt
      subst htt
      apply up
      obtain ⟨k, o, h1, h2, h3, _, _, h6⟩ := ho.enq m (by rw [hr]; exact List.mem_cons_self)
      refine ⟨k, o, dest, h1, h2, h3, ?_, hq⟩
      rw [← others_value h6 (by decide), ← hd, contains_eq]
  | accept => exact same rfl
  | conn => exact same rfl
  | flush => exact same rfl
  | skip => exact same rfl
  | wait => exact same rfl
  | take => exact same rfl
  | leaveQueue => exact same rfl
  | absent => exact same rfl
  | store => exact same rfl
  | give => exact same rfl
  | drop => exact same rfl
  | pushQueue => exact same rfl

theorem castOk_run {cfg : Config} {es : List Sys.Ev} {s : Sys} (h : Sys.init.run cfg es = some s) (hc : s.crashed = false) : CastOk s :=
  (sys_induction (P := fun s => s.All (Origin s.conns) ∧ CastOk s) ⟨Sys.All.init _, by simp [CastOk, castTags, Sys.init]⟩
    (fun _ _ _ hi hp hs => ⟨origin_step hi hp.1 hs, castOk_step hi hp.2 hp.1 hs⟩) es s h hc).2.2

end Stomp.Server
