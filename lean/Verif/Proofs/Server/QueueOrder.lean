import Verif.Proofs.Server.TopicOrder
import Verif.Proofs.Server.Redelivery
import Verif.Spec.QueueOrder
/-! # The order in which a connection gets the messages of a queue -/
namespace Stomp.Server
open Stomp
open Stomp.Spec (firstValue)

/-- The message of the queue `d` allocated to a subscription. -/
def allocFor (d : Bytes) (heap : List Sub) (i : Nat) : Option Tag :=
  (deref heap i).frame.bind (fun m => if firstValue m.frame.header Hdr.destination = some d then some m.tag else none)

/-- The messages of the queue `d` in the channel of subscriptions. -/
def Core.chTags (d : Bytes) (a : Core) : List Tag := a.subCh.filterMap (allocFor d a.heap)

theorem allocFor_congr {d : Bytes} {heap heap' : List Sub} {l : List Nat} (h : ∀ j ∈ l, (deref heap' j).frame = (deref heap j).frame) :
    l.filterMap (allocFor d heap') = l.filterMap (allocFor d heap) := by
  induction l with
  | nil => rfl
  | cons i l ih =>
    rw [List.filterMap_cons, List.filterMap_cons, ih (fun j hj => h j (List.mem_cons_of_mem _ hj))]
    unfold allocFor
    rw [h i List.mem_cons_self]

theorem frame_putFrame_ne {heap : List Sub} {i j : Nat} {m : Option Msg} (h : j ≠ i) : (deref (putFrame heap i m) j).frame = (deref heap j).frame := by
  rw [deref_putFrame, if_neg (fun e => h e.1.symm)]

theorem Loc.head {a : Core} (h : Loc a) {i : Nat} {l : List Nat} (hc : a.subCh = i :: l) : i ∉ l := by
  intro hi
  have h1 := h.tok i
  unfold Core.tok at h1
  rw [hc, count_cons', if_pos rfl] at h1
  have := count_pos_iff.2 hi
  omega

theorem Loc.apart {a : Core} (h : Loc a) {i : Nat} {x y : List Nat} (hc : a.subList = x ++ i :: y) : i ∉ a.subCh := by
  intro hi
  have h1 := h.tok i
  unfold Core.tok at h1
  rw [hc, count_mid, if_pos rfl] at h1
  have := count_pos_iff.2 hi
  omega

theorem Mic.chTags {d : Bytes} {a b : Core} (hl : Loc a) (hm : Mic a b) : (b.chTags d).Sublist (a.chTags d) := by
  have tail : ∀ {i : Nat} {l : List Nat} {heap : List Sub}, a.subCh = i :: l → (∀ j, j ≠ i → (deref heap j).frame = (deref a.heap j).frame) →
      (l.filterMap (allocFor d heap)).Sublist (a.chTags d) := by
    intro i l heap h0 h1
    unfold Core.chTags
    rw [h0, allocFor_congr (fun j hj => h1 j (fun e => hl.head h0 (e ▸ hj))), List.filterMap_cons]
    split
    · exact List.Sublist.refl _
    · exact List.sublist_cons_self _ _
  have same : ∀ {heap : List Sub}, (∀ j ∈ a.subCh, (deref heap j).frame = (deref a.heap j).frame) → (a.subCh.filterMap (allocFor d heap)).Sublist (a.chTags d) := by
    intro heap h1
    unfold Core.chTags
    rw [allocFor_congr h1]
    exact List.Sublist.refl _
  cases hm with
  | newSub dest id ack =>
    refine same (fun j hj => ?_)
    rw [deref_append_lt _ _ _ (hl.idx j (by unfold Core.tok; have := count_pos_iff.2 hj; omega))]
  | ack i x y m h hf => exact same (fun j hj => frame_putFrame_ne (fun e => hl.apart h (e ▸ hj)))
  | nack i x y m h hf => exact same (fun j hj => frame_putFrame_ne (fun e => hl.apart h (e ▸ hj)))
  | back i l m h hf => exact tail h (fun _ _ => rfl)
  | lose i l m n h hf => exact tail h (fun j hj => frame_putFrame_ne hj)
  | auto i l m h hf => exact tail h (fun j hj => frame_putFrame_ne hj)
  | hold i l m n h hf => exact tail h (fun j hj => (frame_putInList _ _ _ _).trans (frame_putFrame_ne hj))
  | release i l m h hf => exact same (fun j hj => frame_putInList _ _ _ _)
  | _ => exact List.Sublist.refl _

theorem Mics.chTags {d : Bytes} {a b : Core} (hl : Loc a) (hm : Mics a b) : (b.chTags d).Sublist (a.chTags d) := by
  induction hm with
  | refl => exact List.Sublist.refl _
  | step h hm ih => exact (hm.chTags (hl.mics h)).trans ih

/-- A step writes the message of the first subscription in the channel, or otherwise no message but those of the write channel. -/
theorem out_split_queue {cfg : Config} {c : Conn} {e : Conn.Ev} {c' : Conn} (hg : Gate cfg c) (h : Step cfg c e c') :
    (∃ i l m n a, c.subCh = i :: l ∧ (deref c.heap i).frame = some m ∧ c'.subCh = l ∧ (∀ j, j ≠ i → (deref c'.heap j).frame = (deref c.heap j).frame) ∧
      c'.out = c.out ++ [⟨some (m.alloc n a).frame, some m.tag⟩]) ∨
    ∃ new, c'.out = c.out ++ new ∧ ∀ w ∈ new, ∀ t, w.tag = some t → ∃ m ∈ c.writeCh, ∃ n, w = ⟨some (m.alloc n none).frame, some t⟩ := by
  have z : ∀ {x : Conn}, x.out = c.out → ∃ new, x.out = c.out ++ new ∧ ∀ w ∈ new, ∀ t, w.tag = some t →
      ∃ m ∈ c.writeCh, ∃ n, w = ⟨some (m.alloc n none).frame, some t⟩ :=
    fun h => ⟨[], by rw [h, List.append_nil], by simp⟩
  have one : ∀ {x : Conn} {m : Msg} {w : List Msg} {n : Nat}, c.writeCh = m :: w → x.out = c.out ++ [⟨some (m.alloc n none).frame, some m.tag⟩] →
      ∃ new, x.out = c.out ++ new ∧ ∀ w ∈ new, ∀ t, w.tag = some t → ∃ m ∈ c.writeCh, ∃ n, w = ⟨some (m.alloc n none).frame, some t⟩ := by
    intro x m w n hf hx
    refine ⟨_, hx, fun w hw t ht => ?_⟩
    rw [List.mem_singleton] at hw; subst hw
    injection ht with ht
    exact ⟨m, by rw [hf]; simp, n, by rw [ht]⟩
  cases h with
  | frame ok1 ok2 f q c1 _ f' r ha hq hsf hfin =>
    right
    have none_ : ∀ {x : Conn} (g : Option Frame), x.out = c.out ++ [⟨g, none⟩] → ∃ new, x.out = c.out ++ new ∧ ∀ w ∈ new, ∀ t, w.tag = some t →
        ∃ m ∈ c.writeCh, ∃ n, w = ⟨some (m.alloc n none).frame, some t⟩ := by
      intro x g hx
      refine ⟨_, hx, fun w hw t ht => ?_⟩
      rw [List.mem_singleton] at hw; subst hw; cases ht
    rcases frame_cases hg hsf hfin with ⟨_, v, cx, cy, _, ⟨_, rfl⟩ | ⟨_, rfl⟩⟩ | ⟨_, _, e, v, ⟨_, rfl⟩ | ⟨_, rfl⟩⟩ | ⟨_, hh, hf⟩
    · exact none_ _ rfl
    · exact z rfl
    · exact none_ _ rfl
    · exact z rfl
    · have h1 : ∃ new, c1.out = c.out ++ new ∧ ∀ w ∈ new, w.tag = none := by
        rcases hh.out with ⟨h, _⟩ | ⟨v, _, h, _⟩ | ⟨h, _⟩
        · exact ⟨[], by simp [h], by simp⟩
        · exact ⟨_, h, by simp⟩
        · exact ⟨[], by simp [h], by simp⟩
      obtain ⟨new, h1, h2⟩ := h1
      have h3 : ∃ new, c'.out = c.out ++ new ∧ ∀ w ∈ new, w.tag = none := by
        cases hf with
        | ok => exact ⟨new, h1, h2⟩
        | panic => exact ⟨new, h1, h2⟩
        | err e =>
          refine ⟨new ++ [⟨some (errorFrame cfg e f'), none⟩], ?_, ?_⟩
          · show c1.out ++ _ = _; rw [h1, List.append_assoc]
          · intro w hw
            rcases List.mem_append.1 hw with hw | hw
            · exact h2 w hw
            · rw [List.mem_singleton] at hw; subst hw; rfl
        | errFail e => exact ⟨new, h1, h2⟩
      obtain ⟨new, h3, h4⟩ := h3
      exact ⟨new, h3, fun w hw t ht => by rw [h4 w hw] at ht; cases ht⟩
  | wrOk m w ha hw hwf hc => exact Or.inr (one hw rfl)
  | wrErr m w ha hw hwf hc => exact Or.inr (one hw rfl)
  | subAuto i l j m ha hl hg' hf hw hk =>
    exact Or.inl ⟨i, l, m, _, _, hl, hf, rfl, fun j hj => (frame_putFrame_ne hj).trans (frame_putFrame_ne hj), rfl⟩
  | subPanic i l j m ha hl hg' hf hw hk hi => exact Or.inl ⟨i, l, m, _, _, hl, hf, rfl, fun j hj => frame_putFrame_ne hj, rfl⟩
  | subAdd i l j m ha hl hg' hf hw hk hi =>
    exact Or.inl ⟨i, l, m, _, _, hl, hf, rfl, fun j hj => (frame_putInList _ _ _ _).trans (frame_putFrame_ne hj), rfl⟩
  | timerOk =>
    right
    refine ⟨_, rfl, fun w hw t ht => ?_⟩
    rw [List.mem_singleton] at hw; subst hw; cases ht
  | _ => exact Or.inr (z rfl)

theorem writtenOf_alloc (d : Bytes) (m : Msg) (n : Nat) (a : Option Bytes) :
    Spec.writtenOf d ⟨some (m.alloc n a).frame, some m.tag⟩ = if firstValue m.frame.header Hdr.destination = some d then some m.tag else none := by
  unfold Spec.writtenOf Spec.hdr
  dsimp only
  rw [show firstValue (m.alloc n a).frame.header b!"destination" = firstValue m.frame.header Hdr.destination from
      firstValue_alloc m n a Hdr.destination (by decide) (by decide) (by decide)]

/-- What was written for the queue `d`, followed by what is in the channel of subscriptions, follows what was handed out. -/
def HandedOk (d : Bytes) (H : Nat → List Tag) (s : Sys) : Prop :=
  ∀ (c : Nat) (k : Conn), s.conns[c]? = some k → (Spec.writtenOn d k.out ++ k.core.chTags d).Sublist (H c)

theorem handed_step {cfg : Config} {d : Bytes} (hd : isQueueDestination d = true) {s s' : Sys} {e : Sys.Ev} {H : Nat → List Tag} (hi : SInv cfg s) (ha : Addr s)
    (h : HandedOk d H s) (hs : SysStep cfg s e s') : HandedOk d (fun c => H c ++ (Spec.handed d s e).filterMap (Spec.toConn c)) s' := by
  have grow : ∀ {c : Nat} {l : List Tag}, l.Sublist (H c) → l.Sublist (H c ++ (Spec.handed d s e).filterMap (Spec.toConn c)) := fun h => h.trans (List.sublist_append_left _ _)
  have same : (∀ (c : Nat) (k' : Conn), s'.conns[c]? = some k' → ∃ k, s.conns[c]? = some k ∧ k'.out = k.out ∧ k'.subCh = k.subCh ∧
      ∀ j ∈ k.subCh, (deref k'.heap j).frame = (deref k.heap j).frame) → HandedOk d (fun c => H c ++ (Spec.handed d s e).filterMap (Spec.toConn c)) s' := by
    intro hk c k' hk'
    obtain ⟨k, h0, h1, h2, h3⟩ := hk c k' hk'
    refine grow ?_
    have h4 := h c k h0
    have e1 : k'.core.chTags d = k.core.chTags d := by
      show k'.subCh.filterMap (allocFor d k'.heap) = k.subCh.filterMap (allocFor d k.heap)
      rw [h2, allocFor_congr h3]
    rw [h1, e1]; exact h4
  have keepAll : s'.conns = s.conns → ∀ (c : Nat) (k' : Conn), s'.conns[c]? = some k' → ∃ k, s.conns[c]? = some k ∧ k'.out = k.out ∧ k'.subCh = k.subCh ∧
      ∀ j ∈ k.subCh, (deref k'.heap j).frame = (deref k.heap j).frame := by
    intro he c k' hk'; rw [he] at hk'; exact ⟨k', hk', rfl, rfl, fun _ _ => rfl⟩
  have keepOne : ∀ {j : Nat} {k1 k2 : Conn}, s.conns[j]? = some k1 → s'.conns = s.conns.set j k2 → k2.out = k1.out → k2.subCh = k1.subCh →
      (∀ i ∈ k1.subCh, (deref k2.heap i).frame = (deref k1.heap i).frame) → ∀ (c : Nat) (k' : Conn), s'.conns[c]? = some k' →
      ∃ k, s.conns[c]? = some k ∧ k'.out = k.out ∧ k'.subCh = k.subCh ∧ ∀ j ∈ k.subCh, (deref k'.heap j).frame = (deref k.heap j).frame := by
    intro j k1 k2 h1 h2 h3 h4 h5 c k' hk'
    rw [h2, get_set h1] at hk'
    split at hk'
    · rename_i hj; injection hk' with hk'; subst hk' hj
      exact ⟨k1, h1, h3, h4, h5⟩
    · exact ⟨k', hk', rfl, rfl, fun _ _ => rfl⟩
  -- a subscription without a message is not in the channel
  have out_ : ∀ {c : Nat} {k : Conn} {i : Nat}, s.conns[c]? = some k → (deref k.heap i).frame = none → i ∉ k.subCh := by
    intro c k i hk hf hin
    have := (hi.loc c k hk).full i (Or.inl hin)
    rw [show (deref k.core.heap i).frame = none from hf] at this; cases this
  cases hs with
  | accept =>
    intro c k' hk'
    rcases conns_evol (cfg := cfg) (SysStep.accept (cfg := cfg) (s := s)) hk' with ⟨hn, rfl⟩ | ⟨k, hk, _⟩
    · exact List.nil_sublist _
    · have hlt : c < s.conns.length := (List.getElem?_eq_some_iff.1 hk).1
      dsimp only at hk'
      rw [List.getElem?_append_left hlt] at hk'
      exact grow (h c k' hk')
  | conn j e k k' hk hin hst =>
    intro c x hx
    dsimp only at hx
    rw [get_set hk] at hx
    split at hx
    · rename_i hj; injection hx with hx; subst hx hj
      obtain ⟨es, hrun⟩ := hi.run j k hk
      have hmics := mics_conn hi hk hin hst
      have hloc := hi.loc j k hk
      refine grow (List.Sublist.trans ?_ (h j k hk))
      rcases out_split_queue (gate_run cfg j es k hrun) (step_of _ _ _ _ hst) with ⟨i, l, m, n, a, h1, h2, h3, h4, h5⟩ | ⟨new, h1, h2⟩
      · unfold Spec.writtenOn
        rw [h5, List.filterMap_append, List.append_assoc]
        refine List.Sublist.append (List.Sublist.refl _) ?_
        rw [List.filterMap_cons, List.filterMap_nil, writtenOf_alloc]
        have e1 : k'.core.chTags d = l.filterMap (allocFor d k.heap) := by
          show k'.subCh.filterMap (allocFor d k'.heap) = _
          rw [h3, allocFor_congr (fun j hj => h4 j (fun e => hloc.head (show k.core.subCh = i :: l from h1) (e ▸ hj)))]
        have e2 : k.core.chTags d = (i :: l).filterMap (allocFor d k.heap) := by
          show k.subCh.filterMap (allocFor d k.heap) = _
          rw [h1]
        have e3 : allocFor d k.heap i = if firstValue m.frame.header Hdr.destination = some d then some m.tag else none := by
          unfold allocFor; rw [h2]; rfl
        rw [e1, e2, List.filterMap_cons, e3]
        split <;> exact List.Sublist.refl _
      · have e2 : new.filterMap (Spec.writtenOf d) = [] := by
          rw [List.filterMap_eq_nil_iff]
          intro w hw
          cases ht : w.tag with
          | none =>
            unfold Spec.writtenOf
            split
            · rw [ht]; split <;> rfl
            · rfl
          | some t =>
            obtain ⟨m, hm, n, rfl⟩ := h2 w hw t ht
            obtain ⟨i, _, _, hq1, hq2⟩ := ha.wr j k hk m hm
            unfold Spec.writtenOf Spec.hdr
            dsimp only
            rw [show firstValue (m.alloc n none).frame.header b!"destination" = firstValue m.frame.header Hdr.destination from
              firstValue_alloc m n none Hdr.destination (by decide) (by decide) (by decide), hq1]
            refine if_neg (fun e => ?_)
            have e1 := Option.some.inj e
            rw [e1, hd] at hq2; cases hq2
        unfold Spec.writtenOn
        rw [h1, List.filterMap_append, e2, List.append_nil]
        exact List.Sublist.append (List.Sublist.refl _) (hmics.chTags hloc)
    · exact grow (h c x hx)
  | flush j k r o hk ho hc => exact same (keepOne hk rfl rfl rfl (fun _ _ => rfl))
  | skip r rs ht hr hn => exact same (keepAll rfl)
  | joinTopic r rs k dest ht hr hk hidx hdest hq => exact same (keepAll rfl)
  | wait r rs k dest ht hr hk hidx hdest hq => exact same (keepOne hk rfl rfl rfl (fun _ _ => frame_putInList _ _ _ _))
  | take r rs k dest m l ht hr hk hidx hdest hq hm hf =>
    exact same (keepOne hk rfl rfl rfl (fun j hj => frame_putFrame_ne (fun e => out_ hk hf (e ▸ hj))))
  | leaveQueue r rs k dest ht hr hk hidx hdest hq => exact same (keepOne hk rfl rfl rfl (fun _ _ => frame_putInList _ _ _ _))
  | absent r rs k dest ht hr hk hidx hdest hq => exact same (keepAll rfl)
  | leaveTopic r rs k dest ht hr hk hidx hdest hq => exact same (keepAll rfl)
  | store front m rs dest ht hr => exact same (keepAll rfl)
  | give front m rs dest r q k ht hr hdd hq he hk hidx hf =>
    exact same (keepOne hk rfl rfl rfl (fun j hj => (frame_putFrame_ne (j := j) (i := r.idx) (fun e => out_ hk hf (e ▸ hj))).trans (frame_putInList _ _ _ _)))
  | cast m rs dest ht hr hdest hq => exact same (keepAll rfl)
  | drop m rs dest ht hr => exact same (keepAll rfl)
  | pushQueue r t k ht hk hc =>
    intro c x hx
    dsimp only at hx
    rw [get_set hk] at hx
    split at hx
    · rename_i hj; injection hx with hx; subst hx hj
      have h0 := h r.conn k hk
      show (Spec.writtenOn d k.out ++ (k.subCh ++ [r.idx]).filterMap (allocFor d k.heap)).Sublist _
      rw [List.filterMap_append, ← List.append_assoc]
      refine List.Sublist.append h0 ?_
      obtain ⟨y, hy, hfull⟩ := hi.full r (by rw [ht]; simp [todoSubs])
      obtain ⟨k0, hk0, hlt, hd0⟩ := look_some hy
      rw [hk] at hk0; injection hk0 with hk0; subst hk0
      have hsub : Spec.theSub s r = some (deref k.heap r.idx) := by
        rw [hd0]; exact hy
      obtain ⟨m, hm⟩ := Option.isSome_iff_exists.1 hfull
      rw [← hd0] at hm
      obtain ⟨_, hq1, _⟩ := (ha.core r.conn k hk).heap r.idx m hm
      have hq1 : firstValue m.frame.header Hdr.destination = some (deref k.heap r.idx).dest := hq1
      have e1 : Spec.handed d s .push = if (deref k.heap r.idx).dest = d then [(r, m.tag)] else [] := by
        unfold Spec.handed
        dsimp only
        rw [ht]
        dsimp only [Spec.handOver]
        rw [hsub]
        dsimp only
        rw [hm]
      have e2 : allocFor d k.heap r.idx = if (deref k.heap r.idx).dest = d then some m.tag else none := by
        unfold allocFor
        rw [hm]
        dsimp only [Option.bind_some]
        rw [hq1]
        simp only [Option.some.injEq]
      rw [e1, List.filterMap_cons, List.filterMap_nil, e2]
      by_cases hdd : (deref k.heap r.idx).dest = d
      · rw [if_pos hdd, if_pos hdd, List.filterMap_cons]
        unfold Spec.toConn
        rw [if_pos rfl]
        exact List.Sublist.refl _
      · rw [if_neg hdd, if_neg hdd]
        exact List.Sublist.refl _
    · exact grow (h c x hx)
  | pushTopic dest r m t k ht hk hfr hc => exact same (keepOne hk rfl rfl rfl (fun _ _ => rfl))

theorem handed_run {cfg : Config} {d : Bytes} (hd : isQueueDestination d = true) {es : List Sys.Ev} {s : Sys} (h : Sys.init.run cfg es = some s)
    (hc : s.crashed = false) : HandedOk d (fun c => Spec.handedTo d c cfg es) s := by
  refine (trace_induction (P := fun es s => HandedOk d (fun c => Spec.handedTo d c cfg es) s) (fun c k hk => by cases hk) ?_ es s h hc).2.2
  intro es s e s' hi ha hr hp hs
  have := handed_step hd hi ha hp hs
  have e1 : (fun c => Spec.handedTo d c cfg (es ++ [e])) = fun c => Spec.handedTo d c cfg es ++ (Spec.handed d s e).filterMap (Spec.toConn c) := by
    funext c
    unfold Spec.handedTo
    rw [observe_snoc _ _ _ _ _ hr, List.filterMap_append]
  rw [e1]; exact this

/-- The messages of a sender are sent to a queue in the order of its SEND frames. -/
theorem sentTo_sent {cfg : Config} {es : List Sys.Ev} {s : Sys} (h : Sys.init.run cfg es = some s) (hc : s.crashed = false) (d : Bytes) {c : Nat} {k : Conn}
    (hk : s.conns[c]? = some k) :
    ((Spec.sentTo d cfg es).filter (fun t => decide (t.src = c))).Sublist ((Spec.messages c 0 k.effective).map (·.tag)) := by
  rw [← sent_run h hc c k hk, List.filter_append, List.append_assoc]
  exact ((observe_sublist es Sys.init).filter _).trans (List.sublist_append_left _ _)

end Stomp.Server
