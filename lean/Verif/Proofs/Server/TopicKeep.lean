import Verif.Proofs.Server.TopicOrder
/-! # The messages of a topic do not get lost -/
namespace Stomp.Server
open Stomp
open Stomp.Spec (firstValue)

/-- The handlers leave the write channel alone. -/
theorem writeCh_frame {cfg : Config} {c : Conn} {ok1 ok2 : Bool} {f : Frame} {q : List Frame} {c1 c' : Conn} {f' : Frame} {r : Res} (hg : Gate cfg c)
    (hsf : ({ c with inq := q, hist := c.hist ++ [f] } : Conn).stateFunc cfg ok1 f = (c1, f', r)) (hfin : Fin cfg c1 ok2 f' r c') : c'.writeCh = c.writeCh := by
  rcases frame_cases hg hsf hfin with ⟨_, v, cx, cy, _, ⟨_, rfl⟩ | ⟨_, rfl⟩⟩ | ⟨_, _, e, v, ⟨_, rfl⟩ | ⟨_, rfl⟩⟩ | ⟨_, hh', hf⟩
  · rfl
  · rfl
  · rfl
  · rfl
  · have rc : ∀ {c1 : Conn} {f1 : Frame} {k : Bool}, Rcpt { c with inq := q, hist := c.hist ++ [f] } ok1 f c1 f1 k → c1.writeCh = c.writeCh := by
      intro c1 f1 k hr
      cases hr <;> rfl
    have ba : ∀ {a : Conn} {f1 : Frame} {b : Conn} {g : Frame} {ok : Bool} {r : Res}, Basic a ok f1 b g r → b.writeCh = a.writeCh := by
      intro a f1 b g ok r hb
      have rc : ∀ {c1 : Conn} {f0 f1 : Frame} {k : Bool}, Rcpt a ok f0 c1 f1 k → c1.writeCh = a.writeCh := by
        intro c1 f0 f1 k hr
        cases hr <;> rfl
      cases hb <;> first | rfl | exact rc (by assumption) | (have := rc (by assumption); exact this)
    have ap : ∀ {a : Conn} {f1 : Frame} {b : Conn} {r : Res}, Applied a f1 b r → b.writeCh = a.writeCh := by
      intro a f1 b r h
      cases h <;> rfl
    have h1 : c1.writeCh = c.writeCh := by
      cases hh' with
      | commitMissing => rfl
      | commitWrite _ _ _ hr => exact rc hr
      | commitUnknown _ _ _ _ hr => exact rc hr
      | commit _ _ _ _ _ hr hcm =>
        have : ∀ {a : Conn} {l : List Frame} {b : Conn} {r : Res}, Committed a l b r → b.writeCh = a.writeCh := by
          intro a l b r h
          induction h with
          | nil => rfl
          | cons h _ ih => exact ih.trans (ap h)
          | panic h => exact ap h
        exact (this hcm).trans (rc hr)
      | basic hnc hb => exact (ba hb :)
    cases hf <;> exact h1

theorem stage_back {cfg : Config} {c : Conn} {e : Conn.Ev} {c' : Conn} (h : Step cfg c e c') (hr : c'.stage = .run) : c.stage = .run := by
  have sel : c.atSelect = true → c.stage = .run := fun ha => by
    simp only [Conn.atSelect, Bool.and_eq_true, decide_eq_true_eq] at ha
    exact ha.1
  cases h <;> first | exact hr | (exact sel (by assumption)) | (exfalso; cases hr; done) | skip
  all_goals
    rename_i hs
    dsimp only at hr
    subst hr
    simp at hs

/-- A running connection takes messages from its write channel only to write them. -/
theorem writeCh_kept {cfg : Config} {c : Conn} {e : Conn.Ev} {c' : Conn} (hg : Gate cfg c) (h : Step cfg c e c') (hr : c'.stage = .run) (hw : c'.wfail = false) :
    (∃ m w n, c.writeCh = m :: w ∧ c'.writeCh = w ∧ c'.out = c.out ++ [⟨some (m.alloc n none).frame, some m.tag⟩]) ∨
    (∃ new, c'.writeCh = c.writeCh ++ new) ∧ ∃ new, c'.out = c.out ++ new := by
  have ho : ∃ new, c'.out = c.out ++ new := by
    rcases out_split hg h with ⟨_, _, _, _, _, h1⟩ | ⟨new, h1, _⟩
    · exact ⟨_, h1⟩
    · exact ⟨new, h1⟩
  have z : c'.writeCh = c.writeCh → (∃ new, c'.writeCh = c.writeCh ++ new) ∧ ∃ new, c'.out = c.out ++ new := fun h => ⟨⟨[], by rw [h, List.append_nil]⟩, ho⟩
  cases h with
  | frame ok1 ok2 f q c1 _ f' r ha hq hsf hfin => exact .inr (z (writeCh_frame hg hsf hfin))
  | wrOk m w ha hw' => exact .inl ⟨m, w, _, hw', rfl, rfl⟩
  | wrErr => cases hr
  | wrFail => cases hr
  | discard m w ho hs hw' =>
    dsimp only at hr
    rw [hr] at hs; simp at hs
  | pushTopic m hl => exact .inr ⟨⟨[m], rfl⟩, ho⟩
  | _ => exact .inr (z rfl)

/-- A connection that runs has always run. -/
theorem up_back {cfg : Config} {s s' : Sys} {e : Sys.Ev} (hi : SInv cfg s) (hs : SysStep cfg s e s') {c : Nat} {k k' : Conn} (hk : s.conns[c]? = some k) (hk' : s'.conns[c]? = some k')
    (hr : k'.stage = .run) (hw : k'.wfail = false) : k.stage = .run ∧ k.wfail = false := by
  rcases conns_evol hs hk' with ⟨hn, _⟩ | ⟨k0, h0, ⟨e', _, hst⟩ | ho⟩
  · rw [hk] at hn; cases hn
  · rw [hk] at h0; injection h0 with h0; subst h0
    obtain ⟨es, hrun⟩ := hi.run c k hk
    have hst := step_of _ _ _ _ hst
    refine ⟨stage_back hst hr, ?_⟩
    cases hwf : k.wfail with
    | false => rfl
    | true => rw [(wfail_step (gate_run cfg c es k hrun) hst hwf).1] at hw; cases hw
  · rw [hk] at h0; injection h0 with h0; subst h0
    exact ⟨ho.stage.symm.trans hr, ho.wfail.symm.trans hw⟩

/-- A message of a topic on its way to a subscription stays on its way until it is written, as long as the connection runs. -/
theorem course_keep {cfg : Config} {d : Bytes} {s s' : Sys} {e : Sys.Ev} (hi : SInv cfg s) (ha : Addr s) (hs : SysStep cfg s e s')
    {c : Nat} {k k' : Conn} (hk : s.conns[c]? = some k) (hk' : s'.conns[c]? = some k') (hr : k'.stage = .run) (hw : k'.wfail = false) {id : Bytes} {t : Tag}
    (h : t ∈ course s d c id k) : t ∈ course s' d c id k' := by
  have todoLt : ∀ {c : Nat} {k : Conn} {d' : Bytes} {r : SubRef} {m : Msg}, s.conns[c]? = some k → .topic d' r m ∈ s.todo → r.conn = c → r.idx < k.heap.length := by
    intro c k d' r m hk hm hc
    obtain ⟨_, x, hx, _⟩ := ha.t d' r (hi.due d' r m hm)
    obtain ⟨k0, h1, h2, _⟩ := look_some hx
    rw [hc, hk] at h1; injection h1 with h1; subst h1; exact h2
  -- nothing happens to the messages
  have same : k'.out = k.out → k'.writeCh = k.writeCh → (∀ i, (deref k'.heap i).id = (deref k.heap i).id) →
      (∀ x ∈ s.todo.filterMap (todoFor k.heap d c id), x ∈ s'.todo.filterMap (todoFor k.heap d c id)) → t ∈ course s' d c id k' := by
    intro h1 h2 h3 h4
    unfold course at h ⊢
    rw [h1, h2, todo_congr (fun _ r _ _ _ => h3 r.idx)]
    rcases List.mem_append.1 h with h | h
    · exact List.mem_append_left _ h
    · exact List.mem_append_right _ (h4 _ h)
  have keepAll : s'.conns = s.conns → (∀ x ∈ s.todo.filterMap (todoFor k.heap d c id), x ∈ s'.todo.filterMap (todoFor k.heap d c id)) → t ∈ course s' d c id k' := by
    intro he
    rw [he, hk] at hk'; injection hk' with hk'; subst hk'
    exact same rfl rfl (fun _ => rfl)
  have keepOne : ∀ {j : Nat} {k1 k2 : Conn}, s.conns[j]? = some k1 → s'.conns = s.conns.set j k2 → k2.out = k1.out → k2.writeCh = k1.writeCh →
      (∀ i, (deref k2.heap i).fixed = (deref k1.heap i).fixed) → (∀ x ∈ s.todo.filterMap (todoFor k.heap d c id), x ∈ s'.todo.filterMap (todoFor k.heap d c id)) →
      t ∈ course s' d c id k' := by
    intro j k1 k2 h1 h2 h3 h4 h5
    rw [h2, get_set h1] at hk'
    split at hk'
    · rename_i hj; injection hk' with hk'; subst hk' hj
      rw [hk] at h1; injection h1 with h1; subst h1
      exact same h3 h4 (fun i => (fixed_id (h5 i)).1)
    · rw [hk] at hk'; injection hk' with hk'; subst hk'
      exact same rfl rfl (fun _ => rfl)
  have none_ : s.todo = [] → ∀ x ∈ s.todo.filterMap (todoFor k.heap d c id), x ∈ s'.todo.filterMap (todoFor k.heap d c id) := by
    intro h0 x hx; rw [h0] at hx; cases hx
  cases hs with
  | accept =>
    dsimp only at hk'
    rw [List.getElem?_append_left (List.getElem?_eq_some_iff.1 hk).1, hk] at hk'
    injection hk' with hk'; subst hk'; exact h
  | conn j e k1 k2 hk1 hin hst =>
    dsimp only at hk'
    rw [get_set hk1] at hk'
    split at hk'
    · rename_i hj; injection hk' with hk'; subst hk' hj
      rw [hk] at hk1; injection hk1 with hk1; subst hk1
      obtain ⟨es, hrun⟩ := hi.run j k hk
      have hmics := mics_conn hi hk hin hst
      unfold course at h ⊢
      have et : s.todo.filterMap (todoFor k2.heap d j id) = s.todo.filterMap (todoFor k.heap d j id) :=
        todo_congr (fun d' r m hm hc => (fixed_id (hmics.evol.fixed r.idx (todoLt hk hm hc))).1)
      show t ∈ _ ++ _ ++ s.todo.filterMap (todoFor k2.heap d j id)
      rw [et]
      rcases List.mem_append.1 h with h | h
      · refine List.mem_append_left _ ?_
        rcases writeCh_kept (gate_run cfg j es k hrun) (step_of _ _ _ _ hst) hr hw with ⟨m, w, n, h1, h2, h3⟩ | ⟨⟨n1, h1⟩, n2, h2⟩
        · unfold Spec.writtenTo at h ⊢
          rw [h3, h2, List.filterMap_append, List.append_assoc]
          rw [h1, List.filterMap_cons] at h
          rw [List.filterMap_cons, List.filterMap_nil, writtenFor_alloc]
          revert h
          cases chanFor d id m <;> exact fun h => h
        · unfold Spec.writtenTo at h ⊢
          rw [h1, h2, List.filterMap_append, List.filterMap_append]
          rcases List.mem_append.1 h with h | h
          · exact List.mem_append_left _ (List.mem_append_left _ h)
          · exact List.mem_append_right _ (List.mem_append_left _ h)
      · exact List.mem_append_right _ h
    · rw [hk] at hk'; injection hk' with hk'; subst hk'; exact h
  | flush j k r o hk ho hc => exact keepOne hk rfl rfl rfl (fun _ => rfl) (fun _ h => h)
  | skip r rs ht hr hn => exact keepAll rfl (fun _ h => h)
  | joinTopic r rs k dest ht hr hk hidx hdest hq => exact keepAll rfl (fun _ h => h)
  | wait r rs k dest ht hr hk hidx hdest hq => exact keepOne hk rfl rfl rfl (fun _ => fixed_putInList _ _ _ _) (fun _ h => h)
  | take r rs k dest m l ht hr hk hidx hdest hq => exact keepOne hk rfl rfl rfl (fun _ => fixed_putFrame _ _ _ _) (none_ ht)
  | leaveQueue r rs k dest ht hr hk hidx hdest hq => exact keepOne hk rfl rfl rfl (fun _ => fixed_putInList _ _ _ _) (fun _ h => h)
  | absent r rs k dest ht hr hk hidx hdest hq => exact keepAll rfl (fun _ h => h)
  | leaveTopic r rs k dest ht hr hk hidx hdest hq => exact keepAll rfl (fun _ h => h)
  | store front m rs dest ht hr => exact keepAll rfl (fun _ h => h)
  | give front m rs dest r q k ht hr hdd hq he hk =>
    exact keepOne hk rfl rfl rfl (fun _ => (fixed_putFrame _ _ _ _).trans (fixed_putInList _ _ _ _)) (none_ ht)
  | cast m rs dest ht hr hdest hq => exact keepAll rfl (none_ ht)
  | drop m rs dest ht hr => exact keepAll rfl (fun _ h => h)
  | pushQueue r t k ht hk =>
    refine keepOne hk rfl rfl rfl (fun _ => rfl) (fun x hx => ?_)
    rw [ht] at hx; exact hx
  | pushTopic dest r m t2 k1 ht hk1 hfr hc =>
    have htm : firstValue m.frame.header Hdr.destination = some dest := ha.todo dest r m (by rw [ht]; simp)
    dsimp only at hk'
    rw [get_set hk1] at hk'
    unfold course at h ⊢
    rw [ht, List.filterMap_cons] at h
    dsimp only
    split at hk'
    · rename_i hj; injection hk' with hk'; subst hk' hj
      rw [hk] at hk1; injection hk1 with hk1; subst hk1
      dsimp only
      rw [List.filterMap_append, List.filterMap_cons, List.filterMap_nil, chanFor_addressed, htm]
      have e1 : todoFor k.heap d r.conn id (.topic dest r m) = if some dest = some d ∧ (deref k.heap r.idx).id = id then some m.tag else none := by
        show (if dest = d ∧ r.conn = r.conn ∧ (deref k.heap r.idx).id = id then some m.tag else none) = _
        simp only [true_and, Option.some.injEq]
      rw [e1] at h
      revert h
      generalize (if some dest = some d ∧ (deref k.heap r.idx).id = id then some m.tag else none) = o
      intro h
      cases o with
      | none => simpa using h
      | some t2 => simpa using h
    · rename_i hj
      rw [hk] at hk'; injection hk' with hk'; subst hk'
      have e1 : todoFor k.heap d c id (.topic dest r m) = none := if_neg (fun e => hj e.2.1)
      rw [e1] at h
      exact h

/-- Who has subscribed, and not unsubscribed, is subscribed. -/
theorem topic_member {i : List Spec.TAsk} {o : List (SubRef × Msg)} {w : List SubRef} (h : Spec.Topic i o w) {r : SubRef} (h1 : .subscribe r ∈ i) (h2 : .unsubscribe r ∉ i) : r ∈ w := by
  induction h with
  | start => cases h1
  | @join i o w r' h ih =>
    rcases List.mem_append.1 h1 with h1 | h1
    · exact List.mem_append_left _ (ih h1 (fun h => h2 (List.mem_append_left _ h)))
    · simp only [List.mem_singleton, Spec.TAsk.subscribe.injEq] at h1
      subst h1; simp
  | @leave i o w r' h ih =>
    rcases List.mem_append.1 h1 with h1 | h1
    · have hne : r ≠ r' := fun e => h2 (by rw [e]; simp)
      exact (List.mem_erase_of_ne hne).2 (ih h1 (fun h => h2 (List.mem_append_left _ h)))
    · simp at h1
  | @cast i o w m h ih =>
    rcases List.mem_append.1 h1 with h1 | h1
    · exact ih h1 (fun h => h2 (List.mem_append_left _ h))
    · simp at h1

/-- Every message of the topic `d` is on its way to the subscriptions of its time, or written. -/
def KeepOk (d : Bytes) (i : List Spec.TAsk) (s : Sys) : Prop :=
  ∀ a m b r, i = a ++ .cast m :: b → .subscribe r ∈ a → .unsubscribe r ∉ a →
    ∃ k, s.conns[r.conn]? = some k ∧ r.idx < k.heap.length ∧ (k.stage = .run → k.wfail = false → m.tag ∈ course s d r.conn (deref k.heap r.idx).id k)

theorem keep_step {cfg : Config} {d : Bytes} (hd : isQueueDestination d = false) {s s' : Sys} {e : Sys.Ev} {i : List Spec.TAsk} {o : List (Nat × Msg)} (hi : SInv cfg s) (ha : Addr s)
    (ht : TopicOk d i o s) (h : KeepOk d i s) (hs : SysStep cfg s e s') : KeepOk d (i ++ Spec.askedTopic d s e) s' := by
  have old : KeepOk d i s' := by
    intro a m b r h1 h2 h3
    obtain ⟨k, hk, hlt, hc⟩ := h a m b r h1 h2 h3
    obtain ⟨k', hk', hlen, hid⟩ : ∃ k', s'.conns[r.conn]? = some k' ∧ k.heap.length ≤ k'.heap.length ∧ (deref k'.heap r.idx).id = (deref k.heap r.idx).id := by
      obtain ⟨k', hk'⟩ := conns_keep hs hk
      rcases conns_evol hs hk' with ⟨hn, _⟩ | ⟨k0, h0, ⟨e', hin, hst⟩ | ho⟩
      · rw [hk] at hn; cases hn
      · rw [hk] at h0; injection h0 with h0; subst h0
        have hmics := mics_conn hi hk hin hst
        exact ⟨k', hk', hmics.evol.len, (fixed_id (hmics.evol.fixed r.idx hlt)).1⟩
      · rw [hk] at h0; injection h0 with h0; subst h0
        exact ⟨k', hk', by rw [ho.len]; exact Nat.le_refl _, (fixed_id (ho.fixed r.idx)).1⟩
    refine ⟨k', hk', Nat.lt_of_lt_of_le hlt hlen, fun hr hw => ?_⟩
    have hu := up_back hi hs hk hk' hr hw
    rw [hid]
    exact course_keep hi ha hs hk hk' hr hw (hc hu.1 hu.2)
  intro a m b r h1 h2 h3
  have hask : Spec.askedTopic d s e = [] ∨ ∃ x, Spec.askedTopic d s e = [x] := by
    unfold Spec.askedTopic
    (repeat' split) <;> first | exact .inl rfl | exact .inr ⟨_, rfl⟩
  rcases hask with hask | ⟨x, hask⟩
  · rw [hask, List.append_nil] at h1
    exact old a m b r h1 h2 h3
  · rcases List.eq_nil_or_concat b with rfl | ⟨b', y, rfl⟩
    · rw [hask] at h1
      obtain ⟨rfl, h4⟩ := List.append_inj' h1 rfl
      simp only [List.cons.injEq, and_true] at h4
      subst h4
      obtain ⟨done, htop, _⟩ := ht
      have hmem := topic_member htop h2 h3
      obtain ⟨_, y, hy, _⟩ := ha.t d r hmem
      obtain ⟨k, hk, hlt, _⟩ := look_some hy
      have hreq : e = .proc ∧ ∃ rs, s.reqCh = .enqueue m :: rs ∧ Spec.target m = some d := by
        unfold Spec.askedTopic at hask
        (repeat' split at hask) <;> first | (cases hask; done) | skip
        rename_i h5 h6
        injection hask with h7 _
        injection h7 with h7
        subst h7
        exact ⟨rfl, _, h5, h6⟩
      obtain ⟨rfl, rs, hrs, htm⟩ := hreq
      have other : ∀ {front : Bool} {m' : Msg} {rs' : List Req} {dest : Bytes}, s.reqCh = putReq front m' :: rs' → m'.frame.header.contains Hdr.destination = some dest →
          isQueueDestination dest = true → False := by
        intro front m' rs' dest hr hdest hq
        rw [hrs] at hr
        injection hr with hr1 hr2
        cases front with
        | true => cases hr1
        | false =>
          injection hr1 with hr1
          subst hr1
          rw [contains_eq] at hdest
          rw [show Spec.target m = some dest from hdest] at htm
          injection htm with htm
          rw [htm, hd] at hq; cases hq
      cases hs with
      | cast m' rs' dest ht0 hr hdest hq =>
        rw [hrs] at hr
        injection hr with hr1 hr2
        injection hr1 with hr1
        subst hr1 hr2
        rw [contains_eq] at hdest
        rw [show Spec.target m = some dest from hdest] at htm
        injection htm with htm
        subst htm
        refine ⟨k, hk, hlt, fun _ _ => ?_⟩
        unfold course
        refine List.mem_append_right _ (List.mem_filterMap.2 ⟨.topic dest r m, List.mem_map.2 ⟨r, hmem, rfl⟩, ?_⟩)
        exact if_pos ⟨rfl, rfl, rfl⟩
      | store front m' rs' dest ht0 hr hdest hq => exact (other hr hdest hq).elim
      | give front m' rs' dest r' q k ht0 hr hdest hq => exact (other hr hdest hq).elim
      | skip _ _ _ hr hn =>
        rw [hrs] at hr
        injection hr with hr _
        rcases hn with ⟨_, hn⟩ | ⟨_, hn⟩ <;> (rw [← hr] at hn; cases hn)
      | _ => simp_all
    · rw [hask, show a ++ .cast m :: b'.concat y = (a ++ .cast m :: b') ++ [y] by simp] at h1
      exact old a m b' r (List.append_inj' h1 rfl).1 h2 h3

theorem keep_run {cfg : Config} {d : Bytes} (hd : isQueueDestination d = false) {es : List Sys.Ev} {s : Sys} (h : Sys.init.run cfg es = some s) (hc : s.crashed = false) :
    KeepOk d (Spec.observe (Spec.askedTopic d) cfg Sys.init es) s := by
  refine (trace_induction_step (P := fun es s => s.crashed = false → KeepOk d (Spec.observe (Spec.askedTopic d) cfg Sys.init es) s) ?_ ?_ es s h hc).2.2 hc
  · intro _ a m b r h1
    simp [Spec.observe] at h1
  · intro es s e s' hi ha hr hp hs hst hcr
    have hc0 : s.crashed = false := by
      cases hx : s.crashed with
      | false => rfl
      | true => rw [sys_crashed_step hst] at hx; cases hx
    rw [observe_snoc _ _ _ _ _ hr]
    exact keep_step hd hi ha (topic_run hd hr hc0) (hp hc0) hs

end Stomp.Server
