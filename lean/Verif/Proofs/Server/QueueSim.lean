import Verif.Proofs.Server.Addr
import Verif.Spec.Queue
/-! # The queues of the server behave as specified -/
namespace Stomp.Server
open Stomp
open Stomp.Spec (firstValue)

theorem sysRun_append {cfg : Config} (es es' : List Sys.Ev) (s s1 : Sys) (h : s.run cfg es = some s1) :
    s.run cfg (es ++ es') = s1.run cfg es' := by
  induction es generalizing s with
  | nil => simp only [Sys.run, Option.some.injEq] at h; subst h; rfl
  | cons e es ih =>
    simp only [Sys.run] at h
    simp only [List.cons_append, Sys.run]
    split at h
    · cases h
    · exact ih _ h

theorem observe_snoc {α : Type} (T : Sys → Sys.Ev → List α) {cfg : Config} (es : List Sys.Ev) (e : Sys.Ev) (s s1 : Sys) (h : s.run cfg es = some s1) :
    Spec.observe T cfg s (es ++ [e]) = Spec.observe T cfg s es ++ T s1 e := by
  induction es generalizing s with
  | nil =>
    simp only [Sys.run, Option.some.injEq] at h; subst h
    simp only [List.nil_append, Spec.observe]
    cases s.step cfg e <;> simp
  | cons e0 es ih =>
    simp only [Sys.run] at h
    simp only [List.cons_append, Spec.observe]
    split at h
    · cases h
    · rename_i s2 hs
      rw [hs]
      dsimp only
      rw [ih s2 h, List.append_assoc]

/-- Induction over the runs of the server, with the events so far and the step. -/
theorem trace_induction_step {cfg : Config} {P : List Sys.Ev → Sys → Prop} (h0 : P [] Sys.init)
    (hstep : ∀ es s e s', SInv cfg s → Addr s → Sys.init.run cfg es = some s → P es s → SysStep cfg s e s' → s.step cfg e = some s' → P (es ++ [e]) s') (es : List Sys.Ev) (s : Sys)
    (h : Sys.init.run cfg es = some s) (hc : s.crashed = false) : SInv cfg s ∧ Addr s ∧ P es s := by
  have key : ∀ es pre s0, SInv cfg s0 ∧ Addr s0 ∧ P pre s0 → Sys.init.run cfg pre = some s0 → s0.run cfg es = some s → SInv cfg s ∧ Addr s ∧ P (pre ++ es) s := by
    intro es
    induction es with
    | nil => intro pre s0 h0 _ h; simp only [Sys.run, Option.some.injEq] at h; subst h; rw [List.append_nil]; exact h0
    | cons e es ih =>
      intro pre s0 hp hpre h
      have h' := h
      simp only [Sys.run] at h
      split at h
      · cases h
      · rename_i s1 hs1
        rcases (sys_step hp.1.refs hs1).2 with hcr | hst
        · cases es with
          | nil => simp only [Sys.run, Option.some.injEq] at h; subst h; rw [hc] at hcr; cases hcr
          | cons e2 es2 =>
            simp only [Sys.run] at h
            split at h
            · cases h
            · rename_i s2 hs2
              have := sys_crashed_step hs2
              rw [hcr] at this; cases this
        · have hpre' : Sys.init.run cfg (pre ++ [e]) = some s1 := by
            rw [sysRun_append _ _ _ _ hpre]; simp only [Sys.run, hs1]
          have := ih (pre ++ [e]) s1 ⟨sinv_step hp.1 hst, addr_step hp.1 hp.2.1 hst, hstep _ _ _ _ hp.1 hp.2.1 hpre hp.2.2 hst hs1⟩ hpre' h
          simpa using this
  have := key es [] _ ⟨SInv.init cfg, Addr.init, h0⟩ rfl h
  simpa using this

/-- Induction over the runs of the server, with the events so far. -/
theorem trace_induction {cfg : Config} {P : List Sys.Ev → Sys → Prop} (h0 : P [] Sys.init)
    (hstep : ∀ es s e s', SInv cfg s → Addr s → Sys.init.run cfg es = some s → P es s → SysStep cfg s e s' → P (es ++ [e]) s') (es : List Sys.Ev) (s : Sys)
    (h : Sys.init.run cfg es = some s) (hc : s.crashed = false) : SInv cfg s ∧ Addr s ∧ P es s :=
  trace_induction_step h0 (fun es s e s' h1 h2 h3 h4 h5 _ => hstep es s e s' h1 h2 h3 h4 h5) es s h hc

/-- The state of a queue agrees with the specification. -/
def QueueOk (d : Bytes) (i : List Spec.QAsk) (o : List (SubRef × Tag)) (s : Sys) : Prop :=
  Spec.Queue i o ((s.store.list d).map (·.tag)) (s.queues.list d) ∧ (s.store.list d = [] ∨ s.queues.list d = [])

theorem theSub_look (s : Sys) (r : SubRef) : Spec.theSub s r = look s.conns r := rfl

theorem handOver_congr {d : Bytes} {s s' : Sys} {x : Delivery} (h : ∀ r, x = .queue r → look s'.conns r = look s.conns r) :
    Spec.handOver d s' x = Spec.handOver d s x := by
  cases x with
  | topic => rfl
  | queue r => unfold Spec.handOver; simp only [theSub_look]; rw [h r rfl]

theorem due_congr {d : Bytes} {s s' : Sys} (ht : s'.todo = s.todo) (h : ∀ r, .queue r ∈ s.todo → look s'.conns r = look s.conns r) :
    Spec.due d s' = Spec.due d s := by
  unfold Spec.due
  rw [ht]
  have : ∀ l : List Delivery, (∀ r, .queue r ∈ l → look s'.conns r = look s.conns r) → l.flatMap (Spec.handOver d s') = l.flatMap (Spec.handOver d s) := by
    intro l
    induction l with
    | nil => intro _; rfl
    | cons x l ih =>
      intro hl
      rw [List.flatMap_cons, List.flatMap_cons, ih (fun r hr => hl r (List.mem_cons_of_mem _ hr)),
        handOver_congr (fun r hr => hl r (by rw [hr]; exact List.mem_cons_self))]
  exact this _ h

theorem mem_todoSubs {l : List Delivery} {r : SubRef} (h : .queue r ∈ l) : 0 < (todoSubs l).count r :=
  List.count_pos_iff.2 (List.mem_filterMap.2 ⟨_, h, rfl⟩)

theorem look_at {s : Sys} {r : SubRef} {k : Conn} (hk : s.conns[r.conn]? = some k) (hl : r.idx < k.heap.length) : (Spec.theSub s r).map (·.dest) = some (deref k.heap r.idx).dest := by
  rw [theSub_look, look_of hk hl]; rfl

theorem due_nil {d : Bytes} {s : Sys} (h : s.todo = []) : Spec.due d s = [] := by unfold Spec.due; rw [h]; rfl

theorem queue_step {cfg : Config} {d : Bytes} (hd : isQueueDestination d = true) {s s' : Sys} {e : Sys.Ev} {i : List Spec.QAsk} {o : List (SubRef × Tag)}
    (hi : SInv cfg s) (ha : Addr s) (h : QueueOk d i (o ++ Spec.due d s) s) (hs : SysStep cfg s e s') :
    QueueOk d (i ++ Spec.asked d s e) (o ++ Spec.handed d s e ++ Spec.due d s') s' := by
  have same : ∀ {i' : List Spec.QAsk} {o' : List (SubRef × Tag)} {t : Sys}, i' = i → o' = o ++ Spec.due d s → t.store.list d = s.store.list d →
      t.queues.list d = s.queues.list d → QueueOk d i' o' t := by
    rintro i' o' t rfl rfl h1 h2
    unfold QueueOk
    rw [h1, h2]; exact h
  cases hs with
  | accept =>
    refine same (by simp [Spec.asked]) ?_ rfl rfl
    simp only [Spec.handed, List.append_nil]
    refine congrArg (o ++ ·) (due_congr (s := s) rfl ?_)
    intro r hr
    obtain ⟨x, hx, _⟩ := hi.full r (mem_todoSubs hr)
    rw [hx]
    obtain ⟨k, hk, hl, hdx⟩ := look_some hx
    have hlt := (List.getElem?_eq_some_iff.1 hk).1
    rw [← hdx]
    exact look_of (by rw [List.getElem?_append_left hlt]; exact hk) hl
  | conn c e k k' hk hin hst =>
    refine same (by simp [Spec.asked]) ?_ rfl rfl
    simp only [Spec.handed, List.append_nil]
    refine congrArg (o ++ ·) (due_congr (s := s) rfl ?_)
    intro r hr
    have h1 := mem_todoSubs hr
    obtain ⟨x, hx, _⟩ := hi.full r h1
    have h2 := hi.tok r
    rw [hx]
    exact look_evol hk (mics_conn hi hk hin hst).evol (by omega) hx
  | flush c k r q hk ho hc =>
    refine same (by simp [Spec.asked]) ?_ rfl rfl
    simp only [Spec.handed, List.append_nil]
    refine congrArg (o ++ ·) (due_congr (s := s) rfl ?_)
    intro r hr
    exact look_heap hk rfl
  | skip r rs ht hr hn =>
    refine same ?_ ?_ rfl rfl
    · unfold Spec.asked; dsimp only; rw [hr]
      rcases hn with ⟨c, rfl⟩ | ⟨c, rfl⟩ <;> simp
    · simp [Spec.handed, Spec.due, ht]
  | joinTopic r rs k dest ht hr hk hidx hdest hq =>
    refine same ?_ ?_ rfl rfl
    · unfold Spec.asked; dsimp only; rw [hr]; dsimp only
      rw [look_at hk hidx, if_neg]
      · simp
      · intro e; injection e with e; rw [hdest] at e; subst e; rw [hq] at hd; cases hd
    · simp [Spec.handed, Spec.due, ht]
  | wait r rs k dest ht hr hk hidx hdest hq he hl =>
    have hask : Spec.asked d s .proc = if dest = d then [.subscribe r] else [] := by
      unfold Spec.asked; dsimp only; rw [hr]; dsimp only
      rw [look_at hk hidx, hdest]; simp only [Option.some.injEq]
    rw [hask, due_nil (s := { s with reqCh := rs, conns := s.conns.set r.conn { k with heap := putInList k.heap r.idx true }, queues := s.queues.set dest (s.queues.list dest ++ [r]), qlog := s.qlog ++ [(dest, .wait r)] }) ht]
    by_cases hdd : dest = d
    · subst hdd
      rw [if_pos rfl]
      obtain ⟨h1, h2⟩ := h
      refine ⟨?_, Or.inl he⟩
      dsimp only
      rw [AMap.list_set, if_pos rfl]
      rw [he] at h1 ⊢
      rw [due_nil ht] at h1
      simp only [Spec.handed, List.append_nil, List.map_nil] at h1 ⊢
      exact h1.wait
    · rw [if_neg hdd]
      refine same (by simp) (by rw [due_nil ht]; simp [Spec.handed]) rfl ?_
      dsimp only; rw [AMap.list_set, if_neg hdd]
  | take r rs k dest m l ht hr hk hidx hdest hq hm hfr =>
    have hask : Spec.asked d s .proc = if dest = d then [.subscribe r] else [] := by
      unfold Spec.asked; dsimp only; rw [hr]; dsimp only
      rw [look_at hk hidx, hdest]; simp only [Option.some.injEq]
    have hdue : Spec.due d { s with reqCh := rs, store := s.store.set dest l, todo := [.queue r], qlog := s.qlog ++ [(dest, .take r m.tag)], conns := s.conns.set r.conn { k with heap := putFrame k.heap r.idx (some (m.addressed (deref k.heap r.idx).id)) } } =
        if dest = d then [(r, m.tag)] else [] := by
      unfold Spec.due
      simp only [List.flatMap_cons, List.flatMap_nil, List.append_nil]
      unfold Spec.handOver
      simp only [theSub_look]
      rw [look_sub (x := deref k.heap r.idx) (g := fun x => { x with frame := some (m.addressed (deref k.heap r.idx).id) }) hk rfl (look_of hk hidx), if_pos rfl]
      dsimp only
      rw [hdest]
      by_cases hdd : dest = d
      · rw [if_pos hdd, if_pos hdd]; rfl
      · rw [if_neg hdd, if_neg hdd]
    rw [hask, hdue]
    by_cases hdd : dest = d
    · subst hdd
      rw [if_pos rfl, if_pos rfl]
      obtain ⟨h1, h2⟩ := h
      have hqe : s.queues.list dest = [] := by rcases h2 with h2 | h2; rw [hm] at h2; cases h2; exact h2
      refine ⟨?_, Or.inr hqe⟩
      dsimp only
      rw [AMap.list_set, if_pos rfl]
      rw [hm, due_nil ht] at h1
      simp only [Spec.handed, List.append_nil, List.map_cons] at h1 ⊢
      exact h1.fetch
    · rw [if_neg hdd, if_neg hdd]
      refine same (by simp) (by rw [due_nil ht]; simp [Spec.handed]) ?_ rfl
      dsimp only; rw [AMap.list_set, if_neg hdd]
  | leaveQueue r rs k dest ht hr hk hidx hdest hq hm =>
    have hask : Spec.asked d s .proc = if dest = d then [.unsubscribe r] else [] := by
      unfold Spec.asked; dsimp only; rw [hr]; dsimp only
      rw [look_at hk hidx, hdest]; simp only [Option.some.injEq]
    rw [hask, due_nil (s := { s with reqCh := rs, conns := s.conns.set r.conn { k with heap := putInList k.heap r.idx false }, queues := s.queues.set dest ((s.queues.list dest).erase r), qlog := s.qlog ++ [(dest, .leave r)] }) ht]
    by_cases hdd : dest = d
    · subst hdd
      rw [if_pos rfl]
      obtain ⟨h1, h2⟩ := h
      refine ⟨?_, ?_⟩
      · dsimp only
        rw [AMap.list_set, if_pos rfl]
        rw [due_nil ht] at h1
        simp only [Spec.handed, List.append_nil] at h1 ⊢
        exact h1.leave
      · rcases h2 with h2 | h2
        · exact Or.inl h2
        · rw [h2] at hm; cases hm
    · rw [if_neg hdd]
      refine same (by simp) (by rw [due_nil ht]; simp [Spec.handed]) rfl ?_
      dsimp only; rw [AMap.list_set, if_neg hdd]
  | absent r rs k dest ht hr hk hidx hdest hq hm =>
    have hask : Spec.asked d s .proc = if dest = d then [.unsubscribe r] else [] := by
      unfold Spec.asked; dsimp only; rw [hr]; dsimp only
      rw [look_at hk hidx, hdest]; simp only [Option.some.injEq]
    rw [hask, due_nil (s := { s with reqCh := rs }) ht]
    by_cases hdd : dest = d
    · subst hdd
      rw [if_pos rfl]
      obtain ⟨h1, h2⟩ := h
      refine ⟨?_, h2⟩
      rw [due_nil ht] at h1
      simp only [Spec.handed, List.append_nil] at h1 ⊢
      have := h1.leave (r := r)
      rw [List.erase_of_not_mem hm] at this
      exact this
    · rw [if_neg hdd]
      exact same (by simp) (by rw [due_nil ht]; simp [Spec.handed]) rfl rfl
  | leaveTopic r rs k dest ht hr hk hidx hdest hq =>
    refine same ?_ ?_ rfl rfl
    · unfold Spec.asked; dsimp only; rw [hr]; dsimp only
      rw [look_at hk hidx, if_neg]
      · simp
      · intro e; injection e with e; rw [hdest] at e; subst e; rw [hq] at hd; cases hd
    · simp [Spec.handed, Spec.due, ht]
  | store front m rs dest ht hr hdest hq he =>
    rw [contains_eq] at hdest
    have hask : Spec.asked d s .proc = if dest = d then [.put front m.tag] else [] := by
      have : Spec.target m = some dest := hdest
      unfold Spec.asked; dsimp only; rw [hr]
      cases front <;> simp [putReq, this]
    rw [hask, due_nil (s := { s with reqCh := rs, qlog := s.qlog ++ [(dest, .put front m.tag)], store := s.store.set dest (if front then m :: s.store.list dest else s.store.list dest ++ [m]) }) ht]
    by_cases hdd : dest = d
    · subst hdd
      rw [if_pos rfl]
      obtain ⟨h1, h2⟩ := h
      refine ⟨?_, Or.inr he⟩
      dsimp only
      rw [AMap.list_set, if_pos rfl]
      rw [due_nil ht] at h1
      rw [he] at h1 ⊢
      simp only [Spec.handed, List.append_nil] at h1 ⊢
      cases front with
      | true => exact h1.requeue
      | false =>
        rw [if_neg (by simp), List.map_append]
        exact h1.enqueue
    · rw [if_neg hdd]
      refine same (by simp) (by rw [due_nil ht]; simp [Spec.handed]) ?_ rfl
      dsimp only; rw [AMap.list_set, if_neg hdd]
  | give front m rs dest r q k ht hr hdest hq he hk hidx hfr =>
    rw [contains_eq] at hdest
    have hask : Spec.asked d s .proc = if dest = d then [.put front m.tag] else [] := by
      have : Spec.target m = some dest := hdest
      unfold Spec.asked; dsimp only; rw [hr]
      cases front <;> simp [putReq, this]
    have hsd : (deref k.heap r.idx).dest = dest := by
      obtain ⟨x, hx, hxd⟩ := (ha.q dest r (by rw [he]; simp)).2
      rw [look_of hk hidx] at hx; injection hx with hx; rw [hx]; exact hxd
    have hdue : Spec.due d { s with reqCh := rs, qlog := s.qlog ++ [(dest, .put front m.tag), (dest, .take r m.tag)], todo := [.queue r], queues := s.queues.set dest q, conns := s.conns.set r.conn { k with heap := putFrame (putInList k.heap r.idx false) r.idx (some (m.addressed (deref k.heap r.idx).id)) } } =
        if dest = d then [(r, m.tag)] else [] := by
      unfold Spec.due
      simp only [List.flatMap_cons, List.flatMap_nil, List.append_nil]
      unfold Spec.handOver
      simp only [theSub_look]
      have hlook := look_of (k := { k with heap := putFrame (putInList k.heap r.idx false) r.idx (some (m.addressed (deref k.heap r.idx).id)) })
        (conns := s.conns.set r.conn { k with heap := putFrame (putInList k.heap r.idx false) r.idx (some (m.addressed (deref k.heap r.idx).id)) }) (r := r)
        (by rw [get_set hk, if_pos rfl]) (by dsimp only; rw [putFrame_length, putInList_length]; exact hidx)
      have hsub : deref (putFrame (putInList k.heap r.idx false) r.idx (some (m.addressed (deref k.heap r.idx).id))) r.idx =
          { deref (putInList k.heap r.idx false) r.idx with frame := some (m.addressed (deref k.heap r.idx).id) } := by
        rw [deref_putFrame]; exact if_pos ⟨rfl, by rw [putInList_length]; exact hidx⟩
      rw [hlook]
      dsimp only
      rw [hsub]
      have := congrArg Sub.dest (fixed_putInList k.heap r.idx r.idx false)
      have e2 : (deref (putInList k.heap r.idx false) r.idx).dest = (deref k.heap r.idx).dest := this
      dsimp only
      rw [e2, hsd]
      by_cases hdd : dest = d
      · rw [if_pos hdd, if_pos hdd]; rfl
      · rw [if_neg hdd, if_neg hdd]
    rw [hask, hdue]
    by_cases hdd : dest = d
    · subst hdd
      rw [if_pos rfl, if_pos rfl]
      obtain ⟨h1, h2⟩ := h
      have hse : s.store.list dest = [] := by rcases h2 with h2 | h2; exact h2; rw [he] at h2; cases h2
      refine ⟨?_, Or.inl hse⟩
      dsimp only
      rw [AMap.list_set, if_pos rfl]
      rw [he, due_nil ht] at h1
      simp only [Spec.handed, List.append_nil] at h1 ⊢
      exact h1.serve
    · rw [if_neg hdd, if_neg hdd]
      refine same (by simp) (by rw [due_nil ht]; simp [Spec.handed]) rfl ?_
      dsimp only; rw [AMap.list_set, if_neg hdd]
  | cast m rs dest ht hr hdest hq =>
    rw [contains_eq] at hdest
    refine same ?_ ?_ rfl rfl
    · have : Spec.target m = some dest := hdest
      unfold Spec.asked; dsimp only; rw [hr]; dsimp only
      rw [this, if_neg, List.append_nil]
      intro e; injection e with e; subst e; rw [hq] at hd; cases hd
    · rw [due_nil ht]
      simp only [Spec.handed, List.append_nil]
      unfold Spec.due
      have : ∀ l : List SubRef, ∀ t : Sys, (l.map (fun r => Delivery.topic dest r m)).flatMap (Spec.handOver d t) = [] := by
        intro l t
        induction l with
        | nil => rfl
        | cons x l ih => rw [List.map_cons, List.flatMap_cons, ih]; rfl
      rw [this, List.append_nil]
  | drop m rs dest ht hr hdest hq =>
    exfalso
    rw [contains_eq] at hdest
    obtain ⟨d', h1, h2⟩ := ha.req m (by rw [hr]; simp)
    rw [hdest] at h1; injection h1 with h1; subst h1
    rw [hq] at h2; cases h2
  | pushQueue r t k ht hk hc =>
    refine same (by simp [Spec.asked]) ?_ rfl rfl
    have e1 : Spec.due d s = Spec.handed d s .push ++ Spec.due d { s with todo := t } := by
      unfold Spec.due Spec.handed; dsimp only; rw [ht]; rfl
    have e2 : Spec.due d { s with conns := s.conns.set r.conn { k with subCh := k.subCh ++ [r.idx] }, todo := t } = Spec.due d { s with todo := t } :=
      due_congr rfl (fun x _ => look_heap hk rfl)
    rw [e1, e2, List.append_assoc]
  | pushTopic dest r m t k ht hk hfr hc =>
    refine same (by simp [Spec.asked]) ?_ rfl rfl
    have e1 : Spec.due d s = Spec.handed d s .push ++ Spec.due d { s with todo := t } := by
      unfold Spec.due Spec.handed; dsimp only; rw [ht]; rfl
    have e2 : Spec.due d { s with conns := s.conns.set r.conn { k with writeCh := k.writeCh ++ [m.addressed (deref k.heap r.idx).id] }, todo := t, tlog := s.tlog ++ [(dest, .give r (m.addressed (deref k.heap r.idx).id))] } = Spec.due d { s with todo := t } :=
      due_congr rfl (fun x _ => look_heap hk rfl)
    rw [e1, e2, List.append_assoc]

/-- Every queue of every reachable state agrees with the specification. -/
theorem queue_run {cfg : Config} {d : Bytes} (hd : isQueueDestination d = true) {es : List Sys.Ev} {s : Sys} (h : Sys.init.run cfg es = some s)
    (hc : s.crashed = false) :
    QueueOk d (Spec.observe (Spec.asked d) cfg Sys.init es) (Spec.observe (Spec.handed d) cfg Sys.init es ++ Spec.due d s) s := by
  refine (trace_induction (P := fun es s => QueueOk d (Spec.observe (Spec.asked d) cfg Sys.init es)
    (Spec.observe (Spec.handed d) cfg Sys.init es ++ Spec.due d s) s) ⟨Spec.Queue.start, Or.inl rfl⟩ ?_ es s h hc).2.2
  intro es s e s' hi ha hr hp hs
  rw [observe_snoc _ _ _ _ _ hr, observe_snoc _ _ _ _ _ hr]
  exact queue_step hd hi ha hp hs

end Stomp.Server
