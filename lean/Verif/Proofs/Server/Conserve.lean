import Verif.Proofs.Server.QueueSim
/-! # Every message sent is in exactly one place -/
namespace Stomp.Server
open Stomp

/-- The tag of the message a channel send hands over. -/
def todoTags (conns : List Conn) (l : List Delivery) : List Tag :=
  l.filterMap (fun | .queue r => (look conns r).bind (fun x => x.frame.map (·.tag)) | .topic _ _ _ => none)

/-- The tags of messages sent to topics. -/
def castTags (l : List (Bytes × TEv)) : List Tag := l.filterMap (fun e => match e.2 with | .cast t => some t | _ => none)

/-- How often a tag occurs at the connections. -/
def connSum (conns : List Conn) (t : Tag) : Nat := (conns.map (fun k => k.core.tags.count t)).sum

/-- How often a tag occurs in the storage. -/
def storeSum (st : Store) (t : Tag) : Nat := AMap.sum (fun l => (l.map (·.tag)).count t) st

/-- How often a tag occurs in the server. -/
def total (s : Sys) (t : Tag) : Nat :=
  (reqTags s.reqCh).count t + storeSum s.store t + (todoTags s.conns s.todo).count t + (castTags s.tlog).count t + s.dropped.count t + connSum s.conns t

/-- Whether a tag has been given out. -/
def made (conns : List Conn) (t : Tag) : Nat := match conns[t.src]? with | none => 0 | some k => if t.seq < k.sent then 1 else 0

theorem connSum_set {conns : List Conn} {c : Nat} {k k' : Conn} (hk : conns[c]? = some k) (t : Tag) :
    connSum (conns.set c k') t + k.core.tags.count t = connSum conns t + k'.core.tags.count t := by
  unfold connSum
  induction conns generalizing c with
  | nil => cases hk
  | cons x l ih =>
    cases c with
    | zero =>
      simp only [List.getElem?_cons_zero, Option.some.injEq] at hk
      subst hk
      simp only [List.set_cons_zero, List.map_cons, List.sum_cons]; omega
    | succ n =>
      simp only [List.getElem?_cons_succ] at hk
      have := ih hk
      simp only [List.set_cons_succ, List.map_cons, List.sum_cons]; omega

theorem made_set {conns : List Conn} {c : Nat} {k k' : Conn} (hk : conns[c]? = some k) (hs : k'.sent = k.sent) (t : Tag) :
    made (conns.set c k') t = made conns t := by
  unfold made
  rw [get_set hk]
  by_cases hc : c = t.src
  · subst hc; rw [if_pos rfl, hk]; dsimp only; rw [hs]
  · rw [if_neg hc]

theorem todoTags_congr {conns conns' : List Conn} {l : List Delivery}
    (h : ∀ r, .queue r ∈ l → (look conns' r).bind (fun x => x.frame.map (·.tag)) = (look conns r).bind (fun x => x.frame.map (·.tag))) :
    todoTags conns' l = todoTags conns l := by
  unfold todoTags
  induction l with
  | nil => rfl
  | cons x l ih =>
    have ih := ih (fun r hr => h r (List.mem_cons_of_mem _ hr))
    cases x with
    | topic => rw [List.filterMap_cons, List.filterMap_cons]; exact ih
    | queue r =>
      rw [List.filterMap_cons, List.filterMap_cons]; dsimp only
      rw [h r List.mem_cons_self, ih]

theorem todoTags_heap {conns : List Conn} {c : Nat} {k k' : Conn} (hk : conns[c]? = some k) (he : k'.heap = k.heap) (l : List Delivery) :
    todoTags (conns.set c k') l = todoTags conns l :=
  todoTags_congr (fun r _ => by rw [look_heap hk he])

theorem storeSum_set (st : Store) (d : Bytes) (l : List Msg) (t : Tag) :
    storeSum (st.set d l) t + ((st.list d).map (·.tag)).count t = storeSum st t + (l.map (·.tag)).count t :=
  AMap.sum_set (fun l : List Msg => (l.map (fun m : Msg => m.tag)).count t) rfl st d l

theorem tagCount_cons (x t : Tag) (l : List Tag) : (x :: l).count t = l.count t + (if x = t then 1 else 0) := by
  rw [List.count_cons]; by_cases h : x = t <;> simp [h]

theorem reqTags_put (f : Bool) (m : Msg) (l : List Req) : reqTags (putReq f m :: l) = m.tag :: reqTags l := by
  cases f <;> rfl

theorem reqTags_sub (r : SubRef) (l : List Req) : reqTags (.subscribe r :: l) = reqTags l := rfl
theorem reqTags_unsub (r : SubRef) (l : List Req) : reqTags (.unsubscribe r :: l) = reqTags l := rfl

theorem core_tags_eq {a b : Core} (h1 : b.pend = a.pend) (h2 : b.subCh = a.subCh) (h3 : b.subList = a.subList) (h4 : b.acked = a.acked)
    (h5 : b.autoDone = a.autoDone) (h6 : b.lost = a.lost)
    (h : ∀ i, i ∈ a.subCh ∨ i ∈ a.subList → (deref b.heap i).frame.map (·.tag) = (deref a.heap i).frame.map (·.tag)) : b.tags = a.tags := by
  unfold Core.tags
  rw [h1, h2, h3, h4, h5, h6, frameTags_congr (fun i hi => h i (Or.inl hi)), frameTags_congr (fun i hi => h i (Or.inr hi))]

/-- A subscription that waits is not in the hands of its connection. -/
theorem SInv.notHeld {cfg : Config} {s : Sys} (h : SInv cfg s) {r : SubRef} {k : Conn} (hk : s.conns[r.conn]? = some k)
    (hw : 0 < waiting s r) : ∀ i, i ∈ k.core.subCh ∨ i ∈ k.core.subList → r.idx ≠ i := by
  have h1 := h.tok r
  rw [held_of hk] at h1
  have hz : k.core.tok r.idx = 0 := by omega
  rintro i hi rfl
  unfold Core.tok at hz
  rcases hi with hi | hi
  · have := count_pos_iff.2 hi; omega
  · have := count_pos_iff.2 hi; omega

theorem waiting_req {s : Sys} {r : SubRef} {rs : List Req} (h : s.reqCh = .subscribe r :: rs) : 0 < waiting s r := by
  have : 0 < (reqSubs s.reqCh).count r := count_reqSubs_mem (by rw [h]; simp)
  unfold waiting; omega

theorem waiting_queue {s : Sys} {r : SubRef} {d : Bytes} (h : r ∈ s.queues.list d) : 0 < waiting s r := by
  have h1 : 0 < (s.queues.list d).count r := List.count_pos_iff.2 h
  have h2 := AMap.le_sum_list (List.count r) rfl s.queues d
  unfold waiting; omega

theorem todoTags_nil (conns : List Conn) : todoTags conns [] = [] := rfl

theorem total_step {cfg : Config} {s s' : Sys} {e : Sys.Ev} (hi : SInv cfg s) (h : ∀ t, total s t = made s.conns t) (hs : SysStep cfg s e s') (t : Tag) :
    total s' t = made s'.conns t := by
  have h0 := h t
  unfold total at h0 ⊢
  cases hs with
  | accept =>
    dsimp only
    have h1 : todoTags (s.conns ++ [Conn.init s.conns.length]) s.todo = todoTags s.conns s.todo := by
      refine todoTags_congr (fun r hr => ?_)
      obtain ⟨x, hx, _⟩ := hi.full r (mem_todoSubs hr)
      rw [hx]
      obtain ⟨k, hk, hl, hdx⟩ := look_some hx
      have hlt := (List.getElem?_eq_some_iff.1 hk).1
      rw [look_of (conns := s.conns ++ [Conn.init s.conns.length]) (k := k) (by rw [List.getElem?_append_left hlt]; exact hk) hl, hdx]
    have h2 : connSum (s.conns ++ [Conn.init s.conns.length]) t = connSum s.conns t := by
      unfold connSum; rw [List.map_append, List.sum_append]
      simp [Conn.init, Conn.core, Core.tags, reqTags, pending, Conn.frameTags]
    have h3 : made (s.conns ++ [Conn.init s.conns.length]) t = made s.conns t := by
      unfold made
      by_cases hlt : t.src < s.conns.length
      · rw [List.getElem?_append_left hlt]
      · rw [List.getElem?_append_right (by omega), List.getElem?_eq_none (l := s.conns) (by omega)]
        cases t.src - s.conns.length with
        | zero => simp [Conn.init]
        | succ n => simp
    rw [h1, h2, h3]; exact h0
  | conn c e k k' hk hin hst =>
    have hm := mics_conn hi hk hin hst
    have he := hm.evol
    dsimp only
    have h1 : todoTags (s.conns.set c k') s.todo = todoTags s.conns s.todo := by
      refine todoTags_congr (fun r hr => ?_)
      have h1 := mem_todoSubs hr
      obtain ⟨x, hx, _⟩ := hi.full r h1
      have h2 := hi.tok r
      rw [hx, look_evol hk he (by omega) hx]
    have h2 := connSum_set (k' := k') hk t
    have h3 := hm.tags (hi.loc c k hk) t
    have hme := run_me hi hk
    have hsent : k.core.sent ≤ k'.core.sent := he.sent
    have h4 : made (s.conns.set c k') t = made s.conns t + fresh k.core.me k.core.sent k'.core.sent t := by
      unfold made fresh
      rw [get_set hk, hme]
      have e1 : k.core.sent = k.sent := rfl
      have e2 : k'.core.sent = k'.sent := rfl
      rw [e1, e2] at hsent ⊢
      by_cases hc : c = t.src
      · rw [if_pos hc]
        rw [hc] at hk
        rw [hk]
        dsimp only
        by_cases ha : t.seq < k.sent
        · rw [if_pos ha, if_pos (by omega), if_neg (by omega)]
        · rw [if_neg ha]
          by_cases hb : t.seq < k'.sent
          · rw [if_pos hb, if_pos ⟨hc.symm, by omega, hb⟩]
          · rw [if_neg hb, if_neg (fun h => hb h.2.2)]
      · rw [if_neg hc, if_neg (fun h => hc h.1.symm)]; rfl
    rw [h1, h4]; omega
  | flush c k r o hk ho hc =>
    dsimp only
    rw [todoTags_heap (k' := { k with outbox := o }) hk rfl, made_set (k' := { k with outbox := o }) hk rfl, reqTags_append, List.count_append]
    have h1 := connSum_set (k' := { k with outbox := o }) hk t
    have h2 : k.core.tags.count t = (reqTags [r]).count t + (Conn.core { k with outbox := o }).tags.count t := by
      have hp : k.core.pend = r :: pending o := by show pending k.outbox = _; rw [ho]; rfl
      unfold Core.tags
      rw [hp]
      have : reqTags (r :: pending o) = reqTags [r] ++ reqTags (pending o) := reqTags_append [r] _
      rw [this]
      simp only [List.count_append]
      show _ = _ + (List.count t (reqTags (pending o)) + List.count t (Conn.frameTags k.core.heap k.core.subCh) +
        List.count t (Conn.frameTags k.core.heap k.core.subList) + List.count t k.core.acked + List.count t k.core.autoDone + List.count t k.core.lost)
      omega
    omega
  | skip r rs ht hr hn =>
    dsimp only
    have : reqTags s.reqCh = reqTags rs := by rw [hr]; rcases hn with ⟨c, rfl⟩ | ⟨c, rfl⟩ <;> rfl
    rw [← this]; exact h0
  | joinTopic r rs k dest ht hr hk hidx hd hq =>
    dsimp only
    rw [hr, reqTags_sub] at h0
    have : castTags (s.tlog ++ [(dest, .join r)]) = castTags s.tlog := by unfold castTags; rw [List.filterMap_append]; simp
    rw [this]; exact h0
  | wait r rs k dest ht hr hk hidx hd hq he hl =>
    dsimp only
    rw [hr, reqTags_sub, ht] at h0
    rw [made_set (k' := { k with heap := putInList k.heap r.idx true }) hk rfl, ht, todoTags_nil]
    rw [todoTags_nil] at h0
    have h1 := connSum_set (k' := { k with heap := putInList k.heap r.idx true }) hk t
    have h2 : (Conn.core { k with heap := putInList k.heap r.idx true }).tags = k.core.tags :=
      core_tags_eq rfl rfl rfl rfl rfl rfl (fun i _ => by show (deref (putInList k.heap _ _) _).frame.map _ = _; rw [frame_putInList]; rfl)
    rw [h2] at h1
    omega
  | take r rs k dest m l ht hr hk hidx hd hq hm hfr =>
    dsimp only
    have hno := hi.notHeld hk (waiting_req hr)
    rw [hr, reqTags_sub, ht] at h0
    rw [made_set (k' := { k with heap := putFrame k.heap r.idx (some (m.addressed (deref k.heap r.idx).id)) }) hk rfl]
    have h1 := connSum_set (k' := { k with heap := putFrame k.heap r.idx (some (m.addressed (deref k.heap r.idx).id)) }) hk t
    have h2 : (Conn.core { k with heap := putFrame k.heap r.idx (some (m.addressed (deref k.heap r.idx).id)) }).tags = k.core.tags :=
      core_tags_eq rfl rfl rfl rfl rfl rfl (fun i hi => by show (deref (putFrame k.heap _ _) _).frame.map _ = _; rw [deref_putFrame_ne _ _ (hno i hi)]; rfl)
    rw [h2] at h1
    have h3 : todoTags (s.conns.set r.conn { k with heap := putFrame k.heap r.idx (some (m.addressed (deref k.heap r.idx).id)) }) [.queue r] = [m.tag] := by
      unfold todoTags
      rw [List.filterMap_cons_some (b := m.tag)]
      · rfl
      · dsimp only
        rw [look_sub (x := deref k.heap r.idx) (g := fun x => { x with frame := some (m.addressed (deref k.heap r.idx).id) }) hk rfl (look_of hk hidx), if_pos rfl]
        rfl
    rw [h3, tagCount_cons]
    have h4 := storeSum_set s.store dest l t
    rw [hm, List.map_cons, tagCount_cons] at h4
    rw [todoTags_nil] at h0
    simp only [List.count_nil] at h0 ⊢
    omega
  | leaveQueue r rs k dest ht hr hk hidx hd hq hm =>
    dsimp only
    rw [hr, reqTags_unsub, ht] at h0
    rw [made_set (k' := { k with heap := putInList k.heap r.idx false }) hk rfl, ht, todoTags_nil]
    rw [todoTags_nil] at h0
    have h1 := connSum_set (k' := { k with heap := putInList k.heap r.idx false }) hk t
    have h2 : (Conn.core { k with heap := putInList k.heap r.idx false }).tags = k.core.tags :=
      core_tags_eq rfl rfl rfl rfl rfl rfl (fun i _ => by show (deref (putInList k.heap _ _) _).frame.map _ = _; rw [frame_putInList]; rfl)
    rw [h2] at h1
    omega
  | absent r rs k dest ht hr =>
    dsimp only
    rw [hr, reqTags_unsub] at h0
    exact h0
  | leaveTopic r rs k dest ht hr hk hidx hd hq =>
    dsimp only
    rw [hr, reqTags_unsub] at h0
    have : castTags (s.tlog ++ [(dest, .leave r)]) = castTags s.tlog := by unfold castTags; rw [List.filterMap_append]; simp
    rw [this]; exact h0
  | store front m rs dest ht hr hdd hq he =>
    dsimp only
    rw [hr, reqTags_put, tagCount_cons] at h0
    have h4 := storeSum_set s.store dest (if front then m :: s.store.list dest else s.store.list dest ++ [m]) t
    have h5 : ((if front then m :: s.store.list dest else s.store.list dest ++ [m]).map (·.tag)).count t =
        ((s.store.list dest).map (·.tag)).count t + (if m.tag = t then 1 else 0) := by
      cases front with
      | true => rw [if_pos rfl, List.map_cons, tagCount_cons]
      | false =>
        rw [if_neg (by simp), List.map_append, List.count_append, List.map_cons, tagCount_cons]
        simp
    rw [h5] at h4
    omega
  | give front m rs dest r q k ht hr hdd hq he hk hidx hfr =>
    dsimp only
    have hno := hi.notHeld hk (waiting_queue (d := dest) (by rw [he]; simp))
    rw [hr, reqTags_put, tagCount_cons, ht] at h0
    rw [made_set (k' := { k with heap := putFrame (putInList k.heap r.idx false) r.idx (some (m.addressed (deref k.heap r.idx).id)) }) hk rfl]
    have h1 := connSum_set (k' := { k with heap := putFrame (putInList k.heap r.idx false) r.idx (some (m.addressed (deref k.heap r.idx).id)) }) hk t
    have h2 : (Conn.core { k with heap := putFrame (putInList k.heap r.idx false) r.idx (some (m.addressed (deref k.heap r.idx).id)) }).tags = k.core.tags :=
      core_tags_eq rfl rfl rfl rfl rfl rfl (fun i hi => by
        show (deref (putFrame (putInList k.heap _ _) _ _) _).frame.map _ = _
        rw [deref_putFrame_ne _ _ (hno i hi), frame_putInList]; rfl)
    rw [h2] at h1
    have hlook := look_of (k := { k with heap := putFrame (putInList k.heap r.idx false) r.idx (some (m.addressed (deref k.heap r.idx).id)) })
        (conns := s.conns.set r.conn { k with heap := putFrame (putInList k.heap r.idx false) r.idx (some (m.addressed (deref k.heap r.idx).id)) }) (r := r)
        (by rw [get_set hk, if_pos rfl]) (by dsimp only; rw [putFrame_length, putInList_length]; exact hidx)
    have hsub : deref (putFrame (putInList k.heap r.idx false) r.idx (some (m.addressed (deref k.heap r.idx).id))) r.idx =
        { deref (putInList k.heap r.idx false) r.idx with frame := some (m.addressed (deref k.heap r.idx).id) } := by
      rw [deref_putFrame]; exact if_pos ⟨rfl, by rw [putInList_length]; exact hidx⟩
    have h3 : todoTags (s.conns.set r.conn { k with heap := putFrame (putInList k.heap r.idx false) r.idx (some (m.addressed (deref k.heap r.idx).id)) }) [.queue r] = [m.tag] := by
      unfold todoTags
      rw [List.filterMap_cons_some (b := m.tag)]
      · rfl
      · dsimp only
        rw [hlook]
        dsimp only
        rw [hsub]
        rfl
    rw [h3, tagCount_cons]
    rw [todoTags_nil] at h0
    simp only [List.count_nil] at h0 ⊢
    omega
  | cast m rs dest ht hr hdd hq =>
    dsimp only
    rw [hr, ht] at h0
    have h1 : reqTags (.enqueue m :: rs) = m.tag :: reqTags rs := rfl
    rw [h1, tagCount_cons, todoTags_nil] at h0
    have h2 : todoTags s.conns ((s.topics.list dest).map (fun r => Delivery.topic dest r m)) = [] := by
      unfold todoTags
      rw [List.filterMap_eq_nil_iff]
      intro x hx
      obtain ⟨y, _, rfl⟩ := List.mem_map.1 hx
      rfl
    have h3 : castTags (s.tlog ++ [(dest, .cast m.tag)]) = castTags s.tlog ++ [m.tag] := by unfold castTags; rw [List.filterMap_append]; rfl
    rw [h2, h3, List.count_append, tagCount_cons]
    simp only [List.count_nil] at h0 ⊢
    omega
  | drop m rs dest ht hr hdd hq =>
    dsimp only
    rw [hr] at h0
    have h1 : reqTags (.requeue (some m) :: rs) = m.tag :: reqTags rs := rfl
    rw [h1, tagCount_cons] at h0
    rw [List.count_append, tagCount_cons]
    simp only [List.count_nil]
    omega
  | pushQueue r l k ht hk hc =>
    dsimp only
    obtain ⟨x, hx, hf⟩ := hi.full r (by rw [ht]; exact mem_todoSubs List.mem_cons_self)
    obtain ⟨m, hm⟩ := Option.isSome_iff_exists.1 hf
    obtain ⟨k0, hk0, hlt, hdx⟩ := look_some hx
    rw [hk] at hk0; injection hk0 with hk0; subst hk0
    rw [made_set (k' := { k with subCh := k.subCh ++ [r.idx] }) hk rfl, todoTags_heap (k' := { k with subCh := k.subCh ++ [r.idx] }) hk rfl]
    have h1 := connSum_set (k' := { k with subCh := k.subCh ++ [r.idx] }) hk t
    have h2 : (Conn.core { k with subCh := k.subCh ++ [r.idx] }).tags.count t = k.core.tags.count t + (if m.tag = t then 1 else 0) := by
      have e : Conn.frameTags k.heap (k.subCh ++ [r.idx]) = Conn.frameTags k.heap k.subCh ++ [m.tag] := by
        rw [frameTags_append, frameTags_cons (m := m) (by rw [hdx]; exact hm)]; rfl
      unfold Core.tags
      show List.count t (reqTags k.core.pend ++ Conn.frameTags k.heap (k.subCh ++ [r.idx]) ++ Conn.frameTags k.core.heap k.core.subList ++ k.core.acked ++ k.core.autoDone ++ k.core.lost) =
        List.count t (reqTags k.core.pend ++ Conn.frameTags k.heap k.subCh ++ Conn.frameTags k.core.heap k.core.subList ++ k.core.acked ++ k.core.autoDone ++ k.core.lost) + _
      rw [e]
      simp only [List.count_append, tagCount_cons, List.count_nil]
      omega
    have h3 : todoTags s.conns s.todo = m.tag :: todoTags s.conns l := by
      rw [ht]
      unfold todoTags
      rw [List.filterMap_cons_some (b := m.tag)]
      dsimp only
      rw [hx, Option.bind_some, hm]; rfl
    rw [h3, tagCount_cons] at h0
    omega
  | pushTopic dest r m l k ht hk hfr hc =>
    dsimp only
    rw [made_set (k' := { k with writeCh := k.writeCh ++ [m.addressed (deref k.heap r.idx).id] }) hk rfl, todoTags_heap (k' := { k with writeCh := k.writeCh ++ [m.addressed (deref k.heap r.idx).id] }) hk rfl]
    have h1 := connSum_set (k' := { k with writeCh := k.writeCh ++ [m.addressed (deref k.heap r.idx).id] }) hk t
    have h2 : (Conn.core { k with writeCh := k.writeCh ++ [m.addressed (deref k.heap r.idx).id] }).tags = k.core.tags :=
      core_tags_eq rfl rfl rfl rfl rfl rfl (fun _ _ => rfl)
    rw [h2] at h1
    have h3 : todoTags s.conns s.todo = todoTags s.conns l := by rw [ht]; rfl
    have h4 : castTags (s.tlog ++ [(dest, .give r (m.addressed (deref k.heap r.idx).id))]) = castTags s.tlog := by
      unfold castTags; rw [List.filterMap_append]; simp
    rw [h3] at h0
    rw [h4]
    omega

theorem total_run {cfg : Config} {es : List Sys.Ev} {s : Sys} (h : Sys.init.run cfg es = some s) (hc : s.crashed = false) (t : Tag) :
    total s t = made s.conns t :=
  (sys_induction (P := fun s => ∀ t, total s t = made s.conns t) (fun t => by simp [total, made, Sys.init, reqTags, storeSum, AMap.sum, todoTags, castTags, connSum])
    (fun _ _ _ hi hp hs => total_step hi hp hs) es s h hc).2 t

end Stomp.Server
