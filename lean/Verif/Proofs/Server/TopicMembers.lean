import Verif.Proofs.Server.SubReqs
import Verif.Proofs.Server.TopicSim
/-! # A topic has at most one subscription of a connection under one id -/
namespace Stomp.Server
open Stomp

/-! ## Joining and leaving -/

/-- The members after some have joined (`true`) and left (`false`). -/
def after (M : List Nat) (ops : List (Bool × Nat)) : List Nat :=
  ops.foldl (fun M o => if o.1 then M ++ [o.2] else M.filter (fun j => decide (j ≠ o.2))) M

theorem after_append (M : List Nat) (a b : List (Bool × Nat)) : after M (a ++ b) = after (after M a) b := by
  unfold after; rw [List.foldl_append]

theorem mem_after {M : List Nat} {ops : List (Bool × Nat)} {i : Nat} (h : i ∈ after M ops) : i ∈ M ∨ (true, i) ∈ ops := by
  induction ops generalizing M with
  | nil => exact Or.inl h
  | cons o ops ih =>
    have h1 : i ∈ after (if o.1 then M ++ [o.2] else M.filter (fun j => decide (j ≠ o.2))) ops := h
    rcases ih h1 with h2 | h2
    · obtain ⟨b, j⟩ := o
      cases b with
      | true =>
        rw [if_pos rfl, List.mem_append, List.mem_singleton] at h2
        rcases h2 with h2 | h2
        · exact Or.inl h2
        · dsimp only at h2; subst h2; exact Or.inr List.mem_cons_self
      | false =>
        rw [if_neg (by simp), List.mem_filter] at h2
        exact Or.inl h2.1
    · exact Or.inr (List.mem_cons_of_mem _ h2)

/-- Members that only leave. -/
theorem mem_leave {M : List Nat} {l : List Nat} {i : Nat} : i ∈ after M (l.map (fun j => (false, j))) ↔ i ∈ M ∧ i ∉ l := by
  induction l generalizing M with
  | nil => simp [after]
  | cons j l ih =>
    have e : after M ((j :: l).map (fun j => (false, j))) = after (M.filter (fun x => decide (x ≠ j))) (l.map (fun j => (false, j))) := rfl
    rw [e, ih, List.mem_filter, List.mem_cons]
    simp only [decide_eq_true_eq]
    constructor
    · rintro ⟨⟨h1, h2⟩, h3⟩
      exact ⟨h1, fun h => h.elim h2 h3⟩
    · rintro ⟨h1, h2⟩
      exact ⟨⟨h1, fun h => h2 (Or.inl h)⟩, fun h => h2 (Or.inr h)⟩

/-- At no time two members have the same id, and in the end the members are those of the map. -/
structure Chain (idOf : Nat → Bytes) (subs : AMap Nat) (M : List Nat) (ops : List (Bool × Nat)) : Prop where
  inj : ∀ p, p <+: ops → ∀ i ∈ after M p, ∀ j ∈ after M p, idOf i = idOf j → i = j
  live : ∀ i ∈ after M ops, subs.get? (idOf i) = some i

theorem Chain.congr {f g : Nat → Bytes} {subs : AMap Nat} {M : List Nat} {ops : List (Bool × Nat)} (h : Chain f subs M ops)
    (e : ∀ i, i ∈ M ∨ (true, i) ∈ ops → g i = f i) : Chain g subs M ops := by
  have k : ∀ p, p <+: ops → ∀ i ∈ after M p, g i = f i := by
    intro p hp i hi
    rcases mem_after hi with h1 | h1
    · exact e i (Or.inl h1)
    · exact e i (Or.inr (hp.subset h1))
  refine ⟨fun p hp i hi j hj hij => h.inj p hp i hi j hj ?_, fun i hi => ?_⟩
  · rw [← k p hp i hi, ← k p hp j hj]; exact hij
  · rw [k ops (List.prefix_refl _) i hi]; exact h.live i hi

theorem Chain.tail {f : Nat → Bytes} {subs : AMap Nat} {M : List Nat} {o : Bool × Nat} {ops : List (Bool × Nat)} (h : Chain f subs M (o :: ops)) :
    Chain f subs (after M [o]) ops := by
  refine ⟨fun p hp => ?_, h.live⟩
  have : o :: p <+: o :: ops := by obtain ⟨t, ht⟩ := hp; exact ⟨t, by rw [List.cons_append, ht]⟩
  exact h.inj (o :: p) this

theorem prefix_snoc {α : Type} {p l : List α} {x : α} (h : p <+: l ++ [x]) : p <+: l ∨ p = l ++ [x] := by
  obtain ⟨t, ht⟩ := h
  rcases List.eq_nil_or_concat t with rfl | ⟨t', y, rfl⟩
  · right; rw [← ht, List.append_nil]
  · left
    rw [List.concat_eq_append, ← List.append_assoc] at ht
    have := List.append_inj_left' ht rfl
    exact ⟨t', this⟩

theorem prefix_or {α : Type} {p a b : List α} (h : p <+: a ++ b) : p <+: a ∨ ∃ q, q <+: b ∧ p = a ++ q := by
  obtain ⟨t, ht⟩ := h
  rcases List.append_eq_append_iff.1 ht with ⟨x, h1, h2⟩ | ⟨x, h1, h2⟩
  · exact Or.inl ⟨x, h1.symm⟩
  · exact Or.inr ⟨x, ⟨t, h2.symm⟩, h1⟩

theorem Chain.join {f : Nat → Bytes} {subs : AMap Nat} {M : List Nat} {ops : List (Bool × Nat)} (h : Chain f subs M ops) {id : Bytes} {i : Nat}
    (hn : subs.get? id = none) (hi : f i = id) : Chain f (subs.set id i) M (ops ++ [(true, i)]) := by
  have ne : ∀ x ∈ after M ops, f x ≠ id := by
    intro x hx e
    have := h.live x hx
    rw [e, hn] at this; cases this
  have e : after M (ops ++ [(true, i)]) = after M ops ++ [i] := by rw [after_append]; rfl
  refine ⟨fun p hp => ?_, fun x hx => ?_⟩
  · rcases prefix_snoc hp with hp | rfl
    · exact h.inj p hp
    · rw [e]
      intro a ha b hb hab
      rw [List.mem_append, List.mem_singleton] at ha hb
      rcases ha with ha | ha
      · rcases hb with hb | hb
        · exact h.inj ops (List.prefix_refl _) a ha b hb hab
        · subst hb; exact absurd (hab.trans hi) (ne a ha)
      · rcases hb with hb | hb
        · subst ha; exact absurd (hab.symm.trans hi) (ne b hb)
        · rw [ha, hb]
  · rw [e, List.mem_append, List.mem_singleton] at hx
    rw [AMap.get?_set]
    rcases hx with hx | hx
    · rw [if_neg (fun e => ne x hx e.symm)]; exact h.live x hx
    · subst hx; rw [if_pos hi.symm]

theorem Chain.joinOther {f : Nat → Bytes} {subs : AMap Nat} {M : List Nat} {ops : List (Bool × Nat)} (h : Chain f subs M ops) {id : Bytes} {i : Nat}
    (hn : subs.get? id = none) : Chain f (subs.set id i) M ops := by
  refine ⟨h.inj, fun x hx => ?_⟩
  have hl := h.live x hx
  rw [AMap.get?_set, if_neg]
  · exact hl
  · rintro rfl; rw [hn] at hl; cases hl

/-- Members that leave all together, with everything of the map that goes. -/
theorem Chain.leave {f : Nat → Bytes} {subs subs' : AMap Nat} {M : List Nat} {ops : List (Bool × Nat)} (h : Chain f subs M ops) (l : List Nat)
    (hs : ∀ i ∈ after M ops, subs.get? (f i) = some i → i ∉ l → subs'.get? (f i) = some i) :
    Chain f subs' M (ops ++ l.map (fun j => (false, j))) := by
  refine ⟨fun p hp => ?_, fun x hx => ?_⟩
  · rcases prefix_or hp with hp | ⟨q, hq, rfl⟩
    · exact h.inj p hp
    · obtain ⟨l1, rfl⟩ : ∃ l1 : List Nat, q = l1.map (fun j => (false, j)) := by
        obtain ⟨t, ht⟩ := hq
        obtain ⟨a, b, _, ha, _⟩ := List.map_eq_append_iff.1 ht.symm
        exact ⟨a, ha.symm⟩
      intro a ha b hb hab
      rw [after_append, mem_leave] at ha hb
      exact h.inj ops (List.prefix_refl _) a ha.1 b hb.1 hab
  · rw [after_append, mem_leave] at hx
    exact hs x hx.1 (h.live x hx.1) hx.2

/-! ## In the server -/

/-- What a request does to the subscriptions of connection `c` to the topic `d`. -/
def opOf (heap : List Sub) (d : Bytes) (c : Nat) : Req → Option (Bool × Nat)
  | .subscribe r => if r.conn = c ∧ (deref heap r.idx).dest = d then some (true, r.idx) else none
  | .unsubscribe r => if r.conn = c ∧ (deref heap r.idx).dest = d then some (false, r.idx) else none
  | _ => none

/-- What requests do to the subscriptions of connection `c` to the topic `d`. -/
def opsOf (heap : List Sub) (d : Bytes) (c : Nat) (l : List Req) : List (Bool × Nat) := l.filterMap (opOf heap d c)

theorem opsOf_append (heap : List Sub) (d : Bytes) (c : Nat) (a b : List Req) : opsOf heap d c (a ++ b) = opsOf heap d c a ++ opsOf heap d c b :=
  List.filterMap_append ..

theorem opsOf_cons (heap : List Sub) (d : Bytes) (c : Nat) (x : Req) (l : List Req) :
    opsOf heap d c (x :: l) = (opOf heap d c x).toList ++ opsOf heap d c l := by
  unfold opsOf
  rw [List.filterMap_cons]
  cases opOf heap d c x <;> rfl

theorem opsOf_congr {heap heap' : List Sub} {d : Bytes} {c : Nat} {l : List Req}
    (h : ∀ r, .subscribe r ∈ l ∨ .unsubscribe r ∈ l → r.conn = c → (deref heap' r.idx).dest = (deref heap r.idx).dest) :
    opsOf heap' d c l = opsOf heap d c l := by
  unfold opsOf
  induction l with
  | nil => rfl
  | cons x l ih =>
    rw [List.filterMap_cons, List.filterMap_cons, ih (fun r hr => h r (hr.imp (List.mem_cons_of_mem _) (List.mem_cons_of_mem _)))]
    have : opOf heap' d c x = opOf heap d c x := by
      cases x with
      | subscribe r =>
        unfold opOf
        dsimp only
        by_cases hc : r.conn = c
        · rw [h r (Or.inl List.mem_cons_self) hc]
        · rw [if_neg (fun e => hc e.1), if_neg (fun e => hc e.1)]
      | unsubscribe r =>
        unfold opOf
        dsimp only
        by_cases hc : r.conn = c
        · rw [h r (Or.inr List.mem_cons_self) hc]
        · rw [if_neg (fun e => hc e.1), if_neg (fun e => hc e.1)]
      | _ => rfl
    rw [this]

theorem opsOf_nil {heap : List Sub} {d : Bytes} {c : Nat} {l : List Req}
    (h : ∀ r, .subscribe r ∈ l ∨ .unsubscribe r ∈ l → r.conn = c → (deref heap r.idx).dest ≠ d) : opsOf heap d c l = [] := by
  unfold opsOf
  rw [List.filterMap_eq_nil_iff]
  intro x hx
  cases x with
  | subscribe r => exact if_neg (fun e => h r (Or.inl hx) e.1 e.2)
  | unsubscribe r => exact if_neg (fun e => h r (Or.inr hx) e.1 e.2)
  | _ => rfl

theorem mem_opsOf {heap : List Sub} {d : Bytes} {c : Nat} {l : List Req} {i : Nat} (h : (true, i) ∈ opsOf heap d c l) :
    .subscribe ⟨c, i⟩ ∈ l ∧ (deref heap i).dest = d := by
  obtain ⟨x, hx, he⟩ := List.mem_filterMap.1 h
  cases x with
  | subscribe r =>
    unfold opOf at he
    dsimp only at he
    split at he
    · rename_i hr
      injection he with he; injection he with _ he; subst he
      obtain ⟨rc, ri⟩ := r
      obtain ⟨h1, h2⟩ := hr
      dsimp only at h1; subst h1
      exact ⟨hx, h2⟩
    · cases he
  | unsubscribe r =>
    unfold opOf at he
    dsimp only at he
    split at he
    · injection he with he; injection he with he _; cases he
    · cases he
  | _ => cases he

/-- The subscriptions of connection `c` among some. -/
def memsOf (l : List SubRef) (c : Nat) : List Nat := l.filterMap (fun r => if r.conn = c then some r.idx else none)

theorem mem_memsOf {l : List SubRef} {c i : Nat} : i ∈ memsOf l c ↔ ⟨c, i⟩ ∈ l := by
  unfold memsOf
  rw [List.mem_filterMap]
  constructor
  · rintro ⟨⟨rc, ri⟩, h1, h2⟩
    dsimp only at h2
    split at h2
    · rename_i hc; injection h2 with h2; subst hc h2; exact h1
    · cases h2
  · intro h
    exact ⟨_, h, by simp⟩

theorem memsOf_snoc (l : List SubRef) (r : SubRef) (c : Nat) : memsOf (l ++ [r]) c = memsOf l c ++ (if r.conn = c then [r.idx] else []) := by
  unfold memsOf
  rw [List.filterMap_append]
  by_cases h : r.conn = c <;> simp [h]

theorem memsOf_erase {l : List SubRef} (hn : l.Nodup) (r : SubRef) (c : Nat) :
    memsOf (l.erase r) c = if r.conn = c then (memsOf l c).filter (fun j => decide (j ≠ r.idx)) else memsOf l c := by
  rw [hn.erase_eq_filter]
  unfold memsOf
  clear hn
  induction l with
  | nil => simp
  | cons x l ih =>
    obtain ⟨xc, xi⟩ := x
    obtain ⟨rc, ri⟩ := r
    dsimp only at ih ⊢
    by_cases hr : rc = c
    · subst hr
      rw [if_pos rfl] at ih ⊢
      by_cases hx : xc = rc
      · subst hx
        by_cases hxi : xi = ri
        · subst hxi
          rw [List.filter_cons_of_neg (by simp), ih, List.filterMap_cons, if_pos rfl]
          dsimp only
          rw [List.filter_cons_of_neg (by simp)]
        · rw [List.filter_cons_of_pos (by simp [hxi]), List.filterMap_cons, List.filterMap_cons, if_pos rfl]
          dsimp only
          rw [List.filter_cons_of_pos (by simp [hxi]), ih]
      · rw [List.filter_cons_of_pos (by simp [hx]), List.filterMap_cons, List.filterMap_cons, if_neg hx]
        exact ih
    · rw [if_neg hr] at ih ⊢
      by_cases hx : xc = c
      · rw [List.filter_cons_of_pos (by simp only [bne_iff_ne, ne_eq, SubRef.mk.injEq, not_and]; intro e; exact absurd (e.symm.trans hx) hr),
          List.filterMap_cons, List.filterMap_cons, if_pos hx]
        dsimp only
        rw [ih]
      · rw [List.filterMap_cons, if_neg hx]
        rw [List.filter_cons]
        split
        · rw [List.filterMap_cons, if_neg hx]; exact ih
        · exact ih

/-- The subscriptions to the topic `d` are those of the maps of the connections, up to the requests on their way. -/
def ChainOk (d : Bytes) (s : Sys) : Prop := ∀ (c : Nat) (k : Conn), s.conns[c]? = some k →
  Chain (fun i => (deref k.heap i).id) k.subs (memsOf (s.topics.list d) c) (opsOf k.heap d c (s.reqCh ++ pending k.outbox))

theorem fixed_id {a b : Sub} (h : a.fixed = b.fixed) : a.id = b.id ∧ a.dest = b.dest := by
  have h1 := congrArg Sub.id h
  have h2 := congrArg Sub.dest h
  exact ⟨h1, h2⟩

/-- What the processor does leaves the maps and the pending requests alone. -/
theorem proc_keep {cfg : Config} {s s' : Sys} {e : Sys.Ev} (hs : SysStep cfg s e s') (he : e = .proc ∨ e = .push) {c : Nat} {k' : Conn}
    (hk' : s'.conns[c]? = some k') :
    ∃ k, s.conns[c]? = some k ∧ k'.subs = k.subs ∧ k'.outbox = k.outbox ∧ k'.effective = k.effective ∧ k'.heap.length = k.heap.length ∧ ∀ i, (deref k'.heap i).fixed = (deref k.heap i).fixed := by
  have one : ∀ {j : Nat} {k1 k2 : Conn}, s.conns[j]? = some k1 → s'.conns = s.conns.set j k2 → k2.subs = k1.subs → k2.outbox = k1.outbox → k2.effective = k1.effective →
      k2.heap.length = k1.heap.length → (∀ i, (deref k2.heap i).fixed = (deref k1.heap i).fixed) →
      ∃ k, s.conns[c]? = some k ∧ k'.subs = k.subs ∧ k'.outbox = k.outbox ∧ k'.effective = k.effective ∧ k'.heap.length = k.heap.length ∧ ∀ i, (deref k'.heap i).fixed = (deref k.heap i).fixed := by
    intro j k1 k2 h1 h2 h3 h4 h45 h5 h6
    rw [h2, get_set h1] at hk'
    split at hk'
    · rename_i hj; injection hk' with hk'; subst hk' hj
      exact ⟨k1, h1, h3, h4, h45, h5, h6⟩
    · exact ⟨k', hk', rfl, rfl, rfl, rfl, fun _ => rfl⟩
  have same : s'.conns = s.conns →
      ∃ k, s.conns[c]? = some k ∧ k'.subs = k.subs ∧ k'.outbox = k.outbox ∧ k'.effective = k.effective ∧ k'.heap.length = k.heap.length ∧ ∀ i, (deref k'.heap i).fixed = (deref k.heap i).fixed := by
    intro h; rw [h] at hk'; exact ⟨k', hk', rfl, rfl, rfl, rfl, fun _ => rfl⟩
  cases hs with
  | accept => rcases he with he | he <;> cases he
  | conn => rcases he with he | he <;> cases he
  | flush => rcases he with he | he <;> cases he
  | skip => exact same rfl
  | joinTopic => exact same rfl
  | wait r rs k dest ht hr hk => exact one hk rfl rfl rfl rfl (putInList_length _ _ _) (fun _ => fixed_putInList _ _ _ _)
  | take r rs k dest m l ht hr hk => exact one hk rfl rfl rfl rfl (putFrame_length _ _ _) (fun _ => fixed_putFrame _ _ _ _)
  | leaveQueue r rs k dest ht hr hk => exact one hk rfl rfl rfl rfl (putInList_length _ _ _) (fun _ => fixed_putInList _ _ _ _)
  | absent => exact same rfl
  | leaveTopic => exact same rfl
  | store => exact same rfl
  | give front m rs dest r q k ht hr hdd hq he hk hx hf =>
    exact one hk rfl rfl rfl rfl ((putFrame_length _ _ _).trans (putInList_length _ _ _)) (fun _ => (fixed_putFrame _ _ _ _).trans (fixed_putInList _ _ _ _))
  | cast => exact same rfl
  | drop => exact same rfl
  | pushQueue r t k ht hk => exact one hk rfl rfl rfl rfl rfl (fun _ => rfl)
  | pushTopic dest r m t k ht hk => exact one hk rfl rfl rfl rfl rfl (fun _ => rfl)

/-- The subscriptions to a topic are different. -/
theorem topic_nodup {cfg : Config} {s : Sys} (hi : SInv cfg s) (d : Bytes) : (s.topics.list d).Nodup := by
  rw [List.nodup_iff_count]
  intro r
  have h1 := hi.tok r
  have h2 := AMap.le_sum_list (List.count r) rfl s.topics d
  unfold waiting at h1
  omega

/-- The subscriptions connection `c` mentions in its requests exist. -/
theorem req_valid {cfg : Config} {s : Sys} (hi : SInv cfg s) {c : Nat} {k : Conn} (hk : s.conns[c]? = some k) {r : SubRef}
    (h : .subscribe r ∈ s.reqCh ++ pending k.outbox ∨ .unsubscribe r ∈ s.reqCh ++ pending k.outbox) (hc : r.conn = c) : r.idx < k.heap.length := by
  have key : s.valid r → r.idx < k.heap.length := by
    rintro ⟨k0, h1, h2⟩
    rw [hc, hk] at h1; injection h1 with h1; subst h1; exact h2
  have pnd : .subscribe r ∈ pending k.outbox ∨ .unsubscribe r ∈ pending k.outbox → r.idx < k.heap.length :=
    fun h => ((hi.loc c k hk).refs r h).2
  rcases h with h | h
  · rcases List.mem_append.1 h with h | h
    · exact key (hi.refs.1 r h)
    · exact pnd (Or.inl h)
  · rcases List.mem_append.1 h with h | h
    · exact key (hi.refs.2 r h)
    · exact pnd (Or.inr h)

theorem chain_step {cfg : Config} {d : Bytes} (hd : isQueueDestination d = false) {s s' : Sys} {e : Sys.Ev} (hi : SInv cfg s) (ha : Addr s) (h : ChainOk d s)
    (hs : SysStep cfg s e s') : ChainOk d s' := by
  have memLt : ∀ {c : Nat} {k : Conn} {i : Nat}, s.conns[c]? = some k → i ∈ memsOf (s.topics.list d) c → i < k.heap.length ∧ (deref k.heap i).dest = d := by
    intro c k i hk hm
    obtain ⟨_, x, hx, hxd⟩ := ha.t d _ (mem_memsOf.1 hm)
    obtain ⟨k0, h1, h2, h3⟩ := look_some hx
    dsimp only at h1
    rw [hk] at h1; injection h1 with h1; subst h1
    exact ⟨h2, by rw [h3]; exact hxd⟩
  have memDest : ∀ {c : Nat} {k : Conn} {i : Nat}, s.conns[c]? = some k → i ∈ after (memsOf (s.topics.list d) c) (opsOf k.heap d c (s.reqCh ++ pending k.outbox)) →
      (deref k.heap i).dest = d := by
    intro c k i hk hm
    rcases mem_after hm with hm | hm
    · exact (memLt hk hm).2
    · exact (mem_opsOf hm).2
  -- the processor takes a request
  have proc : ∀ {r0 : Req} {rs : List Req}, s.reqCh = r0 :: rs → s'.reqCh = rs → (e = .proc ∨ e = .push) →
      (∀ (c : Nat) (k : Conn), s.conns[c]? = some k → memsOf (s'.topics.list d) c = after (memsOf (s.topics.list d) c) (opOf k.heap d c r0).toList) → ChainOk d s' := by
    intro r0 rs hr hr' he hM c k' hk'
    obtain ⟨k, hk, h1, h2, _, h3, h4⟩ := proc_keep hs he hk'
    have hc := h c k hk
    have e1 : opsOf k'.heap d c (s'.reqCh ++ pending k'.outbox) = opsOf k.heap d c (rs ++ pending k.outbox) := by
      rw [hr', h2]
      exact opsOf_congr (fun r _ _ => (fixed_id (h4 r.idx)).2)
    have e2 : opsOf k.heap d c (s.reqCh ++ pending k.outbox) = (opOf k.heap d c r0).toList ++ opsOf k.heap d c (rs ++ pending k.outbox) := by
      rw [hr, List.cons_append, opsOf_cons]
    rw [e1, h1, hM c k hk]
    rw [e2] at hc
    have hc2 : Chain (fun i => (deref k.heap i).id) k.subs (after (memsOf (s.topics.list d) c) (opOf k.heap d c r0).toList) (opsOf k.heap d c (rs ++ pending k.outbox)) := by
      cases ho : opOf k.heap d c r0 with
      | none => rw [ho] at hc; exact hc
      | some o => rw [ho] at hc; exact hc.tail
    exact hc2.congr (fun i _ => (fixed_id (h4 i)).1)
  have quiet : ∀ {r0 : Req} {rs : List Req}, s.reqCh = r0 :: rs → s'.reqCh = rs → (e = .proc ∨ e = .push) → s'.topics.list d = s.topics.list d →
      (∀ (c : Nat) (k : Conn), s.conns[c]? = some k → opOf k.heap d c r0 = none) → ChainOk d s' := by
    intro r0 rs hr hr' he ht hn
    refine proc hr hr' he (fun c k hk => ?_)
    rw [ht, hn c k hk]; rfl
  have push : s'.reqCh = s.reqCh → (e = .proc ∨ e = .push) → s'.topics.list d = s.topics.list d → ChainOk d s' := by
    intro hr he ht c k' hk'
    obtain ⟨k, hk, h1, h2, _, h3, h4⟩ := proc_keep hs he hk'
    have e1 : opsOf k'.heap d c (s'.reqCh ++ pending k'.outbox) = opsOf k.heap d c (s.reqCh ++ pending k.outbox) := by
      rw [hr, h2]
      exact opsOf_congr (fun r _ _ => (fixed_id (h4 r.idx)).2)
    rw [e1, h1, ht]
    exact (h c k hk).congr (fun i _ => (fixed_id (h4 i)).1)
  -- a request about a subscription to another destination
  have other : ∀ {r : SubRef} {k0 : Conn} {dest : Bytes}, s.conns[r.conn]? = some k0 → (deref k0.heap r.idx).dest = dest → dest ≠ d →
      ∀ (c : Nat) (k : Conn), s.conns[c]? = some k → ¬ (r.conn = c ∧ (deref k.heap r.idx).dest = d) := by
    rintro r k0 dest h0 hd0 hne c k hk ⟨rfl, h2⟩
    rw [h0] at hk; injection hk with hk; subst hk
    exact hne (hd0.symm.trans h2)
  have qne : ∀ {dest : Bytes}, isQueueDestination dest = true → dest ≠ d := by rintro dest h1 rfl; rw [hd] at h1; cases h1
  cases hs with
  | accept =>
    intro c k' hk'
    rcases conns_evol (cfg := cfg) (SysStep.accept (cfg := cfg) (s := s)) hk' with ⟨hn, rfl⟩ | ⟨k, hk, h1⟩
    · have e0 : memsOf (s.topics.list d) c = [] := by
        apply List.eq_nil_iff_forall_not_mem.2
        intro i hm
        obtain ⟨_, x, hx, _⟩ := ha.t d _ (mem_memsOf.1 hm)
        obtain ⟨k0, h1, _, _⟩ := look_some hx
        dsimp only at h1
        rw [hn] at h1; cases h1
      have e1 : opsOf (Conn.init c).heap d c (s.reqCh ++ pending (Conn.init c).outbox) = [] := by
        refine opsOf_nil (fun r hr hrc => ?_)
        exfalso
        have : s.valid r := by
          rcases hr with hr | hr
          · rcases List.mem_append.1 hr with hr | hr
            · exact hi.refs.1 r hr
            · simp [Conn.init, pending] at hr
          · rcases List.mem_append.1 hr with hr | hr
            · exact hi.refs.2 r hr
            · simp [Conn.init, pending] at hr
        obtain ⟨k0, h1, _⟩ := this
        rw [hrc, hn] at h1; cases h1
      show Chain _ _ (memsOf (s.topics.list d) c) (opsOf (Conn.init c).heap d c (s.reqCh ++ pending (Conn.init c).outbox))
      rw [e0, e1]
      refine ⟨fun p hp i hi => ?_, fun i hi => by cases hi⟩
      rw [List.prefix_nil] at hp; subst hp; cases hi
    · have hlt : c < s.conns.length := (List.getElem?_eq_some_iff.1 hk).1
      dsimp only at hk'
      rw [List.getElem?_append_left hlt] at hk'
      exact h c k' hk'
  | conn j e k k' hk hin hst =>
    intro c x hx
    dsimp only at hx
    rw [get_set hk] at hx
    split at hx
    · rename_i hj; injection hx with hx; subst hx hj
      obtain ⟨es, hrun⟩ := hi.run j k hk
      have hme : k.me = j := run_me hi hk
      have hso := subsOk_run hrun
      have hev := (mics_conn hi hk hin hst).evol
      have hfx : ∀ i, i < k.heap.length → (deref k'.heap i).id = (deref k.heap i).id ∧ (deref k'.heap i).dest = (deref k.heap i).dest :=
        fun i hl => fixed_id (hev.fixed i hl)
      have hc := h j k hk
      have eold : opsOf k'.heap d j (s.reqCh ++ pending k.outbox) = opsOf k.heap d j (s.reqCh ++ pending k.outbox) :=
        opsOf_congr (fun r hr hrc => (hfx r.idx (req_valid hi hk hr hrc)).2)
      have hc' : Chain (fun i => (deref k'.heap i).id) k.subs (memsOf (s.topics.list d) j) (opsOf k.heap d j (s.reqCh ++ pending k.outbox)) := by
        refine hc.congr (fun i hm => ?_)
        rcases hm with hm | hm
        · exact (hfx i (memLt hk hm).1).1
        · exact (hfx i (req_valid hi hk (Or.inl (mem_opsOf hm).1) rfl)).1
      show Chain _ _ (memsOf (s.topics.list d) j) (opsOf k'.heap d j (s.reqCh ++ pending k'.outbox))
      cases subStep (gate_run cfg j es k hrun) hin (step_of _ _ _ _ hst) with
      | quiet new hp hs hr hu =>
        have e2 : opsOf k'.heap d j new = [] := by
          refine opsOf_nil (fun r hr2 hrc => ?_)
          rcases hr2 with hr2 | hr2
          · have hfull := (hi.loc j k hk).full r.idx (hr r hr2)
            obtain ⟨m, hm⟩ := Option.isSome_iff_exists.1 hfull
            have hq := ((ha.core j k hk).heap r.idx m hm).2.2
            rw [(hfx r.idx (lt_of_frame hm)).2]
            exact qne hq
          · exact absurd hr2 (hu r)
        rw [hp, ← List.append_assoc, opsOf_append, eold, e2, List.append_nil, hs]
        exact hc'
      | join x hn hh hs hp =>
        rw [hp, ← List.append_assoc, opsOf_append, eold, hs]
        have hx : deref k'.heap k.heap.length = x := by rw [hh, deref_append_eq]
        by_cases hxd : x.dest = d
        · have e2 : opsOf k'.heap d j [.subscribe ⟨k.me, k.heap.length⟩] = [(true, k.heap.length)] := by
            rw [opsOf_cons]
            show (if k.me = j ∧ (deref k'.heap k.heap.length).dest = d then some (true, k.heap.length) else none).toList ++ [] = _
            rw [if_pos ⟨hme, by rw [hx]; exact hxd⟩]; rfl
          rw [e2]
          exact hc'.join hn (by rw [hx])
        · have e2 : opsOf k'.heap d j [.subscribe ⟨k.me, k.heap.length⟩] = [] := by
            refine opsOf_nil (fun r hr _ => ?_)
            simp at hr; subst hr
            dsimp only; rw [hx]; exact hxd
          rw [e2, List.append_nil]
          exact hc'.joinOther hn
      | leave id i hg hh hs hp =>
        rw [hp, ← List.append_assoc, opsOf_append, eold, hs]
        obtain ⟨hil, hid⟩ := hso.ids (id, i) (AMap.mem_of_get? hg)
        dsimp only at hil hid
        have gone : ∀ x, k.subs.get? ((deref k'.heap x).id) = some x → x ≠ i → (k.subs.del id).get? ((deref k'.heap x).id) = some x := by
          intro x hx hne
          rw [AMap.get?_del, if_neg]
          · exact hx
          · intro e
            rw [← e, hg] at hx; injection hx with hx; exact hne hx.symm
        by_cases hxd : (deref k.heap i).dest = d
        · have e2 : opsOf k'.heap d j [.unsubscribe ⟨k.me, i⟩] = [i].map (fun j => (false, j)) := by
            rw [opsOf_cons]
            show (if k.me = j ∧ (deref k'.heap i).dest = d then some (false, i) else none).toList ++ [] = _
            rw [if_pos ⟨hme, by rw [hh]; exact hxd⟩]; rfl
          rw [e2]
          refine hc'.leave [i] (fun x _ hx hne => gone x hx (by simpa using hne))
        · have e2 : opsOf k'.heap d j [.unsubscribe ⟨k.me, i⟩] = ([] : List Nat).map (fun j => (false, j)) := by
            refine opsOf_nil (fun r hr _ => ?_)
            simp at hr; subst hr
            dsimp only; rw [hh]; exact hxd
          rw [e2]
          refine hc'.leave [] (fun x hm hx _ => gone x hx ?_)
          rintro rfl
          exact hxd (memDest hk hm)
      | clear order ho hh hs hp =>
        rw [hp, ← List.append_assoc, opsOf_append, eold, hs]
        have e2 : ∀ l : List Nat, opsOf k'.heap d j (l.map (fun i => .unsubscribe ⟨k.me, i⟩)) =
            (l.filter (fun i => decide ((deref k'.heap i).dest = d))).map (fun j => (false, j)) := by
          intro l
          induction l with
          | nil => rfl
          | cons a l ih =>
            rw [List.map_cons, opsOf_cons, ih]
            show (if k.me = j ∧ (deref k'.heap a).dest = d then some (false, a) else none).toList ++ _ = _
            by_cases had : (deref k'.heap a).dest = d
            · rw [if_pos ⟨hme, had⟩, List.filter_cons_of_pos (by simp [had])]; rfl
            · rw [if_neg (fun e => had e.2), List.filter_cons_of_neg (by simp [had])]; rfl
        rw [e2]
        refine hc'.leave _ (fun x hm hx hne => ?_)
        exfalso
        apply hne
        rw [List.mem_filter]
        refine ⟨ho.mem_iff.2 (List.mem_map.2 ⟨_, AMap.mem_of_get? hx, rfl⟩), ?_⟩
        rw [hh]
        simpa using memDest hk hm
    · exact h c x hx
  | flush j k r o hk ho hc =>
    intro c x hx
    dsimp only at hx
    rw [get_set hk] at hx
    have hp : pending k.outbox = r :: pending o := by rw [ho]; rfl
    split at hx
    · rename_i hj; injection hx with hx; subst hx hj
      have h1 := h j k hk
      rw [hp] at h1
      show Chain _ k.subs (memsOf (s.topics.list d) j) (opsOf k.heap d j ((s.reqCh ++ [r]) ++ pending o))
      rw [List.append_assoc]; exact h1
    · rename_i hj
      have h1 := h c x hx
      show Chain _ x.subs (memsOf (s.topics.list d) c) (opsOf x.heap d c ((s.reqCh ++ [r]) ++ pending x.outbox))
      have e2 : opsOf x.heap d c [r] = [] := by
        refine opsOf_nil (fun y hy hyc => ?_)
        exfalso
        have : y.conn = k.core.me := by
          refine ((hi.loc j k hk).refs y ?_).1
          show _ ∈ pending k.outbox ∨ _ ∈ pending k.outbox
          rw [hp]
          simp only [List.mem_singleton] at hy
          rcases hy with hy | hy
          · exact Or.inl (by rw [hy]; exact List.mem_cons_self)
          · exact Or.inr (by rw [hy]; exact List.mem_cons_self)
        rw [run_me hi hk] at this
        exact hj (this.symm.trans hyc)
      rw [opsOf_append, opsOf_append, e2, List.append_nil, ← opsOf_append]
      exact h1
  | skip r rs ht hr hn =>
    refine quiet hr rfl (Or.inl rfl) rfl (fun c k _ => ?_)
    rcases hn with ⟨c, rfl⟩ | ⟨c, rfl⟩ <;> rfl
  | joinTopic r rs k dest ht hr hk hidx hdest hq =>
    by_cases hdd : dest = d
    · subst hdd
      refine proc hr rfl (Or.inl rfl) (fun c k0 hk0 => ?_)
      dsimp only
      rw [AMap.list_set, if_pos rfl, memsOf_snoc]
      show _ = after _ (if r.conn = c ∧ (deref k0.heap r.idx).dest = dest then some (true, r.idx) else none).toList
      by_cases hc : r.conn = c
      · subst hc
        rw [hk] at hk0; injection hk0 with hk0; subst hk0
        rw [if_pos rfl, if_pos ⟨rfl, hdest⟩]; rfl
      · rw [if_neg hc, if_neg (fun e => hc e.1), List.append_nil]; rfl
    · refine quiet hr rfl (Or.inl rfl) ?_ (fun c k0 hk0 => if_neg (other hk hdest hdd c k0 hk0))
      dsimp only; rw [AMap.list_set, if_neg hdd]
  | wait r rs k dest ht hr hk hidx hdest hq => exact quiet hr rfl (Or.inl rfl) rfl (fun c k0 hk0 => if_neg (other hk hdest (qne hq) c k0 hk0))
  | take r rs k dest m l ht hr hk hidx hdest hq => exact quiet hr rfl (Or.inl rfl) rfl (fun c k0 hk0 => if_neg (other hk hdest (qne hq) c k0 hk0))
  | leaveQueue r rs k dest ht hr hk hidx hdest hq => exact quiet hr rfl (Or.inl rfl) rfl (fun c k0 hk0 => if_neg (other hk hdest (qne hq) c k0 hk0))
  | absent r rs k dest ht hr hk hidx hdest hq => exact quiet hr rfl (Or.inl rfl) rfl (fun c k0 hk0 => if_neg (other hk hdest (qne hq) c k0 hk0))
  | leaveTopic r rs k dest ht hr hk hidx hdest hq =>
    by_cases hdd : dest = d
    · subst hdd
      refine proc hr rfl (Or.inl rfl) (fun c k0 hk0 => ?_)
      dsimp only
      rw [AMap.list_set, if_pos rfl, memsOf_erase (topic_nodup hi dest)]
      show _ = after _ (if r.conn = c ∧ (deref k0.heap r.idx).dest = dest then some (false, r.idx) else none).toList
      by_cases hc : r.conn = c
      · subst hc
        rw [hk] at hk0; injection hk0 with hk0; subst hk0
        rw [if_pos rfl, if_pos ⟨rfl, hdest⟩]; rfl
      · rw [if_neg hc, if_neg (fun e => hc e.1)]; rfl
    · refine quiet hr rfl (Or.inl rfl) ?_ (fun c k0 hk0 => if_neg (other hk hdest hdd c k0 hk0))
      dsimp only; rw [AMap.list_set, if_neg hdd]
  | store front m rs dest ht hr =>
    refine quiet hr rfl (Or.inl rfl) rfl (fun c k _ => ?_)
    cases front <;> rfl
  | give front m rs dest r q k ht hr =>
    refine quiet hr rfl (Or.inl rfl) rfl (fun c k _ => ?_)
    cases front <;> rfl
  | cast m rs dest ht hr => exact quiet hr rfl (Or.inl rfl) rfl (fun c k _ => rfl)
  | drop m rs dest ht hr => exact quiet hr rfl (Or.inl rfl) rfl (fun c k _ => rfl)
  | pushQueue r t k ht hk => exact push rfl (Or.inr rfl) rfl
  | pushTopic dest r m t k ht hk => exact push rfl (Or.inr rfl) rfl

/-- A topic has at most one subscription of a connection under one id. -/
theorem ChainOk.unique {d : Bytes} {s : Sys} (h : ChainOk d s) {c : Nat} {k : Conn} (hk : s.conns[c]? = some k) {i j : Nat}
    (hi : ⟨c, i⟩ ∈ s.topics.list d) (hj : ⟨c, j⟩ ∈ s.topics.list d) (he : (deref k.heap i).id = (deref k.heap j).id) : i = j :=
  (h c k hk).inj [] (List.nil_prefix) i (mem_memsOf.2 hi) j (mem_memsOf.2 hj) he

theorem ChainOk.init (d : Bytes) : ChainOk d Sys.init := by intro c k hk; cases hk

end Stomp.Server
