import Verif.Proofs.Server.Asked
import Verif.Proofs.Server.Listed
import Verif.Proofs.Server.Origin
import Verif.Proofs.Server.OpenSubs
import Verif.Proofs.Server.TopicKeep
import Verif.Proofs.Server.Timer
import Verif.Spec.Forgotten
/-! # The lists of the queues and topics, and the last request about a subscription -/
namespace Stomp.Server
open Stomp

theorem turns_append (r : SubRef) (a b : List Req) : Spec.turns r (a ++ b) = Spec.turns r a ++ Spec.turns r b := by
  unfold Spec.turns; rw [List.filterMap_append]

theorem turns_sub (r : SubRef) : Spec.turns r [.subscribe r] = [true] := by simp [Spec.turns]
theorem turns_unsub (r : SubRef) : Spec.turns r [.unsubscribe r] = [false] := by simp [Spec.turns]

/-- A request that is not about the subscription. -/
theorem turns_other {r : SubRef} {q : Req} (h1 : q ≠ .subscribe r) (h2 : q ≠ .unsubscribe r) : Spec.turns r [q] = [] := by
  unfold Spec.turns
  cases q with
  | subscribe x => rw [List.filterMap_cons, List.filterMap_nil]; dsimp only; rw [if_neg (fun e => h1 (by rw [e]))]
  | unsubscribe x => rw [List.filterMap_cons, List.filterMap_nil]; dsimp only; rw [if_neg (fun e => h2 (by rw [e]))]
  | _ => rfl

theorem turns_nil_of {r : SubRef} {l : List Req} (h1 : .subscribe r ∉ l) (h2 : .unsubscribe r ∉ l) : Spec.turns r l = [] := by
  induction l with
  | nil => rfl
  | cons q l ih =>
    rw [show q :: l = [q] ++ l from rfl, turns_append, ih (fun h => h1 (List.mem_cons_of_mem _ h)) (fun h => h2 (List.mem_cons_of_mem _ h)),
      turns_other (fun e => h1 (by rw [e]; exact List.mem_cons_self)) (fun e => h2 (by rw [e]; exact List.mem_cons_self))]
    rfl

/-- The subscription is in no list. -/
def Nowhere (s : Sys) (r : SubRef) : Prop := ∀ d, r ∉ s.queues.list d ∧ r ∉ s.topics.list d

/-- A subscription whose connection asked last to have it taken out is out, or a request to take it out is the last one on its way. -/
def LastOk (s : Sys) : Prop := ∀ (r : SubRef) (k : Conn), s.conns[r.conn]? = some k → (Spec.turns r k.log).getLast? = some false →
  (Spec.turns r (s.reqCh ++ pending k.outbox)).getLast? = some false ∨ (Spec.turns r (s.reqCh ++ pending k.outbox) = [] ∧ Nowhere s r)

theorem last_append {a b : List Bool} (h : b ≠ []) : (a ++ b).getLast? = b.getLast? := by
  rw [List.getLast?_append]
  cases hb : b.getLast? with
  | none => exact absurd (List.getLast?_eq_none_iff.1 hb) h
  | some x => rfl

/-- What the processor does not touch in a connection. -/
structure Untouched (k k' : Conn) : Prop where
  log : k'.log = k.log
  hist : k'.hist = k.hist
  outbox : k'.outbox = k.outbox
  subs : k'.subs = k.subs
  stage : k'.stage = k.stage
  len : k'.heap.length = k.heap.length

theorem proc_untouched {cfg : Config} {s s' : Sys} {e : Sys.Ev} (hs : SysStep cfg s e s') (he : e = .proc ∨ e = .push) {c : Nat} {k' : Conn}
    (hk' : s'.conns[c]? = some k') : ∃ k, s.conns[c]? = some k ∧ Untouched k k' := by
  have one : ∀ {j : Nat} {k1 k2 : Conn}, s.conns[j]? = some k1 → s'.conns = s.conns.set j k2 → Untouched k1 k2 → ∃ k, s.conns[c]? = some k ∧ Untouched k k' := by
    intro j k1 k2 h1 h2 h3
    rw [h2, get_set h1] at hk'
    split at hk'
    · rename_i hj; injection hk' with hk'; subst hk' hj
      exact ⟨k1, h1, h3⟩
    · exact ⟨k', hk', rfl, rfl, rfl, rfl, rfl, rfl⟩
  have same : s'.conns = s.conns → ∃ k, s.conns[c]? = some k ∧ Untouched k k' := by
    intro h; rw [h] at hk'; exact ⟨k', hk', rfl, rfl, rfl, rfl, rfl, rfl⟩
  cases hs with
  | accept => rcases he with he | he <;> cases he
  | conn => rcases he with he | he <;> cases he
  | flush => rcases he with he | he <;> cases he
  | skip => exact same rfl
  | joinTopic => exact same rfl
  | wait r rs k dest ht hr hk => exact one hk rfl ⟨rfl, rfl, rfl, rfl, rfl, putInList_length _ _ _⟩
  | take r rs k dest m l ht hr hk => exact one hk rfl ⟨rfl, rfl, rfl, rfl, rfl, putFrame_length _ _ _⟩
  | leaveQueue r rs k dest ht hr hk => exact one hk rfl ⟨rfl, rfl, rfl, rfl, rfl, putInList_length _ _ _⟩
  | absent => exact same rfl
  | leaveTopic => exact same rfl
  | store => exact same rfl
  | give front m rs dest r q k ht hr hdd hq he hk hx hf => exact one hk rfl ⟨rfl, rfl, rfl, rfl, rfl, (putFrame_length _ _ _).trans (putInList_length _ _ _)⟩
  | cast => exact same rfl
  | drop => exact same rfl
  | pushQueue r t k ht hk => exact one hk rfl ⟨rfl, rfl, rfl, rfl, rfl, rfl⟩
  | pushTopic dest r m t k ht hk => exact one hk rfl ⟨rfl, rfl, rfl, rfl, rfl, rfl⟩

theorem lastOk_step {cfg : Config} {s s' : Sys} {e : Sys.Ev} (hi : SInv cfg s) (ha : Addr s) (h : LastOk s) (hs : SysStep cfg s e s') : LastOk s' := by
  -- the processor takes a request
  have proc : ∀ {r0 : Req} {rs : List Req}, s.reqCh = r0 :: rs → s'.reqCh = rs → (e = .proc ∨ e = .push) →
      (∀ r d, r0 ≠ .subscribe r → (r ∈ s'.queues.list d → r ∈ s.queues.list d) ∧ (r ∈ s'.topics.list d → r ∈ s.topics.list d)) →
      (∀ r, r0 = .unsubscribe r → Nowhere s' r) → LastOk s' := by
    intro r0 rs hr hr' he h1 h2 r k' hk' hl
    obtain ⟨k, hk, hU⟩ := proc_untouched hs he hk'
    rw [hU.log] at hl
    have h3 := h r k hk hl
    rw [hr', hU.outbox]
    rw [hr, List.cons_append, show r0 :: (rs ++ pending k.outbox) = [r0] ++ (rs ++ pending k.outbox) from rfl, turns_append] at h3
    by_cases q1 : r0 = .subscribe r
    · subst q1
      rw [turns_sub] at h3
      rcases h3 with h3 | ⟨h3, _⟩
      · left
        by_cases hn : Spec.turns r (rs ++ pending k.outbox) = []
        · rw [hn] at h3; cases h3
        · rw [last_append hn] at h3; exact h3
      · cases h3
    · by_cases q2 : r0 = .unsubscribe r
      · subst q2
        rw [turns_unsub] at h3
        by_cases hn : Spec.turns r (rs ++ pending k.outbox) = []
        · exact Or.inr ⟨hn, h2 r rfl⟩
        · left
          rcases h3 with h3 | ⟨h3, _⟩
          · rw [last_append hn] at h3; exact h3
          · cases h3
      · rw [turns_other q1 q2, List.nil_append] at h3
        rcases h3 with h3 | ⟨h3, h4⟩
        · exact Or.inl h3
        · exact Or.inr ⟨h3, fun d => ⟨fun hm => (h4 d).1 ((h1 r d q1).1 hm), fun hm => (h4 d).2 ((h1 r d q1).2 hm)⟩⟩
  have keepQ : ∀ {r0 : Req} {rs : List Req}, s.reqCh = r0 :: rs → s'.reqCh = rs → (e = .proc ∨ e = .push) →
      (∀ r d, r ∈ s'.queues.list d → r ∈ s.queues.list d) → s'.topics = s.topics → (∀ r, r0 ≠ .unsubscribe r) → LastOk s' := by
    intro r0 rs hr hr' he h1 h2 h3
    exact proc hr hr' he (fun r d _ => ⟨h1 r d, by rw [h2]; exact id⟩) (fun r e => absurd e (h3 r))
  have push : s'.reqCh = s.reqCh → (e = .proc ∨ e = .push) → s'.queues = s.queues → s'.topics = s.topics → LastOk s' := by
    intro h1 he h2 h3 r k' hk' hl
    obtain ⟨k, hk, hU⟩ := proc_untouched hs he hk'
    have := h r k hk (by rw [← hU.log]; exact hl)
    rw [h1, hU.outbox]
    unfold Nowhere
    rw [h2, h3]; exact this
  have once : ∀ r, AMap.sum (List.count r) s.queues + AMap.sum (List.count r) s.topics ≤ 1 := by
    intro r; have := hi.tok r; unfold waiting at this; omega
  -- the destination of a subscription
  have destQ : ∀ {r : SubRef} {k : Conn} {d : Bytes}, s.conns[r.conn]? = some k → r ∈ s.queues.list d → (deref k.heap r.idx).dest = d ∧ isQueueDestination d = true := by
    intro r k d hk hm
    obtain ⟨h1, x, hx, h2⟩ := ha.q d r hm
    obtain ⟨k0, h3, _, h4⟩ := look_some hx
    rw [hk] at h3; injection h3 with h3; subst h3
    exact ⟨by rw [h4]; exact h2, h1⟩
  have destT : ∀ {r : SubRef} {k : Conn} {d : Bytes}, s.conns[r.conn]? = some k → r ∈ s.topics.list d → (deref k.heap r.idx).dest = d ∧ isQueueDestination d = false := by
    intro r k d hk hm
    obtain ⟨h1, x, hx, h2⟩ := ha.t d r hm
    obtain ⟨k0, h3, _, h4⟩ := look_some hx
    rw [hk] at h3; injection h3 with h3; subst h3
    exact ⟨by rw [h4]; exact h2, h1⟩
  have gone : ∀ (r : SubRef) (l : List SubRef), l.count r ≤ 1 → r ∉ l.erase r := by
    intro r l hl hm
    have := List.count_pos_iff.2 hm
    rw [List.count_erase_self] at this; omega
  have setErase : ∀ (m : AMap (List SubRef)) (dest d : Bytes) (r x : SubRef), x ∈ (m.set dest ((m.list dest).erase r)).list d → x ∈ m.list d := by
    intro m dest d r x hx
    rw [AMap.list_set] at hx
    split at hx
    · rename_i he; rw [← he]; exact List.mem_of_mem_erase hx
    · exact hx
  have setAdd : ∀ (m : AMap (List SubRef)) (dest d : Bytes) (r x : SubRef), r ≠ x → x ∈ (m.set dest (m.list dest ++ [r])).list d → x ∈ m.list d := by
    intro m dest d r x hn hx
    rw [AMap.list_set] at hx
    split at hx
    · rename_i he; rw [← he]
      rcases List.mem_append.1 hx with hx | hx
      · exact hx
      · rw [List.mem_singleton] at hx; exact absurd hx.symm hn
    · exact hx
  cases hs with
  | accept =>
    intro r k hk hl
    dsimp only at hk
    rw [List.getElem?_append] at hk
    split at hk
    · exact h r k hk hl
    · rename_i hlen
      have : k = Conn.init s.conns.length := by
        cases hj : r.conn - s.conns.length with
        | zero => rw [hj] at hk; simpa using hk.symm
        | succ n => rw [hj] at hk; simp at hk
      subst this
      cases hl
  | conn c ev k0 k0' hk0 hin hst =>
    intro r k' hk' hl
    dsimp only at hk'
    rw [get_set hk0] at hk'
    split at hk'
    · rename_i hc
      injection hk' with hk'; subst hk'
      obtain ⟨es, hr⟩ := hi.run c k0 hk0
      have hg := gate_run cfg c es k0 hr
      rcases emit_step hg (step_of _ _ _ _ hst) with ⟨_, _, he, _⟩ | ⟨_, l, h1, h2⟩
      · subst he; cases hin
      · rw [h1, turns_append] at hl
        have e0 : Spec.turns r (s.reqCh ++ pending k0'.outbox) = Spec.turns r (s.reqCh ++ pending k0.outbox) ++ Spec.turns r l := by
          rw [h2, ← List.append_assoc, turns_append]
        show (Spec.turns r (s.reqCh ++ pending k0'.outbox)).getLast? = some false ∨ (Spec.turns r (s.reqCh ++ pending k0'.outbox) = [] ∧ Nowhere s r)
        rw [e0]
        by_cases hn : Spec.turns r l = []
        · rw [hn, List.append_nil] at hl ⊢
          exact h r k0 (by rw [← hc]; exact hk0) hl
        · rw [last_append hn] at hl ⊢; exact Or.inl hl
    · exact h r k' hk' hl
  | flush c k0 r0 o hk0 ho hlen =>
    intro r k' hk' hl
    dsimp only at hk'
    rw [get_set hk0] at hk'
    split at hk'
    · rename_i hc
      injection hk' with hk'; subst hk'
      have := h r k0 (by rw [← hc]; exact hk0) hl
      rw [ho] at this
      show (Spec.turns r (s.reqCh ++ [r0] ++ pending o)).getLast? = some false ∨ (Spec.turns r (s.reqCh ++ [r0] ++ pending o) = [] ∧ Nowhere s r)
      rw [List.append_assoc]
      exact this
    · rename_i hc
      have := h r k' hk' hl
      have hm := (hi.counted hk0).2
      have href := (hi.loc c k0 hk0).refs r
      have hin : ∀ q, r0 = q → q ∈ k0.core.pend := by
        rintro q rfl
        show r0 ∈ pending k0.outbox
        rw [ho]; exact List.mem_cons_self
      have t0 : Spec.turns r [r0] = [] := turns_other (fun e => hc (by rw [(href (Or.inl (hin _ e))).1]; exact hm.symm)) (fun e => hc (by rw [(href (Or.inr (hin _ e))).1]; exact hm.symm))
      have e0 : Spec.turns r (s.reqCh ++ [r0] ++ pending k'.outbox) = Spec.turns r (s.reqCh ++ pending k'.outbox) := by
        rw [turns_append, turns_append, t0, List.append_nil, ← turns_append]
      show (Spec.turns r (s.reqCh ++ [r0] ++ pending k'.outbox)).getLast? = some false ∨ (Spec.turns r (s.reqCh ++ [r0] ++ pending k'.outbox) = [] ∧ Nowhere s r)
      rw [e0]; exact this
  | skip r rs ht hr hn =>
    refine keepQ hr rfl (Or.inl rfl) (fun _ _ h => h) rfl ?_
    rintro x rfl
    rcases hn with ⟨c, h⟩ | ⟨c, h⟩ <;> cases h
  | joinTopic r rs k dest ht hr hk hx hd hq =>
    refine proc hr rfl (Or.inl rfl) (fun x d hn => ⟨fun h => h, fun hm => setAdd _ _ _ _ _ (fun e => hn (by rw [e])) hm⟩) (by rintro x h; cases h)
  | wait r rs k dest ht hr hk =>
    refine proc hr rfl (Or.inl rfl) (fun x d hn => ⟨fun hm => setAdd _ _ _ _ _ (fun e => hn (by rw [e])) hm, fun h => h⟩) (by rintro x h; cases h)
  | take r rs k dest m l ht hr hk => exact keepQ hr rfl (Or.inl rfl) (fun _ _ h => h) rfl (by rintro x h; cases h)
  | leaveQueue r rs k dest ht hr hk hx hd hq hm =>
    refine proc hr rfl (Or.inl rfl) (fun x d _ => ⟨setErase _ _ _ _ _, fun h => h⟩) ?_
    intro x e; injection e with e; subst e
    refine fun d => ⟨fun h1 => ?_, fun h1 => ?_⟩
    · dsimp only at h1
      rw [AMap.list_set] at h1
      split at h1
      · have := AMap.le_sum_list (List.count r) rfl s.queues dest
        have := once r
        exact gone r _ (by omega) h1
      · rename_i hne
        exact hne (hd.symm.trans (destQ hk h1).1)
    · have := (destT hk h1)
      rw [hd] at this
      rw [← this.1, hq] at this; cases this.2
  | absent r rs k dest ht hr hk hx hd hq hm =>
    refine proc hr rfl (Or.inl rfl) (fun x d _ => ⟨fun h => h, fun h => h⟩) ?_
    intro x e; injection e with e; subst e
    refine fun d => ⟨fun h1 => ?_, fun h1 => ?_⟩
    · have := (destQ hk h1).1
      rw [hd] at this; subst this; exact hm h1
    · have := (destT hk h1)
      rw [hd] at this
      rw [← this.1, hq] at this; cases this.2
  | leaveTopic r rs k dest ht hr hk hx hd hq =>
    refine proc hr rfl (Or.inl rfl) (fun x d _ => ⟨fun h => h, setErase _ _ _ _ _⟩) ?_
    intro x e; injection e with e; subst e
    refine fun d => ⟨fun h1 => ?_, fun h1 => ?_⟩
    · have := (destQ hk h1)
      rw [hd] at this
      rw [← this.1, hq] at this; cases this.2
    · dsimp only at h1
      rw [AMap.list_set] at h1
      split at h1
      · have := AMap.le_sum_list (List.count r) rfl s.topics dest
        have := once r
        exact gone r _ (by omega) h1
      · rename_i hne
        exact hne (hd.symm.trans (destT hk h1).1)
  | store front m rs dest ht hr => exact keepQ hr rfl (Or.inl rfl) (fun _ _ h => h) rfl (by intro x h; cases front <;> cases h)
  | give front m rs dest r q k ht hr hdd hq he hk =>
    refine keepQ hr rfl (Or.inl rfl) ?_ rfl (by intro x h; cases front <;> cases h)
    intro x d hx
    dsimp only at hx
    rw [AMap.list_set] at hx
    split at hx
    · rename_i hd; rw [← hd, he]; exact List.mem_cons_of_mem _ hx
    · exact hx
  | cast m rs dest ht hr => exact keepQ hr rfl (Or.inl rfl) (fun _ _ h => h) rfl (by rintro x h; cases h)
  | drop m rs dest ht hr => exact keepQ hr rfl (Or.inl rfl) (fun _ _ h => h) rfl (by rintro x h; cases h)
  | pushQueue r t k ht hk => exact push rfl (Or.inr rfl) rfl rfl
  | pushTopic dest r m t k ht hk => exact push rfl (Or.inr rfl) rfl rfl

theorem lastOk_run {cfg : Config} {es : List Sys.Ev} {s : Sys} (h : Sys.init.run cfg es = some s) (hc : s.crashed = false) : LastOk s :=
  (trace_induction (P := fun _ s => LastOk s) (fun r k hk => by cases hk) (fun _ _ _ _ hi ha _ hp hs => lastOk_step hi ha hp hs) es s h hc).2.2

/-! ## Connections of clients that use their subscriptions simply -/

/-- The subscription is in the connection's map. -/
def InMap (k : Conn) (i : Nat) : Prop := ∃ id, k.subs.get? id = some i

/-- The subscription is in the list of no queue, and will not get into one: it is marked as being in a list, or the connection is ending and does not ask for it. -/
def KeptOut (s : Sys) (c : Nat) (k : Conn) (i : Nat) : Prop :=
  ¬InQueue s ⟨c, i⟩ ∧ ((deref k.heap i).inList = true ∨ (k.stage ≠ .run ∧ .subscribe ⟨c, i⟩ ∉ s.reqCh ++ pending k.outbox))

/-- A subscription is in the map, or the last request about it was to take it out, or it does not get into a list any more. -/
structure Settled (s : Sys) (c : Nat) (k : Conn) : Prop where
  marked : Marked k
  all : Spec.Simple k.hist → ∀ i, i < k.heap.length → InMap k i ∨ (Spec.turns ⟨c, i⟩ k.log).getLast? = some false ∨ KeptOut s c k i
  run : (∀ f ∈ k.hist, f.command ≠ b!"UNSUBSCRIBE") → k.stage = .run → ∀ i, i < k.heap.length → InMap k i

theorem Simple.prefix {a b : List Frame} (h : Spec.Simple (a ++ b)) : Spec.Simple a := by
  rcases h with h | h1
  · exact Or.inl (fun f hf => h f (List.mem_append_left _ hf))
  · refine Or.inr ?_
    unfold Spec.idsAsked at h1 ⊢
    rw [List.filterMap_append, List.map_append] at h1
    exact (List.nodup_append.1 h1).1

theorem turns_offs (r : SubRef) (c : Nat) (l : List Nat) : ∀ b ∈ Spec.turns r (l.map (fun i => .unsubscribe ⟨c, i⟩)), b = false := by
  intro b hb
  unfold Spec.turns at hb
  obtain ⟨q, hq, h1⟩ := List.mem_filterMap.1 hb
  obtain ⟨i, _, rfl⟩ := List.mem_map.1 hq
  dsimp only at h1
  split at h1
  · injection h1 with h1; exact h1.symm
  · cases h1

theorem last_offs {a b : List Bool} (hb : ∀ x ∈ b, x = false) (h : a.getLast? = some false ∨ b ≠ []) : (a ++ b).getLast? = some false := by
  by_cases hn : b = []
  · rw [hn, List.append_nil]
    rcases h with h | h
    · exact h
    · exact absurd hn h
  · rw [last_append hn]
    cases hl : b.getLast? with
    | none => exact absurd (List.getLast?_eq_none_iff.1 hl) hn
    | some x => rw [hb x (List.mem_of_getLast? hl)]

theorem held_subList {s : Sys} {c : Nat} {k : Conn} {i : Nat} (hk : s.conns[c]? = some k) (hi : i ∈ k.subList) : 0 < held s.conns ⟨c, i⟩ := by
  unfold held
  dsimp only
  rw [hk]
  dsimp only
  unfold Core.tok
  have : 0 < k.core.subList.count i := List.count_pos_iff.2 hi
  omega

/-- A subscription the connection holds is in no queue, and the processor is not asked for it. -/
theorem held_alone {cfg : Config} {s : Sys} {c : Nat} {k : Conn} {i : Nat} (hi : SInv cfg s) (hk : s.conns[c]? = some k) (hm : i ∈ k.subList) :
    ¬InQueue s ⟨c, i⟩ ∧ .subscribe ⟨c, i⟩ ∉ s.reqCh ++ pending k.outbox := by
  have h1 := hi.tok ⟨c, i⟩
  have h2 := held_subList hk hm
  unfold waiting at h1
  refine ⟨fun ⟨d, hd⟩ => ?_, fun hs => ?_⟩
  · have := inQueue_sum hd; omega
  · rcases List.mem_append.1 hs with hs | hs
    · have : 0 < (reqSubs s.reqCh).count ⟨c, i⟩ := List.count_pos_iff.2 (List.mem_filterMap.2 ⟨_, hs, rfl⟩)
      omega
    · have h3 := (hi.loc c k hk).tok i
      unfold Core.tok at h3
      have h4 : 0 < k.core.subList.count i := List.count_pos_iff.2 hm
      have h5 : 0 < (subIdx k.core.pend).count i := List.count_pos_iff.2 (List.mem_filterMap.2 ⟨_, hs, rfl⟩)
      omega

theorem settled_step {cfg : Config} {s s' : Sys} {c : Nat} {k k' : Conn} {e : Conn.Ev} (hi : SInv cfg s) (hk : s.conns[c]? = some k) (hq : s'.queues = s.queues)
    (hreq : s'.reqCh = s.reqCh) (hg : Gate cfg k) (hin : Sys.internal e = true) (hs : Step cfg k e k') (hsub : SubsOk k) (hopen : OpenInv k) (h : Settled s c k) :
    Settled s' c k' := by
  have hloc := hi.loc c k hk
  have hkme : k.me = c := (hi.counted hk).2
  obtain ⟨hl, hhl⟩ := hist_grow hg hs
  obtain ⟨hmark, hkeep⟩ := marked_step hg hloc hin hs h.marked
  have down : Spec.Simple k'.hist → Spec.Simple k.hist := by intro hs; rw [hhl] at hs; exact Simple.prefix hs
  have up : (∀ f ∈ k'.hist, f.command ≠ b!"UNSUBSCRIBE") → ∀ f ∈ k.hist, f.command ≠ b!"UNSUBSCRIBE" := fun h f hf => h f (by rw [hhl]; exact List.mem_append_left _ hf)
  have log : ∀ {new : List Req}, pending k'.outbox = pending k.outbox ++ new → k'.log = k.log ++ new := by
    intro new hp
    rcases emit_step hg hs with ⟨_, _, he, _⟩ | ⟨_, l, h1, h2⟩
    · subst he; cases hin
    · rw [hp] at h2
      rw [h1, List.append_cancel_left h2]
  have hsame : ∀ r, InQueue s' r → InQueue s r := fun r ⟨d, hd⟩ => ⟨d, by rw [← hq]; exact hd⟩
  -- a subscription that is out stays out
  have out : ∀ {i : Nat} {new : List Req}, pending k'.outbox = pending k.outbox ++ new → (k.stage ≠ .run → .subscribe ⟨c, i⟩ ∉ new) → KeptOut s c k i → KeptOut s' c k' i := by
    rintro i new hp hnew ⟨h1, h2⟩
    refine ⟨fun hx => h1 (hsame _ hx), ?_⟩
    have fresh : k.stage ≠ .run → .subscribe ⟨c, i⟩ ∉ s.reqCh ++ pending k.outbox → k'.stage ≠ .run ∧ .subscribe ⟨c, i⟩ ∉ s'.reqCh ++ pending k'.outbox := by
      intro hst h3
      refine ⟨fun he => hst (stage_back hs he), ?_⟩
      rw [hp, hreq, ← List.append_assoc]
      intro hx
      rcases List.mem_append.1 hx with hx | hx
      · exact h3 hx
      · exact hnew hst hx
    rcases h2 with h2 | ⟨h2, h3⟩
    · rcases hkeep i h2 with h4 | ⟨h4, h5⟩
      · exact Or.inl h4
      · exact Or.inr (fresh (by rw [h5]; simp) (held_alone hi hk h4).2)
    · exact Or.inr (fresh h2 h3)
  have htok : ∀ i, i ∈ k.subCh ∨ i ∈ k.subList → i < k.heap.length := by
    intro i hi
    refine hloc.idx i ?_
    unfold Core.tok
    rcases hi with hi | hi
    · have : 0 < k.core.subCh.count i := List.count_pos_iff.2 hi
      omega
    · have : 0 < k.core.subList.count i := List.count_pos_iff.2 hi
      omega
  -- a subscription asked for again is in the map, or marked
  have again : Spec.Simple k'.hist → ∀ i, Again k k' i → InMap k i ∨ i ∈ k.subList := by
    rintro hsimple i ⟨hst, hx⟩
    rcases hsimple with hno | hid
    · refine Or.inl (h.run (up hno) hst i (htok i ?_))
      rcases hx with ⟨hx, _⟩ | ⟨hx, _⟩
      · exact Or.inl hx
      · exact Or.inr hx
    · rcases hx with ⟨hx, j, hj⟩ | ⟨hx, _⟩
      · have h1 := htok i (Or.inl hx)
        have h2 := hsub.ids _ (AMap.mem_of_get? hj)
        dsimp only at h2
        have hn : (k.heap.map (·.id)).Nodup := by
          have e1 : k.heap.map (·.id) = Spec.idsAsked k.hist := by
            unfold Spec.idsAsked
            rw [← hopen.heap hst, List.map_map]; rfl
          rw [e1]
          rw [hhl] at hid
          unfold Spec.idsAsked at hid ⊢
          rw [List.filterMap_append, List.map_append] at hid
          exact (List.nodup_append.1 hid).1
        have : i = j := by
          have at_ : ∀ n, n < k.heap.length → (k.heap.map (·.id))[n]? = some (deref k.heap n).id := by
            intro n hn
            rw [List.getElem?_map, List.getElem?_eq_getElem hn]
            unfold deref
            rw [List.getD_eq_getElem?_getD, List.getElem?_eq_getElem hn]; rfl
          have e1 := at_ i h1
          have e2 := at_ j h2.1
          rw [h2.2] at e2
          exact (List.getElem?_inj (by simpa using h1) hn).1 (e1.trans e2.symm)
        subst this
        exact Or.inl ⟨_, hj⟩
      · exact Or.inr hx
  have other : ∀ {i : Nat} {new : List Req}, .subscribe ⟨c, i⟩ ∉ new → .unsubscribe ⟨c, i⟩ ∉ new → (Spec.turns ⟨c, i⟩ k.log).getLast? = some false →
      (Spec.turns ⟨c, i⟩ (k.log ++ new)).getLast? = some false := by
    intro i new h1 h2 h3
    rw [turns_append, turns_nil_of h1 h2, List.append_nil]; exact h3
  cases askStep hg hin hs with
  | quiet new hp hsb hlen hr hu =>
    refine ⟨hmark, fun hsimple i hi' => ?_, fun hno hst i hi => ?_⟩
    · rw [hlen] at hi'
      rw [log hp]
      unfold InMap
      rw [hsb]
      have nr : k.stage ≠ .run → .subscribe ⟨c, i⟩ ∉ new := fun hst hm => hst (hr _ hm).1
      by_cases hm : .subscribe ⟨c, i⟩ ∈ new
      · rcases again hsimple i (hr _ hm) with h1 | h1
        · exact Or.inl h1
        · refine Or.inr (Or.inr ⟨fun hx => (held_alone hi hk h1).1 (hsame _ hx), ?_⟩)
          rcases hkeep i (h.marked i h1) with h2 | ⟨_, h2⟩
          · exact Or.inl h2
          · have := (hr _ hm).1
            rw [this] at h2; cases h2
      · rcases h.all (down hsimple) i hi' with h1 | h1 | h1
        · exact Or.inl h1
        · exact Or.inr (Or.inl (other hm (hu _) h1))
        · exact Or.inr (Or.inr (out hp nr h1))
    · unfold InMap; rw [hsb]; rw [hlen] at hi
      exact h.run (up hno) (stage_back hs hst) i hi
  | join x hst hn hh hsb hp =>
    have new : InMap k' k.heap.length := ⟨x.id, by rw [hsb, AMap.get?_set, if_pos rfl]⟩
    have old : ∀ i, InMap k i → InMap k' i := by
      rintro i ⟨id, hid⟩
      refine ⟨id, ?_⟩
      rw [hsb, AMap.get?_set, if_neg]
      · exact hid
      · rintro rfl; rw [hn] at hid; cases hid
    have hlen : k'.heap.length = k.heap.length + 1 := by rw [hh]; simp
    refine ⟨hmark, fun hsimple i hi => ?_, fun hno hst' i hi => ?_⟩
    · rw [log hp]
      by_cases hi2 : i = k.heap.length
      · rw [hi2]; exact Or.inl new
      · rcases h.all (down hsimple) i (by omega) with h1 | h1 | h1
        · exact Or.inl (old i h1)
        · exact Or.inr (Or.inl (other (by simp; exact fun _ => hi2) (by simp) h1))
        · exact Or.inr (Or.inr (out hp (fun hne => absurd hst hne) h1))
    · by_cases hi2 : i = k.heap.length
      · rw [hi2]; exact new
      · exact old i (h.run (up hno) hst i (by omega))
  | leave id j hst hgt hh hsb hp hf =>
    refine ⟨hmark, fun hsimple i hi => ?_, fun hno => ?_⟩
    · rw [hh] at hi
      rw [log hp]
      by_cases hij : i = j
      · subst hij
        exact Or.inr (Or.inl (by rw [hkme, turns_append, turns_unsub]; simp))
      · rcases h.all (down hsimple) i hi with ⟨id', h1⟩ | h1 | h1
        · refine Or.inl ⟨id', ?_⟩
          rw [hsb, AMap.get?_del, if_neg]
          · exact h1
          · rintro rfl; rw [hgt] at h1; injection h1 with h1; exact hij h1.symm
        · exact Or.inr (Or.inl (other (by simp) (by simp; exact fun _ => hij) h1))
        · exact Or.inr (Or.inr (out hp (fun _ => by simp) h1))
    · obtain ⟨f, hf1, hf2⟩ := hf
      exact absurd hf2 (hno f hf1)
  | clear order ho hh hsb hst hp =>
    refine ⟨hmark, fun hsimple i hi => ?_, fun _ hr => by rw [hst] at hr; cases hr⟩
    rw [hh] at hi
    rw [log hp, turns_append, hkme]
    rcases h.all (down hsimple) i hi with ⟨id, h1⟩ | h1 | h1
    · refine Or.inr (Or.inl (last_offs (turns_offs _ _ _) (Or.inr ?_)))
      have : i ∈ order := ho.mem_iff.2 (List.mem_map.2 ⟨_, AMap.mem_of_get? h1, rfl⟩)
      intro hn
      have : false ∈ Spec.turns ⟨c, i⟩ (order.map (fun i => .unsubscribe ⟨c, i⟩)) := by
        unfold Spec.turns
        exact List.mem_filterMap.2 ⟨_, List.mem_map.2 ⟨i, this, rfl⟩, by simp⟩
      rw [hn] at this; cases this
    · exact Or.inr (Or.inl (last_offs (turns_offs _ _ _) (Or.inl h1)))
    · exact Or.inr (Or.inr (out hp (fun _ => by simp) h1))

/-- What the processor does to the marks and the queues, seen from a connection. -/
theorem proc_marks {cfg : Config} {s s' : Sys} {e : Sys.Ev} (hs : SysStep cfg s e s') (he : e = .proc ∨ e = .push) {c : Nat} {k k' : Conn}
    (hk : s.conns[c]? = some k) (hk' : s'.conns[c]? = some k') :
    (∀ q ∈ s'.reqCh, q ∈ s.reqCh) ∧ (∀ i, (deref k.heap i).inList = true → (deref k'.heap i).inList = true ∨ InQueue s ⟨c, i⟩) ∧ k'.subList = k.subList ∧
    ∀ i, InQueue s' ⟨c, i⟩ → InQueue s ⟨c, i⟩ ∨ (.subscribe ⟨c, i⟩ ∈ s.reqCh ∧ (deref k.heap i).inList = false) := by
  have same : s'.conns = s.conns → k' = k := by
    intro h; rw [h, hk] at hk'; injection hk' with hk'; exact hk'.symm
  have plain : s'.conns = s.conns → (∀ q ∈ s'.reqCh, q ∈ s.reqCh) → s'.queues = s.queues → 
      (∀ q ∈ s'.reqCh, q ∈ s.reqCh) ∧ (∀ i, (deref k.heap i).inList = true → (deref k'.heap i).inList = true ∨ InQueue s ⟨c, i⟩) ∧ k'.subList = k.subList ∧
        ∀ i, InQueue s' ⟨c, i⟩ → InQueue s ⟨c, i⟩ ∨ (.subscribe ⟨c, i⟩ ∈ s.reqCh ∧ (deref k.heap i).inList = false) := by
    intro h1 h2 h3
    rw [same h1]
    exact ⟨h2, fun i hi => Or.inl hi, rfl, fun i ⟨d, hd⟩ => Or.inl ⟨d, by rw [← h3]; exact hd⟩⟩
  -- one connection is changed
  have one : ∀ {j : Nat} {k1 k2 : Conn}, s.conns[j]? = some k1 → s'.conns = s.conns.set j k2 → k2.subList = k1.subList →
      (∀ i, (deref k1.heap i).inList = true → (deref k2.heap i).inList = true ∨ InQueue s ⟨j, i⟩) →
      (∀ i, (deref k.heap i).inList = true → (deref k'.heap i).inList = true ∨ InQueue s ⟨c, i⟩) ∧ k'.subList = k.subList := by
    intro j k1 k2 h1 h2 h3 h4
    rw [h2, get_set h1] at hk'
    split at hk'
    · rename_i hj; injection hk' with hk'; subst hk' hj
      rw [hk] at h1; injection h1 with h1; subst h1
      exact ⟨h4, h3⟩
    · rw [hk] at hk'; injection hk' with hk'; subst hk'
      exact ⟨fun i hi => Or.inl hi, rfl⟩
  have tl : ∀ {r0 : Req} {rs : List Req}, s.reqCh = r0 :: rs → ∀ q ∈ rs, q ∈ s.reqCh := by
    intro r0 rs hr q hq; rw [hr]; exact List.mem_cons_of_mem _ hq
  cases hs with
  | accept => rcases he with he | he <;> cases he
  | conn => rcases he with he | he <;> cases he
  | flush => rcases he with he | he <;> cases he
  | skip r rs ht hr => exact plain rfl (tl hr) rfl
  | joinTopic r rs k dest ht hr => exact plain rfl (tl hr) rfl
  | wait r rs k1 dest ht hr hk1 hi hd hq he' hl =>
    obtain ⟨h1, h2⟩ := one hk1 rfl rfl (fun i hi => Or.inl (by rw [deref_putInList]; split; rfl; exact hi))
    refine ⟨tl hr, h1, h2, fun i ⟨d, hd'⟩ => ?_⟩
    dsimp only at hd'
    rw [AMap.list_set] at hd'
    split at hd'
    · rename_i hdd
      rcases List.mem_append.1 hd' with hd' | hd'
      · exact Or.inl ⟨d, by rw [← hdd]; exact hd'⟩
      · rw [List.mem_singleton] at hd'
        subst hd'
        dsimp only at hk1 hl
        rw [hk] at hk1; injection hk1 with hk1; subst hk1
        exact Or.inr ⟨by rw [hr]; exact List.mem_cons_self, hl⟩
    · exact Or.inl ⟨d, hd'⟩
  | take r rs k1 dest m l ht hr hk1 =>
    obtain ⟨h1, h2⟩ := one hk1 rfl rfl (fun i hi => Or.inl (by rw [inList_putFrame]; exact hi))
    exact ⟨tl hr, h1, h2, fun i ⟨d, hd⟩ => Or.inl ⟨d, hd⟩⟩
  | leaveQueue r rs k1 dest ht hr hk1 hi hd hq hm =>
    obtain ⟨h1, h2⟩ := one (k2 := { k1 with heap := putInList k1.heap r.idx false }) hk1 rfl rfl (fun i hi => by
      by_cases hir : r.idx = i
      · exact Or.inr ⟨dest, by rw [← hir]; exact hm⟩
      · exact Or.inl (by rw [deref_putInList_ne _ _ hir]; exact hi))
    refine ⟨tl hr, h1, h2, fun i ⟨d, hd'⟩ => Or.inl ?_⟩
    dsimp only at hd'
    rw [AMap.list_set] at hd'
    split at hd'
    · rename_i hdd; exact ⟨d, by rw [← hdd]; exact List.mem_of_mem_erase hd'⟩
    · exact ⟨d, hd'⟩
  | absent r rs k dest ht hr => exact plain rfl (tl hr) rfl
  | leaveTopic r rs k dest ht hr => exact plain rfl (tl hr) rfl
  | store front m rs dest ht hr => exact plain rfl (tl hr) rfl
  | give front m rs dest r q k1 ht hr hdd hq he' hk1 =>
    obtain ⟨h1, h2⟩ := one (k2 := { k1 with heap := putFrame (putInList k1.heap r.idx false) r.idx (some (m.addressed (deref k1.heap r.idx).id)) }) hk1 rfl rfl (fun i hi => by
      by_cases hir : r.idx = i
      · exact Or.inr ⟨dest, by rw [← hir, he']; exact List.mem_cons_self⟩
      · exact Or.inl (by rw [inList_putFrame, deref_putInList_ne _ _ hir]; exact hi))
    refine ⟨tl hr, h1, h2, fun i ⟨d, hd'⟩ => Or.inl ?_⟩
    dsimp only at hd'
    rw [AMap.list_set] at hd'
    split at hd'
    · rename_i hd2; exact ⟨d, by rw [← hd2, he']; exact List.mem_cons_of_mem _ hd'⟩
    · exact ⟨d, hd'⟩
  | cast m rs dest ht hr => exact plain rfl (tl hr) rfl
  | drop m rs dest ht hr => exact plain rfl (tl hr) rfl
  | pushQueue r t k1 ht hk1 =>
    obtain ⟨h1, h2⟩ := one hk1 rfl rfl (fun i hi => Or.inl hi)
    exact ⟨fun q hq => hq, h1, h2, fun i ⟨d, hd⟩ => Or.inl ⟨d, hd⟩⟩
  | pushTopic dest r m t k1 ht hk1 =>
    obtain ⟨h1, h2⟩ := one hk1 rfl rfl (fun i hi => Or.inl hi)
    exact ⟨fun q hq => hq, h1, h2, fun i ⟨d, hd⟩ => Or.inl ⟨d, hd⟩⟩

theorem settled_run {cfg : Config} {es : List Sys.Ev} {s : Sys} (h : Sys.init.run cfg es = some s) (hc : s.crashed = false) :
    ∀ (c : Nat) (k : Conn), s.conns[c]? = some k → Settled s c k := by
  refine (sys_induction (P := fun s => ∀ (c : Nat) (k : Conn), s.conns[c]? = some k → Settled s c k) (fun c k hk => by cases hk) ?_ es s h hc).2
  intro s e s' hi hp hs c k' hk'
  -- another connection moves
  have still : ∀ {k : Conn}, s.conns[c]? = some k → k' = k → s'.queues = s.queues → (∀ i, .subscribe ⟨c, i⟩ ∈ s'.reqCh → .subscribe ⟨c, i⟩ ∈ s.reqCh) → Settled s' c k' := by
    intro k hk hkk hq hreq
    subst hkk
    have h := hp c k' hk
    refine ⟨h.marked, fun hsim i hl => (h.all hsim i hl).imp_right (fun hx => hx.imp_right ?_), h.run⟩
    rintro ⟨h1, h2⟩
    refine ⟨fun ⟨d, hd⟩ => h1 ⟨d, by rw [← hq]; exact hd⟩, h2.imp_right (fun h3 => ⟨h3.1, fun hx => h3.2 ?_⟩)⟩
    rcases List.mem_append.1 hx with hx | hx
    · exact List.mem_append_left _ (hreq i hx)
    · exact List.mem_append_right _ hx
  have proc : (e = .proc ∨ e = .push) → Settled s' c k' := by
    intro he
    obtain ⟨k, hk, hU⟩ := proc_untouched hs he hk'
    obtain ⟨h1, h2, h3, h4⟩ := proc_marks hs he hk hk'
    have h := hp c k hk
    refine ⟨fun i hl => ?_, fun hsim i hl => ?_, fun hno hst i hl => ?_⟩
    · rw [h3] at hl
      rcases h2 i (h.marked i hl) with h5 | h5
      · exact h5
      · exact absurd h5 (held_alone hi hk hl).1
    · rw [hU.len] at hl
      rw [hU.log]
      unfold InMap
      rw [hU.subs]
      refine (h.all (by rw [← hU.hist]; exact hsim) i hl).imp_right (fun hx => hx.imp_right ?_)
      rintro ⟨h5, h6⟩
      refine ⟨fun hx => ?_, ?_⟩
      · rcases h4 i hx with h7 | ⟨h7, h8⟩
        · exact h5 h7
        · rcases h6 with h6 | ⟨_, h6⟩
          · rw [h8] at h6; cases h6
          · exact h6 (List.mem_append_left _ h7)
      · rcases h6 with h6 | ⟨h6, h7⟩
        · rcases h2 i h6 with h8 | h8
          · exact Or.inl h8
          · exact absurd h8 h5
        · refine Or.inr ⟨by rw [hU.stage]; exact h6, fun hx => h7 ?_⟩
          rw [hU.outbox] at hx
          rcases List.mem_append.1 hx with hx | hx
          · exact List.mem_append_left _ (h1 _ hx)
          · exact List.mem_append_right _ hx
    · rw [hU.len] at hl
      unfold InMap
      rw [hU.subs]
      exact h.run (by rw [← hU.hist]; exact hno) (by rw [← hU.stage]; exact hst) i hl
  have hs0 := hs
  cases hs with
  | accept =>
    dsimp only at hk'
    rw [List.getElem?_append] at hk'
    split at hk'
    · exact still hk' rfl rfl (fun _ h => h)
    · rename_i hlen
      have : k' = Conn.init s.conns.length := by
        cases hj : c - s.conns.length with
        | zero => rw [hj] at hk'; simpa using hk'.symm
        | succ n => rw [hj] at hk'; simp at hk'
      subst this
      exact ⟨fun i hl => (by cases hl), fun _ i hl => absurd hl (Nat.not_lt_zero _), fun _ _ i hl => absurd hl (Nat.not_lt_zero _)⟩
  | conn j ev k0 k0' hk0 hin hst =>
    dsimp only at hk'
    rw [get_set hk0] at hk'
    split at hk'
    · rename_i hj
      injection hk' with hk'; subst hk' hj
      obtain ⟨ces, hr⟩ := hi.run _ k0 hk0
      exact settled_step hi hk0 rfl rfl (gate_run cfg _ ces k0 hr) hin (step_of _ _ _ _ hst) (subsOk_run hr) (openInv_run hr) (hp _ k0 hk0)
    · exact still hk' rfl rfl (fun _ h => h)
  | flush j k0 r0 o hk0 ho hlen =>
    dsimp only at hk'
    rw [get_set hk0] at hk'
    split at hk'
    · rename_i hj
      injection hk' with hk'; subst hk' hj
      have h := hp _ k0 hk0
      refine ⟨h.marked, fun hsim i hl => (h.all hsim i hl).imp_right (fun hx => hx.imp_right ?_), h.run⟩
      rintro ⟨h1, h2⟩
      refine ⟨h1, h2.imp_right (fun h3 => ⟨h3.1, fun hx => h3.2 ?_⟩)⟩
      rw [ho]
      show _ ∈ s.reqCh ++ (r0 :: pending o)
      have hx : _ ∈ s.reqCh ++ [r0] ++ pending o := hx
      rw [List.append_assoc] at hx
      exact hx
    · rename_i hj
      refine still hk' rfl rfl (fun i hx => ?_)
      rcases List.mem_append.1 hx with hx | hx
      · exact hx
      · rw [List.mem_singleton] at hx
        have := ((hi.loc j k0 hk0).refs ⟨c, i⟩ (Or.inl (by show _ ∈ pending k0.outbox; rw [ho, hx]; exact List.mem_cons_self))).1
        exact absurd (this.trans (hi.counted hk0).2).symm hj
  | skip => exact proc (Or.inl rfl)
  | joinTopic => exact proc (Or.inl rfl)
  | wait => exact proc (Or.inl rfl)
  | take => exact proc (Or.inl rfl)
  | leaveQueue => exact proc (Or.inl rfl)
  | absent => exact proc (Or.inl rfl)
  | leaveTopic => exact proc (Or.inl rfl)
  | store => exact proc (Or.inl rfl)
  | give => exact proc (Or.inl rfl)
  | cast => exact proc (Or.inl rfl)
  | drop => exact proc (Or.inl rfl)
  | pushQueue => exact proc (Or.inr rfl)
  | pushTopic => exact proc (Or.inr rfl)

/-! ## After the end -/

theorem closed_step {cfg : Config} {k k' : Conn} {e : Conn.Ev} (hin : Sys.internal e = true) (hs : Step cfg k e k') (hc : k.stage = .closed) :
    k'.stage = .closed ∧ k'.outbox = k.outbox ∧ k'.subCh = k.subCh ∧ k'.writeCh = k.writeCh ∧ k'.heap = k.heap := by
  have sel : k.atSelect = true → False := fun ha => by have := (select_empty ha).1; rw [hc] at this; cases this
  cases hs with
  | recv => exact ⟨hc, rfl, rfl, rfl, rfl⟩
  | readErr => exact ⟨hc, rfl, rfl, rfl, rfl⟩
  | discard m w ho h => rw [hc] at h; rcases h with h | h | h <;> cases h
  | discardEnd st ho hw h => rw [hc] at h; rcases h with ⟨h, _⟩ | ⟨h, _⟩ | ⟨h, _⟩ <;> cases h
  | acklist ho h => rw [hc] at h; cases h
  | drain i l ho h => rw [hc] at h; rcases h with h | h <;> cases h
  | drainEnd st ho hl h => rw [hc] at h; rcases h with ⟨h, _⟩ | ⟨h, _⟩ <;> cases h
  | announce ho h => rw [hc] at h; cases h
  | unsub order ho h => rw [hc] at h; cases h
  | flushed => cases hin
  | setFrame => cases hin
  | setInList => cases hin
  | pushSub => cases hin
  | pushTopic => cases hin
  | frame _ _ _ _ _ _ _ _ ha => exact (sel ha).elim
  | readClosed ha => exact (sel ha).elim
  | wrOk _ _ ha => exact (sel ha).elim
  | wrErr _ _ ha => exact (sel ha).elim
  | wrFail _ _ _ ha => exact (sel ha).elim
  | subGone _ _ _ ha => exact (sel ha).elim
  | subNil _ _ _ _ ha => exact (sel ha).elim
  | subFail _ _ _ _ _ ha => exact (sel ha).elim
  | subAuto _ _ _ _ ha => exact (sel ha).elim
  | subPanic _ _ _ _ ha => exact (sel ha).elim
  | subAdd _ _ _ _ ha => exact (sel ha).elim
  | timerOk ha => exact (sel ha).elim
  | timerFail _ ha => exact (sel ha).elim

/-- The server does not know the connection any more. -/
structure Unknown (c : Nat) (k0 : Conn) (s : Sys) : Prop where
  conn : ∃ k, s.conns[c]? = some k ∧ k.stage = .closed ∧ k.outbox = [] ∧ k.subCh = k0.subCh ∧ k.writeCh = k0.writeCh ∧ k.heap = k0.heap
  over : Spec.Over s c
  queue : Spec.NoQueueHas s c
  topic : Spec.NoTopicHas s c

theorem unknown_step {cfg : Config} {c : Nat} {k0 : Conn} {s s' : Sys} {e : Sys.Ev} (hi : SInv cfg s) (h : Unknown c k0 s) (hs : SysStep cfg s e s') : Unknown c k0 s' := by
  obtain ⟨kc, hkc, hst, hout, hch, hw, hheap⟩ := h.conn
  -- another connection changes
  have other : ∀ {j : Nat} {k1 k2 : Conn}, s.conns[j]? = some k1 → j ≠ c →
      ∃ k, (s.conns.set j k2)[c]? = some k ∧ k.stage = .closed ∧ k.outbox = [] ∧ k.subCh = k0.subCh ∧ k.writeCh = k0.writeCh ∧ k.heap = k0.heap := by
    intro j k1 k2 hj hn
    exact ⟨kc, by rw [get_set hj, if_neg hn]; exact hkc, hst, hout, hch, hw, hheap⟩
  have fewer : ∀ {r0 : Req} {rs : List Req}, s.reqCh = r0 :: rs → ∀ i, .subscribe ⟨c, i⟩ ∉ rs ∧ .unsubscribe ⟨c, i⟩ ∉ rs := by
    intro r0 rs hr i
    have := h.over.asked i
    rw [hr] at this
    exact ⟨fun hm => this.1 (List.mem_cons_of_mem _ hm), fun hm => this.2 (List.mem_cons_of_mem _ hm)⟩
  have notSub : ∀ {r : SubRef} {rs : List Req}, s.reqCh = .subscribe r :: rs → r.conn ≠ c := by
    rintro ⟨rc, ri⟩ rs hr he
    dsimp only at he; subst he
    exact (h.over.asked ri).1 (by rw [hr]; exact List.mem_cons_self)
  have notUn : ∀ {r : SubRef} {rs : List Req}, s.reqCh = .unsubscribe r :: rs → r.conn ≠ c := by
    rintro ⟨rc, ri⟩ rs hr he
    dsimp only at he; subst he
    exact (h.over.asked ri).2 (by rw [hr]; exact List.mem_cons_self)
  have setAdd : ∀ (m : AMap (List SubRef)) (dest : Bytes) (r : SubRef), (∀ d, ∀ x ∈ m.list d, x.conn ≠ c) → r.conn ≠ c → ∀ d, ∀ x ∈ (m.set dest (m.list dest ++ [r])).list d, x.conn ≠ c := by
    intro m dest r hm hr d x hx
    rw [AMap.list_set] at hx
    split at hx
    · rcases List.mem_append.1 hx with hx | hx
      · exact hm _ x hx
      · rw [List.mem_singleton] at hx; subst hx; exact hr
    · exact hm _ x hx
  have setErase : ∀ (m : AMap (List SubRef)) (dest : Bytes) (r : SubRef), (∀ d, ∀ x ∈ m.list d, x.conn ≠ c) → ∀ d, ∀ x ∈ (m.set dest ((m.list dest).erase r)).list d, x.conn ≠ c := by
    intro m dest r hm d x hx
    rw [AMap.list_set] at hx
    split at hx
    · exact hm _ x (List.mem_of_mem_erase hx)
    · exact hm _ x hx
  cases hs with
  | accept =>
    have hc : (s.conns ++ [Conn.init s.conns.length])[c]? = some kc := by
      rw [List.getElem?_append_left (List.getElem?_eq_some_iff.1 hkc).1]; exact hkc
    exact ⟨⟨kc, hc, hst, hout, hch, hw, hheap⟩, ⟨⟨kc, hc, hst⟩, h.over.asked, h.over.queue, h.over.topic⟩, h.queue, h.topic⟩
  | conn j ev k k' hk hin hstp =>
    have hcn : ∃ k, (s.conns.set j k')[c]? = some k ∧ k.stage = .closed ∧ k.outbox = [] ∧ k.subCh = k0.subCh ∧ k.writeCh = k0.writeCh ∧ k.heap = k0.heap := by
      by_cases hj : j = c
      · subst hj
        rw [hkc] at hk; injection hk with hk; subst hk
        obtain ⟨a1, a2, a3, a4, a5⟩ := closed_step hin (step_of _ _ _ _ hstp) hst
        exact ⟨k', by rw [get_set hkc, if_pos rfl], a1, a2.trans hout, a3.trans hch, a4.trans hw, a5.trans hheap⟩
      · exact other hk hj
    refine ⟨hcn, ⟨?_, h.over.asked, h.over.queue, h.over.topic⟩, h.queue, h.topic⟩
    obtain ⟨k, h1, h2, _⟩ := hcn
    exact ⟨k, h1, h2⟩
  | flush j k r0 o hk ho hlen =>
    have hj : j ≠ c := by
      rintro rfl
      rw [hkc] at hk; injection hk with hk; subst hk
      rw [hout] at ho; cases ho
    have hcn := other (k2 := { k with outbox := o }) hk hj
    have hne : ∀ i, r0 ≠ .subscribe ⟨c, i⟩ ∧ r0 ≠ .unsubscribe ⟨c, i⟩ := by
      intro i
      have hm : r0 ∈ k.core.pend := by
        show r0 ∈ pending k.outbox
        rw [ho]; exact List.mem_cons_self
      have href := (hi.loc j k hk).refs ⟨c, i⟩
      have hme := (hi.counted hk).2
      constructor
      · rintro rfl
        exact hj (by rw [← hme]; exact (href (Or.inl hm)).1.symm)
      · rintro rfl
        exact hj (by rw [← hme]; exact (href (Or.inr hm)).1.symm)
    refine ⟨hcn, ⟨?_, fun i => ⟨fun hm => ?_, fun hm => ?_⟩, h.over.queue, h.over.topic⟩, h.queue, h.topic⟩
    · obtain ⟨k, h1, h2, _⟩ := hcn
      exact ⟨k, h1, h2⟩
    · rcases List.mem_append.1 hm with hm | hm
      · exact (h.over.asked i).1 hm
      · rw [List.mem_singleton] at hm; exact (hne i).1 hm.symm
    · rcases List.mem_append.1 hm with hm | hm
      · exact (h.over.asked i).2 hm
      · rw [List.mem_singleton] at hm; exact (hne i).2 hm.symm
  | skip r rs ht hr => exact ⟨h.conn, ⟨h.over.ended, fewer hr, h.over.queue, h.over.topic⟩, h.queue, h.topic⟩
  | joinTopic r rs k dest ht hr hk =>
    exact ⟨h.conn, ⟨h.over.ended, fewer hr, h.over.queue, h.over.topic⟩, h.queue, setAdd _ _ _ h.topic (notSub hr)⟩
  | wait r rs k dest ht hr hk =>
    have hcn := other (k2 := { k with heap := putInList k.heap r.idx true }) hk (notSub hr)
    obtain ⟨k9, h1, h2, _⟩ := id hcn
    exact ⟨hcn, ⟨⟨k9, h1, h2⟩, fewer hr, h.over.queue, h.over.topic⟩, setAdd _ _ _ h.queue (notSub hr), h.topic⟩
  | take r rs k dest m l ht hr hk =>
    have hcn := other (k2 := { k with heap := putFrame k.heap r.idx (some (m.addressed (deref k.heap r.idx).id)) }) hk (notSub hr)
    obtain ⟨k9, h1, h2, _⟩ := id hcn
    refine ⟨hcn, ⟨⟨k9, h1, h2⟩, fewer hr, fun i hm => ?_, fun d i m hm => ?_⟩, h.queue, h.topic⟩
    · rw [List.mem_singleton] at hm; injection hm with hm
      exact notSub hr (by rw [← hm])
    · rw [List.mem_singleton] at hm; cases hm
  | leaveQueue r rs k dest ht hr hk =>
    have hcn := other (k2 := { k with heap := putInList k.heap r.idx false }) hk (notUn hr)
    obtain ⟨k9, h1, h2, _⟩ := id hcn
    exact ⟨hcn, ⟨⟨k9, h1, h2⟩, fewer hr, h.over.queue, h.over.topic⟩, setErase _ _ _ h.queue, h.topic⟩
  | absent r rs k dest ht hr => exact ⟨h.conn, ⟨h.over.ended, fewer hr, h.over.queue, h.over.topic⟩, h.queue, h.topic⟩
  | leaveTopic r rs k dest ht hr =>
    exact ⟨h.conn, ⟨h.over.ended, fewer hr, h.over.queue, h.over.topic⟩, h.queue, setErase _ _ _ h.topic⟩
  | store front m rs dest ht hr => exact ⟨h.conn, ⟨h.over.ended, fewer hr, h.over.queue, h.over.topic⟩, h.queue, h.topic⟩
  | give front m rs dest r q k ht hr hdd hq he hk =>
    have hne : r.conn ≠ c := h.queue dest r (by rw [he]; exact List.mem_cons_self)
    have hcn := other (k2 := { k with heap := putFrame (putInList k.heap r.idx false) r.idx (some (m.addressed (deref k.heap r.idx).id)) }) hk hne
    obtain ⟨k9, h1, h2, _⟩ := id hcn
    refine ⟨hcn, ⟨⟨k9, h1, h2⟩, fewer hr, fun i hm => ?_, fun d i m hm => ?_⟩, ?_, h.topic⟩
    · rw [List.mem_singleton] at hm; injection hm with hm
      exact hne (by rw [← hm])
    · rw [List.mem_singleton] at hm; cases hm
    · intro d x hx
      dsimp only at hx
      rw [AMap.list_set] at hx
      split at hx
      · exact h.queue dest x (by rw [he]; exact List.mem_cons_of_mem _ hx)
      · exact h.queue d x hx
  | cast m rs dest ht hr =>
    refine ⟨h.conn, ⟨h.over.ended, fewer hr, fun i hm => ?_, fun d i m hm => ?_⟩, h.queue, h.topic⟩
    · obtain ⟨x, _, hx⟩ := List.mem_map.1 hm; cases hx
    · obtain ⟨x, hx1, hx⟩ := List.mem_map.1 hm
      injection hx with _ hx
      exact h.topic _ x hx1 (by rw [hx])
  | drop m rs dest ht hr => exact ⟨h.conn, ⟨h.over.ended, fewer hr, h.over.queue, h.over.topic⟩, h.queue, h.topic⟩
  | pushQueue r t k ht hk =>
    have hne : r.conn ≠ c := by
      obtain ⟨rc, ri⟩ := r
      rintro rfl
      exact h.over.queue ri (by rw [ht]; exact List.mem_cons_self)
    have hcn := other (k2 := { k with subCh := k.subCh ++ [r.idx] }) hk hne
    obtain ⟨k9, h1, h2, _⟩ := id hcn
    exact ⟨hcn, ⟨⟨k9, h1, h2⟩, h.over.asked, fun i hm => h.over.queue i (by rw [ht]; exact List.mem_cons_of_mem _ hm),
      fun d i m hm => h.over.topic d i m (by rw [ht]; exact List.mem_cons_of_mem _ hm)⟩, h.queue, h.topic⟩
  | pushTopic dest r m t k ht hk =>
    have hne : r.conn ≠ c := by
      obtain ⟨rc, ri⟩ := r
      rintro rfl
      exact h.over.topic dest ri m (by rw [ht]; exact List.mem_cons_self)
    have hcn := other (k2 := { k with writeCh := k.writeCh ++ [m.addressed (deref k.heap r.idx).id] }) hk hne
    obtain ⟨k9, h1, h2, _⟩ := id hcn
    exact ⟨hcn, ⟨⟨k9, h1, h2⟩, h.over.asked, fun i hm => h.over.queue i (by rw [ht]; exact List.mem_cons_of_mem _ hm),
      fun d i m hm => h.over.topic d i m (by rw [ht]; exact List.mem_cons_of_mem _ hm)⟩, h.queue, h.topic⟩

end Stomp.Server
