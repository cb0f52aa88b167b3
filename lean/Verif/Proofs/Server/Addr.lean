import Verif.Proofs.Server.Lift
/-! # Destinations: what is where -/
namespace Stomp.Server
open Stomp
open Stomp.Spec (firstValue)

/-- A message allocated to a queue subscription. -/
def QueueFor (x : Sub) (m : Msg) : Prop :=
  firstValue m.frame.header Hdr.subscription = some x.id ∧ firstValue m.frame.header Hdr.destination = some x.dest ∧ isQueueDestination x.dest = true

/-- A message for a topic subscription. -/
def TopicFor (x : Sub) (m : Msg) : Prop :=
  firstValue m.frame.header Hdr.subscription = some x.id ∧ firstValue m.frame.header Hdr.destination = some x.dest ∧ isQueueDestination x.dest = false

/-- A message for a queue. -/
def QueueMsg (m : Msg) : Prop := ∃ d, firstValue m.frame.header Hdr.destination = some d ∧ isQueueDestination d = true

/-- Subscriptions and messages are where their destinations say. -/
structure Addr (s : Sys) : Prop where
  q : ∀ d, ∀ r ∈ s.queues.list d, isQueueDestination d = true ∧ ∃ x, look s.conns r = some x ∧ x.dest = d
  t : ∀ d, ∀ r ∈ s.topics.list d, isQueueDestination d = false ∧ ∃ x, look s.conns r = some x ∧ x.dest = d
  store : ∀ d, ∀ m ∈ s.store.list d, isQueueDestination d = true ∧ firstValue m.frame.header Hdr.destination = some d
  core : ∀ (c : Nat) (k : Conn), s.conns[c]? = some k → k.core.Held QueueFor QueueMsg
  req : ∀ m, .requeue (some m) ∈ s.reqCh → QueueMsg m
  todo : ∀ d r m, .topic d r m ∈ s.todo → firstValue m.frame.header Hdr.destination = some d
  wr : ∀ (c : Nat) (k : Conn), s.conns[c]? = some k → ∀ m ∈ k.writeCh, ∃ i, i < k.heap.length ∧ TopicFor (deref k.heap i) m
  dropped : s.dropped = []
  qkeys : ∀ e ∈ s.qlog, isQueueDestination e.1 = true
  tkeys : ∀ e ∈ s.tlog, isQueueDestination e.1 = false

theorem firstValue_alloc (m : Msg) (n : Nat) (a : Option Bytes) (k : Bytes) (h1 : Hdr.messageId ≠ k) (h2 : Hdr.id ≠ k) (h3 : Hdr.ack ≠ k) :
    firstValue (m.alloc n a).frame.header k = firstValue m.frame.header k := by
  show firstValue (allocFrame n m.frame a).header k = _
  unfold allocFrame
  split
  · dsimp only
    cases a with
    | none => dsimp only; rw [firstValue_del, if_neg h3, firstValue_set, if_neg h2, firstValue_set, if_neg h1]
    | some a =>
      dsimp only
      split
      · rw [firstValue_del, if_neg h3, firstValue_set, if_neg h2, firstValue_set, if_neg h1]
      · rw [firstValue_set, if_neg h3, firstValue_set, if_neg h2, firstValue_set, if_neg h1]
  · rfl

theorem firstValue_addressed (m : Msg) (id : Bytes) : firstValue (m.addressed id).frame.header Hdr.subscription = some id := by
  show firstValue (m.frame.header.set _ _) _ = _
  rw [firstValue_set, if_pos rfl]

theorem destination_addressed (m : Msg) (id : Bytes) :
    firstValue (m.addressed id).frame.header Hdr.destination = firstValue m.frame.header Hdr.destination := by
  show firstValue (m.frame.header.set _ _) _ = _
  rw [firstValue_set, if_neg (by decide)]

theorem QueueFor.alloc (x : Sub) (m : Msg) (n : Nat) (h : QueueFor x m) : QueueFor x (m.alloc n (some x.ack)) := by
  refine ⟨?_, ?_, h.2.2⟩
  · rw [firstValue_alloc _ _ _ _ (by decide) (by decide) (by decide)]; exact h.1
  · rw [firstValue_alloc _ _ _ _ (by decide) (by decide) (by decide)]; exact h.2.1

theorem QueueFor.msg (x : Sub) (m : Msg) (h : QueueFor x m) : QueueMsg m := ⟨x.dest, h.2.1, h.2.2⟩

theorem look_fixed {conns : List Conn} {c : Nat} {k k' : Conn} {r : SubRef} {x : Sub} (hk : conns[c]? = some k)
    (hl : k.heap.length ≤ k'.heap.length) (hfx : ∀ i, i < k.heap.length → (deref k'.heap i).fixed = (deref k.heap i).fixed)
    (hx : look conns r = some x) : ∃ y, look (conns.set c k') r = some y ∧ y.fixed = x.fixed := by
  obtain ⟨k0, hk0, hlt, hd⟩ := look_some hx
  by_cases hc : c = r.conn
  · rw [← hc, hk] at hk0
    injection hk0 with hk0; subst hk0
    refine ⟨_, look_of (k := k') (by rw [get_set hk, if_pos hc]) (by omega), ?_⟩
    rw [hfx _ hlt, hd]
  · refine ⟨x, ?_, rfl⟩
    rw [look_set hk, if_neg hc]; exact hx

theorem held_putFrame {a : Core} (h : a.Held QueueFor QueueMsg) (i : Nat) (m : Msg) (hm : QueueFor (deref a.heap i).fixed m) :
    Core.Held QueueFor QueueMsg { a with heap := putFrame a.heap i (some m) } := by
  refine ⟨fun j x hx => ?_, h.req⟩
  dsimp only at hx ⊢
  rw [fixed_putFrame]
  rw [deref_putFrame] at hx
  split at hx
  · rename_i hij
    injection hx with hx; subst hx; rw [← hij.1]; exact hm
  · exact h.heap j x hx

theorem held_putInList {a : Core} (h : a.Held QueueFor QueueMsg) (i : Nat) (b : Bool) :
    Core.Held QueueFor QueueMsg { a with heap := putInList a.heap i b } := by
  refine ⟨fun j x hx => ?_, h.req⟩
  dsimp only at hx ⊢
  rw [fixed_putInList]
  rw [frame_putInList] at hx
  exact h.heap j x hx

theorem conns_set {Q : Nat → Conn → Prop} {conns : List Conn} (h : ∀ (c : Nat) (k : Conn), conns[c]? = some k → Q c k) {c : Nat} {k k' : Conn}
    (hk : conns[c]? = some k) (hp : Q c k') : ∀ (j : Nat) (x : Conn), (conns.set c k')[j]? = some x → Q j x := by
  intro j x hx
  rw [get_set hk] at hx
  split at hx
  · rename_i hj; injection hx with hx; subst hx hj; exact hp
  · exact h j x hx

theorem list_snoc {q : AMap (List SubRef)} {d : Bytes} {r x : SubRef} {e : Bytes} (h : x ∈ (q.set d (q.list d ++ [r])).list e) :
    x ∈ q.list e ∨ (e = d ∧ x = r) := by
  rw [AMap.list_set] at h
  split at h
  · rename_i he
    rw [mem_append_one] at h
    rcases h with h | h
    · left; rw [← he]; exact h
    · exact Or.inr ⟨he.symm, h⟩
  · exact Or.inl h

theorem list_sub {q : AMap (List SubRef)} {d : Bytes} {l : List SubRef} (hl : ∀ x ∈ l, x ∈ q.list d) {x : SubRef} {e : Bytes} (h : x ∈ (q.set d l).list e) :
    x ∈ q.list e := by
  rw [AMap.list_set] at h
  split at h
  · rename_i he; rw [← he]; exact hl x h
  · exact h

theorem Addr.init : Addr Sys.init := by
  refine ⟨?_, ?_, ?_, ?_, ?_, ?_, ?_, rfl, ?_, ?_⟩ <;> simp [Sys.init, AMap.list, AMap.get?]

theorem addr_step {cfg : Config} {s s' : Sys} {e : Sys.Ev} (hi : SInv cfg s) (h : Addr s) (hs : SysStep cfg s e s') : Addr s' := by
  have tl : ∀ {r : Req} {rs : List Req}, s.reqCh = r :: rs → ∀ m, .requeue (some m) ∈ rs → QueueMsg m :=
    fun hr m hm => h.req m (by rw [hr]; exact List.mem_cons_of_mem _ hm)
  -- when only one connection changes and its subscriptions stay
  have onQ : ∀ {c : Nat} {k k' : Conn}, s.conns[c]? = some k → k.heap.length ≤ k'.heap.length →
      (∀ i, i < k.heap.length → (deref k'.heap i).fixed = (deref k.heap i).fixed) → ∀ {r : SubRef} {d : Bytes}, (∃ x, look s.conns r = some x ∧ x.dest = d) →
      ∃ x, look (s.conns.set c k') r = some x ∧ x.dest = d := by
    rintro c k k' hk hl hf r d ⟨x, hx, hd⟩
    obtain ⟨y, hy, hyx⟩ := look_fixed hk hl hf hx
    exact ⟨y, hy, by have := congrArg Sub.dest hyx; exact this.trans hd⟩
  have onW : ∀ {k k' : Conn} {m : Msg}, k.heap.length ≤ k'.heap.length → (∀ i, i < k.heap.length → (deref k'.heap i).fixed = (deref k.heap i).fixed) →
      (∃ i, i < k.heap.length ∧ TopicFor (deref k.heap i) m) → ∃ i, i < k'.heap.length ∧ TopicFor (deref k'.heap i) m := by
    rintro k k' m hl hf ⟨i, hi, hm⟩
    refine ⟨i, by omega, ?_⟩
    have e1 := congrArg Sub.id (hf i hi)
    have e2 := congrArg Sub.dest (hf i hi)
    have e1 : (deref k'.heap i).id = (deref k.heap i).id := e1
    have e2 : (deref k'.heap i).dest = (deref k.heap i).dest := e2
    unfold TopicFor
    rw [e1, e2]; exact hm
  cases hs with
  | accept =>
    have hl : ∀ r x, look s.conns r = some x → look (s.conns ++ [Conn.init s.conns.length]) r = some x := by
      intro r x hx
      obtain ⟨k, hk, hl, hd⟩ := look_some hx
      have hlt := (List.getElem?_eq_some_iff.1 hk).1
      rw [← hd]
      exact look_of (by rw [List.getElem?_append_left hlt]; exact hk) hl
    have hg : ∀ (c : Nat) (k : Conn), (s.conns ++ [Conn.init s.conns.length])[c]? = some k → s.conns[c]? = some k ∨ k = Conn.init c := by
      intro c k hk
      by_cases hlt : c < s.conns.length
      · rw [List.getElem?_append_left hlt] at hk; exact Or.inl hk
      · rw [List.getElem?_append_right (by omega)] at hk
        have : c = s.conns.length := by
          cases hn : c - s.conns.length with
          | zero => omega
          | succ n => rw [hn] at hk; simp at hk
        subst this
        simp at hk
        exact Or.inr hk.symm
    refine ⟨?_, ?_, h.store, ?_, h.req, h.todo, ?_, h.dropped, h.qkeys, h.tkeys⟩
    · intro d r hr
      obtain ⟨h1, x, hx, hd⟩ := h.q d r hr
      exact ⟨h1, x, hl r x hx, hd⟩
    · intro d r hr
      obtain ⟨h1, x, hx, hd⟩ := h.t d r hr
      exact ⟨h1, x, hl r x hx, hd⟩
    · intro c k hk
      rcases hg c k hk with hk | rfl
      · exact h.core c k hk
      · refine ⟨?_, ?_⟩ <;> simp [Conn.init, Conn.core, pending, deref, default, instInhabitedSub.default]
    · intro c k hk
      rcases hg c k hk with hk | rfl
      · exact h.wr c k hk
      · simp [Conn.init]
  | conn c e k k' hk hin hst =>
    have hm := mics_conn hi hk hin hst
    have he := hm.evol
    have hf : ∀ i, i < k.heap.length → (deref k'.heap i).fixed = (deref k.heap i).fixed := he.fixed
    have hlen : k.heap.length ≤ k'.heap.length := he.len
    refine ⟨fun d r hr => ⟨(h.q d r hr).1, onQ hk hlen hf (h.q d r hr).2⟩, fun d r hr => ⟨(h.t d r hr).1, onQ hk hlen hf (h.t d r hr).2⟩, h.store,
      conns_set h.core hk (hm.held (h.core c k hk) QueueFor.alloc QueueFor.msg), h.req, h.todo,
      conns_set h.wr hk (fun m hmm => onW hlen hf (h.wr c k hk m (hm.writeCh m hmm))), h.dropped, h.qkeys, h.tkeys⟩
  | flush c k r o hk ho hc =>
    have hc0 := h.core c k hk
    have hcp : k.core.pend = r :: pending o := by show pending k.outbox = _; rw [ho]; rfl
    refine ⟨fun d r hr => ⟨(h.q d r hr).1, onQ (k' := { k with outbox := o }) hk (Nat.le_refl _) (fun _ _ => rfl) (h.q d r hr).2⟩,
      fun d r hr => ⟨(h.t d r hr).1, onQ (k' := { k with outbox := o }) hk (Nat.le_refl _) (fun _ _ => rfl) (h.t d r hr).2⟩, h.store,
      conns_set h.core hk ⟨hc0.heap, ?_⟩, ?_, h.todo, conns_set h.wr hk (h.wr c k hk), h.dropped, h.qkeys, h.tkeys⟩
    · intro m hm; exact hc0.req m (by rw [hcp]; exact List.mem_cons_of_mem _ hm)
    · intro m hm
      dsimp only at hm
      rw [mem_append_one] at hm
      rcases hm with hm | hm
      · exact h.req m hm
      · exact hc0.req m (by rw [hcp, ← hm]; simp)
  | skip r rs ht hr => exact ⟨h.q, h.t, h.store, h.core, tl hr, h.todo, h.wr, h.dropped, h.qkeys, h.tkeys⟩
  | joinTopic r rs k dest ht hr hk hidx hd hq =>
    refine ⟨h.q, ?_, h.store, h.core, tl hr, h.todo, h.wr, h.dropped, h.qkeys, ?_⟩
    · intro d x hx
      rcases list_snoc hx with hx | ⟨rfl, rfl⟩
      · exact h.t d x hx
      · exact ⟨hq, _, look_of hk hidx, hd⟩
    · intro e he
      dsimp only at he
      rw [mem_append_one] at he
      rcases he with he | rfl
      · exact h.tkeys e he
      · exact hq
  | wait r rs k dest ht hr hk hidx hd hq he hl =>
    have hlen : k.heap.length ≤ (putInList k.heap r.idx true).length := by rw [putInList_length]; exact Nat.le_refl _
    refine ⟨?_, fun d r hr => ⟨(h.t d r hr).1, onQ hk hlen (fun _ _ => fixed_putInList _ _ _ _) (h.t d r hr).2⟩, h.store,
      conns_set h.core hk (held_putInList (h.core _ k hk) _ _), tl hr, h.todo,
      conns_set h.wr hk (fun m hm => onW hlen (fun _ _ => fixed_putInList _ _ _ _) (h.wr _ k hk m hm)), h.dropped, ?_, h.tkeys⟩
    · intro d x hx
      rcases list_snoc hx with hx | ⟨rfl, rfl⟩
      · exact ⟨(h.q d x hx).1, onQ hk hlen (fun _ _ => fixed_putInList _ _ _ _) (h.q d x hx).2⟩
      · exact ⟨hq, onQ hk hlen (fun _ _ => fixed_putInList _ _ _ _) ⟨_, look_of hk hidx, hd⟩⟩
    · intro e he
      dsimp only at he
      rw [mem_append_one] at he
      rcases he with he | rfl
      · exact h.qkeys e he
      · exact hq
  | take r rs k dest m l ht hr hk hidx hd hq hm hfr =>
    have hlen : k.heap.length ≤ (putFrame k.heap r.idx (some (m.addressed (deref k.heap r.idx).id))).length := by rw [putFrame_length]; exact Nat.le_refl _
    have hqf : QueueFor (deref k.heap r.idx).fixed (m.addressed (deref k.heap r.idx).id) :=
      ⟨firstValue_addressed _ _, by rw [destination_addressed]; show _ = some (deref k.heap r.idx).dest; rw [hd]; exact (h.store dest m (by rw [hm]; simp)).2,
        by show isQueueDestination (deref k.heap r.idx).dest = true; rw [hd]; exact hq⟩
    refine ⟨fun d r hr => ⟨(h.q d r hr).1, onQ hk hlen (fun _ _ => fixed_putFrame _ _ _ _) (h.q d r hr).2⟩,
      fun d r hr => ⟨(h.t d r hr).1, onQ hk hlen (fun _ _ => fixed_putFrame _ _ _ _) (h.t d r hr).2⟩, ?_,
      conns_set h.core hk (held_putFrame (h.core _ k hk) _ _ hqf), tl hr, by simp,
      conns_set h.wr hk (fun m hm => onW hlen (fun _ _ => fixed_putFrame _ _ _ _) (h.wr _ k hk m hm)), h.dropped, ?_, h.tkeys⟩
    · intro d x hx
      dsimp only at hx
      rw [AMap.list_set] at hx
      split at hx
      · rename_i hdd; rw [← hdd]; exact h.store dest x (by rw [hm]; exact List.mem_cons_of_mem _ hx)
      · exact h.store d x hx
    · intro e he
      dsimp only at he
      rw [mem_append_one] at he
      rcases he with he | rfl
      · exact h.qkeys e he
      · exact hq
  | leaveQueue r rs k dest ht hr hk hidx hd hq hm =>
    have hlen : k.heap.length ≤ (putInList k.heap r.idx false).length := by rw [putInList_length]; exact Nat.le_refl _
    refine ⟨?_, fun d r hr => ⟨(h.t d r hr).1, onQ hk hlen (fun _ _ => fixed_putInList _ _ _ _) (h.t d r hr).2⟩, h.store,
      conns_set h.core hk (held_putInList (h.core _ k hk) _ _), tl hr, h.todo,
      conns_set h.wr hk (fun m hm => onW hlen (fun _ _ => fixed_putInList _ _ _ _) (h.wr _ k hk m hm)), h.dropped, ?_, h.tkeys⟩
    · intro d x hx
      have hx := list_sub (fun y hy => List.mem_of_mem_erase hy) hx
      exact ⟨(h.q d x hx).1, onQ hk hlen (fun _ _ => fixed_putInList _ _ _ _) (h.q d x hx).2⟩
    · intro e he
      dsimp only at he
      rw [mem_append_one] at he
      rcases he with he | rfl
      · exact h.qkeys e he
      · exact hq
  | absent r rs k dest ht hr => exact ⟨h.q, h.t, h.store, h.core, tl hr, h.todo, h.wr, h.dropped, h.qkeys, h.tkeys⟩
  | leaveTopic r rs k dest ht hr hk hidx hd hq =>
    refine ⟨h.q, ?_, h.store, h.core, tl hr, h.todo, h.wr, h.dropped, h.qkeys, ?_⟩
    · intro d x hx
      exact h.t d x (list_sub (fun y hy => List.mem_of_mem_erase hy) hx)
    · intro e he
      dsimp only at he
      rw [mem_append_one] at he
      rcases he with he | rfl
      · exact h.tkeys e he
      · exact hq
  | store front m rs dest ht hr hdd hq he =>
    rw [contains_eq] at hdd
    refine ⟨h.q, h.t, ?_, h.core, tl hr, h.todo, h.wr, h.dropped, ?_, h.tkeys⟩
    · intro d x hx
      dsimp only at hx
      rw [AMap.list_set] at hx
      split at hx
      · rename_i hd0
        subst hd0
        cases front with
        | true =>
          rw [if_pos rfl] at hx
          rcases List.mem_cons.1 hx with hx | hx
          · subst hx; exact ⟨hq, hdd⟩
          · exact h.store dest x hx
        | false =>
          rw [if_neg (by simp), mem_append_one] at hx
          rcases hx with hx | hx
          · exact h.store dest x hx
          · subst hx; exact ⟨hq, hdd⟩
      · exact h.store d x hx
    · intro e he
      dsimp only at he
      rw [mem_append_one] at he
      rcases he with he | rfl
      · exact h.qkeys e he
      · exact hq
  | give front m rs dest r q k ht hr hdd hq he hk hidx hfr =>
    rw [contains_eq] at hdd
    have hdest : (deref k.heap r.idx).dest = dest := by
      obtain ⟨x, hx, hd⟩ := (h.q dest r (by rw [he]; simp)).2
      rw [look_of hk hidx] at hx; injection hx with hx; rw [hx]; exact hd
    have hfx : ∀ i, (deref (putFrame (putInList k.heap r.idx false) r.idx (some (m.addressed (deref k.heap r.idx).id))) i).fixed = (deref k.heap i).fixed :=
      fun i => (fixed_putFrame _ _ _ _).trans (fixed_putInList _ _ _ _)
    have hlen : k.heap.length ≤ (putFrame (putInList k.heap r.idx false) r.idx (some (m.addressed (deref k.heap r.idx).id))).length := by
      rw [putFrame_length, putInList_length]; exact Nat.le_refl _
    have hqf : QueueFor (deref (putInList k.heap r.idx false) r.idx).fixed (m.addressed (deref k.heap r.idx).id) := by
      rw [fixed_putInList]
      exact ⟨firstValue_addressed _ _, by rw [destination_addressed]; show _ = some (deref k.heap r.idx).dest; rw [hdest]; exact hdd,
        by show isQueueDestination (deref k.heap r.idx).dest = true; rw [hdest]; exact hq⟩
    refine ⟨?_, fun d r hr => ⟨(h.t d r hr).1, onQ hk hlen (fun i _ => hfx i) (h.t d r hr).2⟩, h.store,
      conns_set h.core hk (held_putFrame (held_putInList (h.core _ k hk) _ _) _ _ hqf), tl hr, by simp,
      conns_set h.wr hk (fun m hm => onW hlen (fun i _ => hfx i) (h.wr _ k hk m hm)), h.dropped, ?_, h.tkeys⟩
    · intro d x hx
      have hx := list_sub (fun y hy => by rw [he]; exact List.mem_cons_of_mem _ hy) hx
      exact ⟨(h.q d x hx).1, onQ hk hlen (fun i _ => hfx i) (h.q d x hx).2⟩
    · intro e hee
      simp only [List.mem_append, List.mem_cons, List.not_mem_nil, or_false] at hee
      rcases hee with hee | rfl | rfl
      · exact h.qkeys e hee
      · exact hq
      · exact hq
  | cast m rs dest ht hr hdd hq =>
    rw [contains_eq] at hdd
    refine ⟨h.q, h.t, h.store, h.core, tl hr, ?_, h.wr, h.dropped, h.qkeys, ?_⟩
    · intro d r x hx
      simp only [List.mem_map] at hx
      obtain ⟨z, hz, e⟩ := hx
      injection e with e1 e2 e3
      subst e1 e3; exact hdd
    · intro e he
      dsimp only at he
      rw [mem_append_one] at he
      rcases he with he | rfl
      · exact h.tkeys e he
      · exact hq
  | drop m rs dest ht hr hdd hq =>
    exfalso
    rw [contains_eq] at hdd
    obtain ⟨d, h1, h2⟩ := h.req m (by rw [hr]; simp)
    rw [hdd] at h1; injection h1 with h1; subst h1
    rw [hq] at h2; cases h2
  | pushQueue r t k ht hk hc =>
    have hc0 := h.core _ k hk
    exact ⟨fun d x hr => ⟨(h.q d x hr).1, onQ (k' := { k with subCh := k.subCh ++ [r.idx] }) hk (Nat.le_refl _) (fun _ _ => rfl) (h.q d x hr).2⟩,
      fun d x hr => ⟨(h.t d x hr).1, onQ (k' := { k with subCh := k.subCh ++ [r.idx] }) hk (Nat.le_refl _) (fun _ _ => rfl) (h.t d x hr).2⟩, h.store,
      conns_set h.core hk ⟨hc0.heap, hc0.req⟩, h.req, fun d x m hm => h.todo d x m (by rw [ht]; exact List.mem_cons_of_mem _ hm),
      conns_set h.wr hk (h.wr _ k hk), h.dropped, h.qkeys, h.tkeys⟩
  | pushTopic dest r m t k ht hk hfr hc =>
    have hc0 := h.core _ k hk
    obtain ⟨hnq, x, hx, hxd⟩ := h.t dest r (hi.due dest r m (by rw [ht]; simp))
    obtain ⟨k0, hk0, hlt, hdx⟩ := look_some hx
    rw [hk] at hk0; injection hk0 with hk0; subst hk0
    refine ⟨fun d x hr => ⟨(h.q d x hr).1, onQ (k' := { k with writeCh := k.writeCh ++ [m.addressed (deref k.heap r.idx).id] }) hk (Nat.le_refl _) (fun _ _ => rfl) (h.q d x hr).2⟩,
      fun d x hr => ⟨(h.t d x hr).1, onQ (k' := { k with writeCh := k.writeCh ++ [m.addressed (deref k.heap r.idx).id] }) hk (Nat.le_refl _) (fun _ _ => rfl) (h.t d x hr).2⟩, h.store,
      conns_set h.core hk ⟨hc0.heap, hc0.req⟩, h.req, fun d x m hm => h.todo d x m (by rw [ht]; exact List.mem_cons_of_mem _ hm),
      conns_set h.wr hk (fun y hy => ?_), h.dropped, h.qkeys, ?_⟩
    · dsimp only at hy
      rw [mem_append_one] at hy
      rcases hy with hy | rfl
      · exact h.wr _ k hk y hy
      · refine ⟨r.idx, hlt, firstValue_addressed _ _, ?_, ?_⟩
        · rw [destination_addressed]
          show _ = some (deref k.heap r.idx).dest
          rw [hdx, hxd]; exact h.todo dest r m (by rw [ht]; simp)
        · show isQueueDestination (deref k.heap r.idx).dest = false
          rw [hdx, hxd]; exact hnq
    · intro e he
      dsimp only at he
      rw [mem_append_one] at he
      rcases he with he | rfl
      · exact h.tkeys e he
      · exact hnq

theorem addr_run {cfg : Config} {es : List Sys.Ev} {s : Sys} (h : Sys.init.run cfg es = some s) (hc : s.crashed = false) : Addr s :=
  (sys_induction Addr.init (fun _ _ _ hi hp hs => addr_step hi hp hs) es s h hc).2

end Stomp.Server
