import Verif.Proofs.Server.SysStep
/-! # Subscriptions in the server: every subscription is in at most one place -/
namespace Stomp.Server
open Stomp

/-- The subscription a pointer points to. -/
def look (conns : List Conn) (r : SubRef) : Option Sub := conns[r.conn]?.bind (fun k => k.heap[r.idx]?)

/-- How often a subscription is held by its connection. -/
def held (conns : List Conn) (r : SubRef) : Nat := match conns[r.conn]? with | none => 0 | some k => k.core.tok r.idx

/-- The subscriptions the processor is asked to put back. -/
def reqSubs (l : List Req) : List SubRef := l.filterMap (fun | .subscribe r => some r | _ => none)

/-- The subscriptions about to be handed to their connection. -/
def todoSubs (l : List Delivery) : List SubRef := l.filterMap (fun | .queue r => some r | _ => none)

/-- How often a subscription waits for a message. -/
def waiting (s : Sys) (r : SubRef) : Nat :=
  (reqSubs s.reqCh).count r + AMap.sum (List.count r) s.queues + AMap.sum (List.count r) s.topics

/-- Consistency of the server. -/
structure SInv (cfg : Config) (s : Sys) : Prop where
  run : ∀ (c : Nat) (k : Conn), s.conns[c]? = some k → ∃ es, (Conn.init c).run cfg es = some k
  loc : ∀ (c : Nat) (k : Conn), s.conns[c]? = some k → Loc k.core
  tok : ∀ r, held s.conns r + waiting s r + (todoSubs s.todo).count r ≤ 1
  empty : ∀ r, 0 < waiting s r → ∃ x, look s.conns r = some x ∧ x.frame = none
  full : ∀ r, 0 < (todoSubs s.todo).count r → ∃ x, look s.conns r = some x ∧ x.frame.isSome
  unsub : ∀ r, .unsubscribe r ∈ s.reqCh → ∃ x, look s.conns r = some x
  nil : .requeue none ∉ s.reqCh
  due : ∀ d r m, .topic d r m ∈ s.todo → r ∈ s.topics.list d

theorem look_some {conns : List Conn} {r : SubRef} {x : Sub} (h : look conns r = some x) :
    ∃ k, conns[r.conn]? = some k ∧ r.idx < k.heap.length ∧ deref k.heap r.idx = x := by
  unfold look at h
  cases hk : conns[r.conn]? with
  | none => rw [hk] at h; cases h
  | some k =>
    rw [hk] at h
    simp only [Option.bind_some] at h
    obtain ⟨hl, he⟩ := List.getElem?_eq_some_iff.1 h
    refine ⟨k, rfl, hl, ?_⟩
    unfold deref
    rw [List.getD_eq_getElem?_getD, h]; rfl

theorem look_of {conns : List Conn} {r : SubRef} {k : Conn} (h : conns[r.conn]? = some k) (hl : r.idx < k.heap.length) :
    look conns r = some (deref k.heap r.idx) := by
  unfold look deref
  rw [h, Option.bind_some, List.getD_eq_getElem?_getD, List.getElem?_eq_getElem hl]; rfl

theorem held_of {conns : List Conn} {r : SubRef} {k : Conn} (h : conns[r.conn]? = some k) : held conns r = k.core.tok r.idx := by
  unfold held; rw [h]

theorem get_set {conns : List Conn} {c : Nat} {k k' : Conn} (h : conns[c]? = some k) (j : Nat) :
    (conns.set c k')[j]? = if c = j then some k' else conns[j]? := by
  rw [List.getElem?_set]
  have := (List.getElem?_eq_some_iff.1 h).1
  by_cases hc : c = j
  · subst hc; simp [this]
  · simp [hc]

theorem held_set {conns : List Conn} {c : Nat} {k k' : Conn} (h : conns[c]? = some k) (r : SubRef) :
    held (conns.set c k') r = if c = r.conn then k'.core.tok r.idx else held conns r := by
  unfold held; rw [get_set h]
  by_cases hc : c = r.conn <;> simp [hc]

theorem look_set {conns : List Conn} {c : Nat} {k k' : Conn} (h : conns[c]? = some k) (r : SubRef) :
    look (conns.set c k') r = if c = r.conn then k'.heap[r.idx]? else look conns r := by
  unfold look; rw [get_set h]
  by_cases hc : c = r.conn <;> simp [hc]

/-- A step of a connection leaves subscriptions it does not hold alone. -/
theorem look_evol {conns : List Conn} {c : Nat} {k k' : Conn} {r : SubRef} {x : Sub} (hk : conns[c]? = some k) (he : Evol k.core k'.core)
    (hh : held conns r = 0) (hx : look conns r = some x) : look (conns.set c k') r = some x := by
  rw [look_set hk]
  split
  · rename_i hc
    obtain ⟨k0, hk0, hl, hd⟩ := look_some hx
    rw [← hc] at hk0
    rw [hk] at hk0; injection hk0 with hk0; subst hk0
    have hlen := he.len
    have hl' : r.idx < k'.heap.length := Nat.lt_of_lt_of_le hl hlen
    rw [List.getElem?_eq_getElem hl']
    have h0 : k.core.tok r.idx = 0 := by rw [← held_of (conns := conns) (by rw [← hc]; exact hk)]; exact hh
    have := he.other r.idx hl h0
    have e2 : deref k'.heap r.idx = k'.heap[r.idx] := by
      unfold deref; rw [List.getD_eq_getElem?_getD, List.getElem?_eq_getElem hl']; rfl
    rw [← e2]
    show some (deref k'.core.heap r.idx) = some x
    rw [this]
    exact congrArg some hd
  · exact hx

theorem look_heap {conns : List Conn} {c : Nat} {k k' : Conn} {r : SubRef} (hk : conns[c]? = some k) (he : k'.heap = k.heap) :
    look (conns.set c k') r = look conns r := by
  rw [look_set hk]
  split
  · rename_i hc; unfold look; rw [← hc, hk, Option.bind_some, he]
  · rfl

/-- Assignment to a field of a subscription. -/
theorem look_sub {conns : List Conn} {c i : Nat} {k k' : Conn} {r : SubRef} {x : Sub} {g : Sub → Sub} (hk : conns[c]? = some k)
    (he : k'.heap = k.heap.modify i g) (hx : look conns r = some x) :
    look (conns.set c k') r = some (if r = ⟨c, i⟩ then g x else x) := by
  rw [look_set hk]
  obtain ⟨rc, ri⟩ := r
  split
  · rename_i hc
    dsimp only at hc
    subst hc
    unfold look at hx
    dsimp only at hx
    rw [hk, Option.bind_some] at hx
    rw [he, List.getElem?_modify, hx]
    simp only [Option.map_eq_map, Option.map_some, SubRef.mk.injEq, true_and]
    by_cases h : i = ri
    · subst h; simp
    · rw [if_neg h, if_neg (fun e => h e.symm)]
  · rename_i hc
    rw [hx, if_neg]
    intro e
    injection e with e1 e2
    exact hc e1.symm

theorem reqSubs_append (a b : List Req) : reqSubs (a ++ b) = reqSubs a ++ reqSubs b := by
  unfold reqSubs; rw [List.filterMap_append]

theorem reqSubs_cons (r : Req) (l : List Req) (x : SubRef) :
    (reqSubs (r :: l)).count x = (reqSubs l).count x + (match r with | .subscribe y => if y = x then 1 else 0 | _ => 0) := by
  cases r with
  | subscribe y =>
    show (y :: reqSubs l).count x = _
    rw [List.count_cons]
    by_cases h : y = x <;> simp [h]
  | _ => rfl

/-- Whether a request asks to put back a subscription. -/
def subOne (r : Req) (x : SubRef) : Nat := match r with | .subscribe y => if y = x then 1 else 0 | _ => 0

theorem reqSubs_one (r : Req) (x : SubRef) : (reqSubs [r]).count x = subOne r x := by
  rw [reqSubs_cons]; show 0 + _ = _; rw [Nat.zero_add]; rfl

theorem reqSubs_put (front : Bool) (m : Msg) (l : List Req) : reqSubs (putReq front m :: l) = reqSubs l := by
  cases front <;> rfl

theorem count_cons_ref (y x : SubRef) (l : List SubRef) : (y :: l).count x = l.count x + (if y = x then 1 else 0) := by
  rw [List.count_cons]; by_cases h : y = x <;> simp [h]

theorem run_snoc {cfg : Config} {c k k' : Conn} {es : List Conn.Ev} {e : Conn.Ev} (h : c.run cfg es = some k) (hs : k.step cfg e = some k') :
    c.run cfg (es ++ [e]) = some k' := by
  induction es generalizing c with
  | nil => simp only [Conn.run, Option.some.injEq] at h; subst h; simp only [List.nil_append, Conn.run, hs]
  | cons e0 es ih =>
    simp only [Conn.run] at h
    simp only [List.cons_append, Conn.run]
    split at h
    · cases h
    · exact ih h

theorem run_me {cfg : Config} {s : Sys} (h : SInv cfg s) {c : Nat} {k : Conn} (hk : s.conns[c]? = some k) : k.core.me = c := by
  obtain ⟨es, he⟩ := h.run c k hk
  exact me_run he

theorem tok_lt {a : Core} (h : Loc a) {i : Nat} (hi : a.heap.length ≤ i) : a.tok i = 0 := by
  apply Nat.eq_zero_of_not_pos
  intro hp
  have := h.idx i hp
  omega

/-- The pointers are valid. -/
theorem SInv.refs {cfg : Config} {s : Sys} (h : SInv cfg s) : Refs s := by
  have key : ∀ r, 0 < waiting s r → s.valid r := by
    intro r hr
    obtain ⟨x, hx, _⟩ := h.empty r hr
    obtain ⟨k, h1, h2, _⟩ := look_some hx
    exact ⟨k, h1, h2⟩
  refine ⟨fun r hr => key r ?_, fun r hr => ?_, fun d r hr => key r ?_⟩
  · have : 0 < (reqSubs s.reqCh).count r := List.count_pos_iff.2 (List.mem_filterMap.2 ⟨_, hr, rfl⟩)
    unfold waiting; omega
  · obtain ⟨x, hx⟩ := h.unsub r hr
    obtain ⟨k, h1, h2, _⟩ := look_some hx
    exact ⟨k, h1, h2⟩
  · have h1 : 0 < (s.queues.list d).count r := List.count_pos_iff.2 hr
    have h2 := AMap.le_sum_list (List.count r) rfl s.queues d
    unfold waiting; omega

theorem mic_setFrame {k : Conn} {i : Nat} {m : Msg} : (Conn.core { k with heap := putFrame k.heap i (some m) }) = { k.core with heap := putFrame k.core.heap i (some m) } := rfl

theorem mics_conn {cfg : Config} {s : Sys} (h : SInv cfg s) {c : Nat} {e : Conn.Ev} {k k' : Conn} (hk : s.conns[c]? = some k)
    (hi : Sys.internal e = true) (hs : k.step cfg e = some k') : Mics k.core k'.core := by
  obtain ⟨es, he⟩ := h.run c k hk
  exact mics_step (gate_run cfg c es k he) (h.loc c k hk) (subsOk_run he) hi (step_of _ _ _ _ hs)

/-- Adding a subscription to a map of subscriber lists. -/
theorem sum_snoc (q : AMap (List SubRef)) (d : Bytes) (r x : SubRef) :
    AMap.sum (List.count x) (q.set d (q.list d ++ [r])) = AMap.sum (List.count x) q + (if r = x then 1 else 0) := by
  have := AMap.sum_set (List.count x) rfl q d (q.list d ++ [r])
  rw [List.count_append, count_cons_ref, List.count_nil] at this
  omega

theorem sum_erase (q : AMap (List SubRef)) (d : Bytes) (r x : SubRef) :
    AMap.sum (List.count x) (q.set d ((q.list d).erase r)) + (if r = x ∧ r ∈ q.list d then 1 else 0) = AMap.sum (List.count x) q := by
  have := AMap.sum_set (List.count x) rfl q d ((q.list d).erase r)
  by_cases h : r = x
  · subst h
    by_cases hm : r ∈ q.list d
    · rw [List.count_erase_self] at this
      have h2 : 0 < (q.list d).count r := List.count_pos_iff.2 hm
      rw [if_pos ⟨rfl, hm⟩]; omega
    · rw [List.erase_of_not_mem hm] at this ⊢
      rw [if_neg (fun e => hm e.2)]; omega
  · rw [List.count_erase_of_ne (fun e => h e.symm)] at this
    rw [if_neg (fun e => h e.1)]; omega

theorem sum_tail (q : AMap (List SubRef)) (d : Bytes) (r x : SubRef) (l : List SubRef) (h : q.list d = r :: l) :
    AMap.sum (List.count x) (q.set d l) + (if r = x then 1 else 0) = AMap.sum (List.count x) q := by
  have := AMap.sum_set (List.count x) rfl q d l
  rw [h, count_cons_ref] at this
  omega

/-- Changes of the subscriber lists and of one connection. -/
theorem SInv.build {cfg : Config} {s s' : Sys} (h : SInv cfg s) {c : Nat} {k k' : Conn} (hk : s.conns[c]? = some k)
    (hc : s'.conns = s.conns.set c k') (hrun : ∃ es, (Conn.init c).run cfg es = some k') (hloc : Loc k'.core)
    (htok : ∀ r, held s'.conns r + waiting s' r + (todoSubs s'.todo).count r ≤ 1)
    (hempty : ∀ r, 0 < waiting s' r → ∃ x, look s'.conns r = some x ∧ x.frame = none)
    (hfull : ∀ r, 0 < (todoSubs s'.todo).count r → ∃ x, look s'.conns r = some x ∧ x.frame.isSome)
    (hunsub : ∀ r, .unsubscribe r ∈ s'.reqCh → ∃ x, look s'.conns r = some x)
    (hnil : .requeue none ∉ s'.reqCh) (hdue : ∀ d r m, .topic d r m ∈ s'.todo → r ∈ s'.topics.list d) : SInv cfg s' := by
  refine ⟨?_, ?_, htok, hempty, hfull, hunsub, hnil, hdue⟩
  · intro j x hx
    rw [hc, get_set hk] at hx
    split at hx
    · rename_i hj; injection hx with hx; subst hx; rw [← hj]; exact hrun
    · exact h.run j x hx
  · intro j x hx
    rw [hc, get_set hk] at hx
    split at hx
    · injection hx with hx; subst hx; exact hloc
    · exact h.loc j x hx

theorem SInv.init (cfg : Config) : SInv cfg Sys.init := by
  refine ⟨?_, ?_, ?_, ?_, ?_, ?_, ?_, ?_⟩ <;> simp [Sys.init, waiting, held, todoSubs, reqSubs, AMap.sum]

theorem loc_init (c : Nat) : Loc (Conn.init c).core := by
  refine ⟨?_, ?_, ?_, ?_, ?_, ?_⟩ <;> simp [Conn.init, Conn.core, Core.tok, subIdx, pending]

theorem count_reqSubs_mem {l : List Req} {r : SubRef} (h : .subscribe r ∈ l) : 0 < (reqSubs l).count r :=
  List.count_pos_iff.2 (List.mem_filterMap.2 ⟨_, h, rfl⟩)

theorem look_unsub {cfg : Config} {s : Sys} (h : SInv cfg s) {c i : Nat} {k k' : Conn} {g : Sub → Sub} (hk : s.conns[c]? = some k)
    (he : k'.heap = k.heap.modify i g) {r : SubRef} (hr : .unsubscribe r ∈ s.reqCh) : ∃ x, look (s.conns.set c k') r = some x := by
  obtain ⟨x, hx⟩ := h.unsub r hr
  exact ⟨_, look_sub hk he hx⟩

theorem sinv_step {cfg : Config} {s s' : Sys} {e : Sys.Ev} (h : SInv cfg s) (hs : SysStep cfg s e s') : SInv cfg s' := by
  cases hs with
  | accept =>
    have hl : ∀ r, look (s.conns ++ [Conn.init s.conns.length]) r = look s.conns r := by
      intro r
      unfold look
      by_cases hlt : r.conn < s.conns.length
      · rw [List.getElem?_append_left hlt]
      · rw [List.getElem?_append_right (by omega), List.getElem?_eq_none (l := s.conns) (by omega)]
        cases r.conn - s.conns.length with
        | zero => simp [Conn.init]
        | succ n => simp
    have hh : ∀ r, held (s.conns ++ [Conn.init s.conns.length]) r = held s.conns r := by
      intro r
      unfold held
      by_cases hlt : r.conn < s.conns.length
      · rw [List.getElem?_append_left hlt]
      · rw [List.getElem?_append_right (by omega), List.getElem?_eq_none (l := s.conns) (by omega)]
        cases r.conn - s.conns.length with
        | zero => simp [Conn.init, Conn.core, Core.tok, subIdx, pending]
        | succ n => simp
    have hg : ∀ c k, (s.conns ++ [Conn.init s.conns.length])[c]? = some k → s.conns[c]? = some k ∨ (c = s.conns.length ∧ k = Conn.init c) := by
      intro c k hk
      by_cases hlt : c < s.conns.length
      · rw [List.getElem?_append_left hlt] at hk; exact Or.inl hk
      · rw [List.getElem?_append_right (by omega)] at hk
        have : c = s.conns.length := by
          cases hn : c - s.conns.length with
          | zero => omega
          | succ n => rw [hn] at hk; simp at hk
        subst this
        simp at hk
        exact Or.inr ⟨rfl, hk.symm⟩
    refine ⟨?_, ?_, ?_, ?_, ?_, ?_, h.nil, h.due⟩
    · intro c k hk
      rcases hg c k hk with hk | ⟨_, rfl⟩
      · exact h.run c k hk
      · exact ⟨[], rfl⟩
    · intro c k hk
      rcases hg c k hk with hk | ⟨_, rfl⟩
      · exact h.loc c k hk
      · exact loc_init c
    · intro r; dsimp only; rw [hh]; exact h.tok r
    · intro r hr; dsimp only; rw [hl]; exact h.empty r hr
    · intro r hr; dsimp only; rw [hl]; exact h.full r hr
    · intro r hr; dsimp only; rw [hl]; exact h.unsub r hr
  | conn c e k k' hk hi hs =>
    have hm := mics_conn h hk hi hs
    have he := hm.evol
    have hl' := (h.loc c k hk).mics hm
    obtain ⟨es, hes⟩ := h.run c k hk
    have zero : ∀ r, 0 < waiting s r ∨ 0 < (todoSubs s.todo).count r → held s.conns r = 0 := by
      intro r hr
      have := h.tok r
      omega
    refine h.build hk rfl ⟨_, run_snoc hes hs⟩ hl' ?_ ?_ ?_ ?_ h.nil h.due
    · intro r
      show held (s.conns.set c k') r + waiting s r + (todoSubs s.todo).count r ≤ 1
      rw [held_set hk]
      split
      · rename_i hc
        have h1 := h.tok r
        rw [held_of (k := k) (by rw [← hc]; exact hk)] at h1
        by_cases hlt : r.idx < k.core.heap.length
        · have := he.tok r.idx hlt
          omega
        · have h2 := hl'.tok r.idx
          have h3 : ¬ (0 < waiting s r ∨ 0 < (todoSubs s.todo).count r) := by
            intro h3
            have : ∃ x, look s.conns r = some x := by
              rcases h3 with h3 | h3
              · obtain ⟨x, hx, _⟩ := h.empty r h3; exact ⟨x, hx⟩
              · obtain ⟨x, hx, _⟩ := h.full r h3; exact ⟨x, hx⟩
            obtain ⟨x, hx⟩ := this
            obtain ⟨k0, hk0, hl, _⟩ := look_some hx
            rw [← hc, hk] at hk0; injection hk0 with hk0; subst hk0
            exact hlt hl
          omega
      · exact h.tok r
    · intro r hr
      obtain ⟨x, hx, hf⟩ := h.empty r hr
      exact ⟨x, look_evol hk he (zero r (Or.inl hr)) hx, hf⟩
    · intro r hr
      obtain ⟨x, hx, hf⟩ := h.full r hr
      exact ⟨x, look_evol hk he (zero r (Or.inr hr)) hx, hf⟩
    · intro r hr
      obtain ⟨x, hx⟩ := h.unsub r hr
      obtain ⟨k0, hk0, hl, _⟩ := look_some hx
      dsimp only
      rw [look_set hk]
      split
      · rename_i hc
        rw [← hc, hk] at hk0; injection hk0 with hk0; subst hk0
        have hl' : r.idx < k'.heap.length := Nat.lt_of_lt_of_le hl he.len
        exact ⟨_, List.getElem?_eq_getElem hl'⟩
      · exact ⟨x, hx⟩
  | flush c k r o hk ho hc =>
    have hme := run_me h hk
    have hp : pending k.outbox = r :: pending o := by rw [ho]; rfl
    have hloc := h.loc c k hk
    obtain ⟨es, hes⟩ := h.run c k hk
    have hcp : k.core.pend = r :: pending o := hp
    have hsi : subIdx (r :: pending o) = subIdx [r] ++ subIdx (pending o) := by rw [← subIdx_append]; rfl
    have htk : ∀ i, (Conn.core { k with outbox := o }).tok i + (subIdx [r]).count i = k.core.tok i := by
      intro i
      unfold Core.tok
      rw [hcp, hsi, List.count_append]
      show k.subCh.count i + k.subList.count i + (subIdx (pending o)).count i + _ = k.subCh.count i + k.subList.count i + _
      omega
    have hlk : ∀ r', look (s.conns.set c { k with outbox := o }) r' = look s.conns r' := fun r' => look_heap hk rfl
    refine h.build hk rfl ⟨_, run_snoc (e := .flushed) hes (by simp only [Conn.step, ho])⟩ ?_ ?_ ?_ ?_ ?_ ?_ h.due
    · refine ⟨?_, ?_, hloc.full, ?_, ?_, ?_⟩
      · intro i; have := htk i; have := hloc.tok i; omega
      · intro i hi; exact hloc.idx i (by have := htk i; omega)
      · intro i hi; exact hloc.empty i (by rw [hcp, hsi]; exact List.mem_append_right _ hi)
      · intro x hx; exact hloc.refs x (by
          rw [hcp]; rcases hx with hx | hx
          · exact Or.inl (List.mem_cons_of_mem _ hx)
          · exact Or.inr (List.mem_cons_of_mem _ hx))
      · intro hx; exact hloc.nil (by rw [hcp]; exact List.mem_cons_of_mem _ hx)
    · intro r'
      have h1 := h.tok r'
      show held (s.conns.set c { k with outbox := o }) r' + ((reqSubs (s.reqCh ++ [r])).count r' + AMap.sum (List.count r') s.queues + AMap.sum (List.count r') s.topics) + (todoSubs s.todo).count r' ≤ 1
      unfold waiting at h1
      rw [held_set hk, reqSubs_append, List.count_append]
      have h2 := reqSubs_one r r'
      split
      · rename_i hcc
        rw [held_of (k := k) (by rw [← hcc]; exact hk), ← htk] at h1
        have h3 : (reqSubs [r]).count r' ≤ (subIdx [r]).count r'.idx := by
          rw [h2]
          cases r with
          | subscribe y =>
            show (if y = r' then 1 else 0) ≤ List.count r'.idx [y.idx]
            split
            · rename_i hy; subst hy; simp
            · exact Nat.zero_le _
          | _ => exact Nat.zero_le _
        omega
      · rename_i hcc
        have h3 : (reqSubs [r]).count r' = 0 := by
          rw [h2]
          cases r with
          | subscribe y =>
            have := (hloc.refs y (Or.inl (by rw [hcp]; simp))).1
            rw [hme] at this
            unfold subOne
            dsimp only
            rw [if_neg]
            rintro rfl
            exact hcc this.symm
          | _ => rfl
        omega
    · intro r' hr'
      have hr'' : 0 < waiting s r' ∨ r = .subscribe r' := by
        change 0 < (reqSubs (s.reqCh ++ [r])).count r' + AMap.sum (List.count r') s.queues + AMap.sum (List.count r') s.topics at hr'
        rw [reqSubs_append, List.count_append] at hr'
        by_cases hw : 0 < waiting s r'
        · exact Or.inl hw
        · right
          unfold waiting at hw
          have h2 := reqSubs_one r r'
          unfold subOne at h2
          cases r with
          | subscribe y =>
            dsimp only at h2
            by_cases hy : y = r'
            · rw [hy]
            · rw [if_neg hy] at h2
              omega
          | _ => dsimp only at h2; omega
      dsimp only
      rw [hlk]
      rcases hr'' with hr'' | hr''
      · exact h.empty r' hr''
      · subst hr''
        obtain ⟨h1, h2⟩ := hloc.refs r' (Or.inl (by rw [hcp]; simp))
        rw [hme] at h1
        have h3 := hloc.empty r'.idx (by rw [hcp]; show _ ∈ r'.idx :: _; simp)
        exact ⟨_, look_of (k := k) (by rw [h1]; exact hk) h2, h3⟩
    · intro r' hr'
      dsimp only
      rw [hlk]; exact h.full r' hr'
    · intro r' hr'
      dsimp only at hr' ⊢
      rw [hlk]
      rw [mem_append_one] at hr'
      rcases hr' with hr' | hr'
      · exact h.unsub r' hr'
      · subst hr'
        obtain ⟨h1, h2⟩ := hloc.refs r' (Or.inr (by rw [hcp]; simp))
        rw [hme] at h1
        exact ⟨_, look_of (k := k) (by rw [h1]; exact hk) h2⟩
    · dsimp only; rw [mem_append_one]
      rintro (hx | hx)
      · exact h.nil hx
      · exact hloc.nil (by rw [hcp, ← hx]; simp)
  | skip r rs ht hr hn =>
    have hw : ∀ x, waiting { s with reqCh := rs } x = waiting s x := by
      intro x
      unfold waiting
      dsimp only
      rw [hr, reqSubs_cons]
      rcases hn with ⟨c, rfl⟩ | ⟨c, rfl⟩ <;> rfl
    exact ⟨h.run, h.loc, fun x => (by rw [hw]; exact h.tok x), fun x hx => h.empty x (by rw [hw] at hx; exact hx), h.full,
      fun x hx => h.unsub x (by rw [hr]; exact List.mem_cons_of_mem _ hx), fun hx => h.nil (by rw [hr]; exact List.mem_cons_of_mem _ hx), h.due⟩
  | joinTopic r rs k dest ht hr hk hi hd hq =>
    have hw : ∀ x, waiting { s with reqCh := rs, topics := s.topics.set dest (s.topics.list dest ++ [r]), tlog := s.tlog ++ [(dest, .join r)] } x = waiting s x := by
      intro x
      unfold waiting
      dsimp only
      rw [hr, reqSubs_cons, sum_snoc]
      dsimp only
      omega
    exact ⟨h.run, h.loc, fun x => (by rw [hw]; exact h.tok x), fun x hx => h.empty x (by rw [hw] at hx; exact hx), h.full,
      fun x hx => h.unsub x (by rw [hr]; exact List.mem_cons_of_mem _ hx), fun hx => h.nil (by rw [hr]; exact List.mem_cons_of_mem _ hx),
      by dsimp only; rw [ht]; simp⟩
  | wait r rs k dest ht hr hk hi hd hq he hl =>
    have hw : ∀ x, waiting { s with reqCh := rs, conns := s.conns.set r.conn { k with heap := putInList k.heap r.idx true }, queues := s.queues.set dest (s.queues.list dest ++ [r]), qlog := s.qlog ++ [(dest, .wait r)] } x = waiting s x := by
      intro x
      unfold waiting
      dsimp only
      rw [hr, reqSubs_cons, sum_snoc]
      dsimp only
      omega
    obtain ⟨es, hes⟩ := h.run _ k hk
    have hhld : ∀ x, held (s.conns.set r.conn { k with heap := putInList k.heap r.idx true }) x = held s.conns x := by
      intro x; rw [held_set hk]; split
      · rename_i hc; rw [held_of (k := k) (by rw [← hc]; exact hk)]; rfl
      · rfl
    have hlk : ∀ {x y}, look s.conns x = some y → ∃ z, look (s.conns.set r.conn { k with heap := putInList k.heap r.idx true }) x = some z ∧ z.frame = y.frame := by
      intro x y hxy
      refine ⟨_, look_sub (g := fun s => { s with inList := true }) hk rfl hxy, ?_⟩
      split <;> rfl
    refine h.build hk rfl ⟨_, run_snoc (e := .setInList r.idx true) hes rfl⟩ ?_ ?_ ?_ ?_ ?_ ?_ ?_
    · exact (h.loc _ k hk).of_heap _ (putInList_length _ _ _) (fun j => frame_putInList _ _ _ _)
    · intro x; rw [hw]; dsimp only; rw [hhld]; exact h.tok x
    · intro x hx
      rw [hw] at hx
      obtain ⟨y, hy, hf⟩ := h.empty x hx
      obtain ⟨z, hz, hzf⟩ := hlk hy
      exact ⟨z, hz, by rw [hzf]; exact hf⟩
    · intro x hx
      obtain ⟨y, hy, hf⟩ := h.full x hx
      obtain ⟨z, hz, hzf⟩ := hlk hy
      exact ⟨z, hz, by rw [hzf]; exact hf⟩
    · intro x hx
      exact look_unsub h hk rfl (by rw [hr]; exact List.mem_cons_of_mem _ hx)
    · intro hx; exact h.nil (by rw [hr]; exact List.mem_cons_of_mem _ hx)
    · dsimp only; rw [ht]; simp
  | leaveQueue r rs k dest ht hr hk hi hd hq hm =>
    have hw : ∀ x, waiting { s with reqCh := rs, conns := s.conns.set r.conn { k with heap := putInList k.heap r.idx false }, queues := s.queues.set dest ((s.queues.list dest).erase r), qlog := s.qlog ++ [(dest, .leave r)] } x ≤ waiting s x := by
      intro x
      have := sum_erase s.queues dest r x
      unfold waiting
      dsimp only
      rw [hr, reqSubs_cons]
      dsimp only
      omega
    obtain ⟨es, hes⟩ := h.run _ k hk
    have hhld : ∀ x, held (s.conns.set r.conn { k with heap := putInList k.heap r.idx false }) x = held s.conns x := by
      intro x; rw [held_set hk]; split
      · rename_i hc; rw [held_of (k := k) (by rw [← hc]; exact hk)]; rfl
      · rfl
    have hlk : ∀ {x y}, look s.conns x = some y → ∃ z, look (s.conns.set r.conn { k with heap := putInList k.heap r.idx false }) x = some z ∧ z.frame = y.frame := by
      intro x y hxy
      refine ⟨_, look_sub (g := fun s => { s with inList := false }) hk rfl hxy, ?_⟩
      split <;> rfl
    refine h.build hk rfl ⟨_, run_snoc (e := .setInList r.idx false) hes rfl⟩ ?_ ?_ ?_ ?_ ?_ ?_ ?_
    · exact (h.loc _ k hk).of_heap _ (putInList_length _ _ _) (fun j => frame_putInList _ _ _ _)
    · intro x; dsimp only; rw [hhld]; have := h.tok x; have := hw x; omega
    · intro x hx
      obtain ⟨y, hy, hf⟩ := h.empty x (Nat.lt_of_lt_of_le hx (hw x))
      obtain ⟨z, hz, hzf⟩ := hlk hy
      exact ⟨z, hz, by rw [hzf]; exact hf⟩
    · intro x hx
      obtain ⟨y, hy, hf⟩ := h.full x hx
      obtain ⟨z, hz, hzf⟩ := hlk hy
      exact ⟨z, hz, by rw [hzf]; exact hf⟩
    · intro x hx
      exact look_unsub h hk rfl (by rw [hr]; exact List.mem_cons_of_mem _ hx)
    · intro hx; exact h.nil (by rw [hr]; exact List.mem_cons_of_mem _ hx)
    · dsimp only; rw [ht]; simp
  | absent r rs k dest ht hr hk hi hd hq hm =>
    have hw : ∀ x, waiting { s with reqCh := rs } x = waiting s x := by
      intro x
      unfold waiting
      dsimp only
      rw [hr, reqSubs_cons]
      rfl
    exact ⟨h.run, h.loc, fun x => (by rw [hw]; exact h.tok x), fun x hx => h.empty x (by rw [hw] at hx; exact hx), h.full,
      fun x hx => h.unsub x (by rw [hr]; exact List.mem_cons_of_mem _ hx), fun hx => h.nil (by rw [hr]; exact List.mem_cons_of_mem _ hx), h.due⟩
  | leaveTopic r rs k dest ht hr hk hi hd hq =>
    have hw : ∀ x, waiting { s with reqCh := rs, topics := s.topics.set dest ((s.topics.list dest).erase r), tlog := s.tlog ++ [(dest, .leave r)] } x ≤ waiting s x := by
      intro x
      have := sum_erase s.topics dest r x
      unfold waiting
      dsimp only
      rw [hr, reqSubs_cons]
      dsimp only
      omega
    exact ⟨h.run, h.loc, fun x => (by have := h.tok x; have := hw x; dsimp only at *; omega), fun x hx => h.empty x (Nat.lt_of_lt_of_le hx (hw x)), h.full,
      fun x hx => h.unsub x (by rw [hr]; exact List.mem_cons_of_mem _ hx), fun hx => h.nil (by rw [hr]; exact List.mem_cons_of_mem _ hx),
      by dsimp only; rw [ht]; simp⟩
  | store front m rs dest ht hr hd hq he =>
    have hw : ∀ x, waiting { s with reqCh := rs } x = waiting s x := by
      intro x
      unfold waiting
      dsimp only
      rw [hr, reqSubs_put]
    exact ⟨h.run, h.loc, fun x => (by have := h.tok x; rw [← hw] at this; exact this), fun x hx => h.empty x (by rw [← hw]; exact hx), h.full,
      fun x hx => h.unsub x (by rw [hr]; exact List.mem_cons_of_mem _ hx), fun hx => h.nil (by rw [hr]; exact List.mem_cons_of_mem _ hx), h.due⟩
  | cast m rs dest ht hr hd hq =>
    have hw : ∀ x, waiting { s with reqCh := rs } x = waiting s x := by
      intro x
      unfold waiting
      dsimp only
      rw [hr, reqSubs_cons]
      rfl
    have ht0 : todoSubs ((s.topics.list dest).map (fun r => Delivery.topic dest r m)) = [] := by
      induction s.topics.list dest with
      | nil => rfl
      | cons a l ih => exact ih
    refine ⟨h.run, h.loc, fun x => (by have := h.tok x; rw [← hw] at this; dsimp only; rw [ht0]; rw [ht] at this; exact this), fun x hx => h.empty x (by rw [← hw]; exact hx),
      fun x hx => (by dsimp only at hx; rw [ht0] at hx; simp at hx),
      fun x hx => h.unsub x (by rw [hr]; exact List.mem_cons_of_mem _ hx), fun hx => h.nil (by rw [hr]; exact List.mem_cons_of_mem _ hx), ?_⟩
    intro d x y hx
    simp only [List.mem_map] at hx
    obtain ⟨z, hz, e⟩ := hx
    injection e with e1 e2 e3
    subst e1 e2; exact hz
  | drop m rs dest ht hr hd hq =>
    have hw : ∀ x, waiting { s with reqCh := rs } x = waiting s x := by
      intro x
      unfold waiting
      dsimp only
      rw [hr, reqSubs_cons]
      rfl
    exact ⟨h.run, h.loc, fun x => (by have := h.tok x; rw [← hw] at this; exact this), fun x hx => h.empty x (by rw [← hw]; exact hx), h.full,
      fun x hx => h.unsub x (by rw [hr]; exact List.mem_cons_of_mem _ hx), fun hx => h.nil (by rw [hr]; exact List.mem_cons_of_mem _ hx), h.due⟩
  | take r rs k dest m l ht hr hk hi hd hq hm hf =>
    have hw : ∀ x, waiting { s with reqCh := rs } x + (if r = x then 1 else 0) = waiting s x := by
      intro x
      unfold waiting
      dsimp only
      rw [hr, reqSubs_cons]
      dsimp only
      omega
    obtain ⟨es, hes⟩ := h.run _ k hk
    have hr0 : held s.conns r = 0 := by
      have h1 := h.tok r
      have h2 := hw r
      rw [if_pos rfl] at h2; omega
    have hhld : ∀ x, held (s.conns.set r.conn { k with heap := putFrame k.heap r.idx (some (m.addressed (deref k.heap r.idx).id)) }) x = held s.conns x := by
      intro x; rw [held_set hk]; split
      · rename_i hc; rw [held_of (k := k) (by rw [← hc]; exact hk)]; rfl
      · rfl
    refine h.build hk rfl ⟨_, run_snoc (e := .setFrame r.idx (m.addressed (deref k.heap r.idx).id)) hes rfl⟩ ?_ ?_ ?_ ?_ ?_ ?_ ?_
    · refine (h.loc _ k hk).reframe _ _ (fun hm => ?_)
      have := count_pos_iff.2 hm
      rw [held_of hk] at hr0
      unfold Core.tok at hr0
      omega
    · intro x
      show held (s.conns.set _ _) x + waiting { s with reqCh := rs } x + List.count x [r] ≤ 1
      rw [hhld, count_cons_ref, List.count_nil]
      have := hw x; have := h.tok x; omega
    · intro x hx
      have hx : 0 < waiting { s with reqCh := rs } x := hx
      have hne : x ≠ r := by
        rintro rfl
        have h1 := hw x
        have h2 := h.tok x
        rw [if_pos rfl] at h1; omega
      obtain ⟨y, hy, hyf⟩ := h.empty x (by have := hw x; omega)
      refine ⟨_, look_sub (g := fun s => { s with frame := some (m.addressed (deref k.heap r.idx).id) }) hk rfl hy, ?_⟩
      rw [if_neg]
      · exact hyf
      · exact hne
    · intro x hx
      have hx : 0 < List.count x [r] := hx
      have hxr : x = r := by
        rw [count_cons_ref, List.count_nil] at hx
        by_cases hxr : r = x
        · exact hxr.symm
        · rw [if_neg hxr] at hx; omega
      subst hxr
      refine ⟨_, look_sub (g := fun s => { s with frame := some (m.addressed (deref k.heap x.idx).id) }) hk rfl (look_of hk hi), ?_⟩
      rw [if_pos rfl]; rfl
    · intro x hx
      exact look_unsub h hk rfl (by rw [hr]; exact List.mem_cons_of_mem _ hx)
    · intro hx; exact h.nil (by rw [hr]; exact List.mem_cons_of_mem _ hx)
    · simp
  | give front m rs dest r q k ht hr hd hq he hk hi hf =>
    have hw : ∀ x, waiting { s with reqCh := rs, queues := s.queues.set dest q } x + (if r = x then 1 else 0) = waiting s x := by
      intro x
      have := sum_tail s.queues dest r x q he
      unfold waiting
      dsimp only
      rw [hr, reqSubs_put]
      omega
    obtain ⟨es, hes⟩ := h.run _ k hk
    have hr0 : held s.conns r = 0 := by
      have h1 := h.tok r
      have h2 := hw r
      rw [if_pos rfl] at h2; omega
    have hhld : ∀ x, held (s.conns.set r.conn { k with heap := putFrame (putInList k.heap r.idx false) r.idx (some (m.addressed (deref k.heap r.idx).id)) }) x = held s.conns x := by
      intro x; rw [held_set hk]; split
      · rename_i hc; rw [held_of (k := k) (by rw [← hc]; exact hk)]; rfl
      · rfl
    have hmm : putFrame (putInList k.heap r.idx false) r.idx (some (m.addressed (deref k.heap r.idx).id)) =
        k.heap.modify r.idx (fun s => { s with inList := false, frame := some (m.addressed (deref k.heap r.idx).id) }) := by
      unfold putFrame putInList
      apply List.ext_getElem?
      intro j
      rw [List.getElem?_modify, List.getElem?_modify, List.getElem?_modify]
      cases k.heap[j]? with
      | none => simp
      | some x => by_cases hj : r.idx = j <;> simp [hj]
    refine h.build hk rfl ⟨_, run_snoc (e := .setFrame r.idx (m.addressed (deref k.heap r.idx).id)) (run_snoc (e := .setInList r.idx false) hes rfl) rfl⟩ ?_ ?_ ?_ ?_ ?_ ?_ ?_
    · have h0 := (h.loc _ k hk).of_heap (putInList k.heap r.idx false) (putInList_length _ _ _) (fun j => frame_putInList _ _ _ _)
      refine h0.reframe _ _ (fun hm => ?_)
      have := count_pos_iff.2 hm
      rw [held_of hk] at hr0
      unfold Core.tok at hr0
      dsimp only at this
      omega
    · intro x
      show held (s.conns.set _ _) x + waiting { s with reqCh := rs, queues := s.queues.set dest q } x + List.count x [r] ≤ 1
      rw [hhld, count_cons_ref, List.count_nil]
      have := hw x; have := h.tok x; omega
    · intro x hx
      have hx : 0 < waiting { s with reqCh := rs, queues := s.queues.set dest q } x := hx
      have hne : x ≠ r := by
        rintro rfl
        have h1 := hw x
        have h2 := h.tok x
        rw [if_pos rfl] at h1; omega
      obtain ⟨y, hy, hyf⟩ := h.empty x (by have := hw x; omega)
      refine ⟨_, look_sub hk hmm hy, ?_⟩
      rw [if_neg]
      · exact hyf
      · exact hne
    · intro x hx
      have hx : 0 < List.count x [r] := hx
      have hxr : x = r := by
        rw [count_cons_ref, List.count_nil] at hx
        by_cases hxr : r = x
        · exact hxr.symm
        · rw [if_neg hxr] at hx; omega
      subst hxr
      refine ⟨_, look_sub hk hmm (look_of hk hi), ?_⟩
      rw [if_pos rfl]; rfl
    · intro x hx
      exact look_unsub h hk hmm (by rw [hr]; exact List.mem_cons_of_mem _ hx)
    · intro hx; exact h.nil (by rw [hr]; exact List.mem_cons_of_mem _ hx)
    · simp
  | pushQueue r t k ht hk hc =>
    obtain ⟨es, hes⟩ := h.run _ k hk
    have htk : ∀ i, (Conn.core { k with subCh := k.subCh ++ [r.idx] }).tok i = k.core.tok i + (if r.idx = i then 1 else 0) := by
      intro i
      unfold Core.tok
      show (k.subCh ++ [r.idx]).count i + k.subList.count i + (subIdx (pending k.outbox)).count i = k.subCh.count i + k.subList.count i + (subIdx (pending k.outbox)).count i + _
      rw [count_snoc]; omega
    have hcnt : ∀ x, (todoSubs s.todo).count x = (todoSubs t).count x + (if r = x then 1 else 0) := by
      intro x; rw [ht]; exact count_cons_ref _ _ _
    obtain ⟨x, hx, hxf⟩ := h.full r (by rw [hcnt, if_pos rfl]; omega)
    obtain ⟨k0, hk0, hl, hdr⟩ := look_some hx
    rw [hk] at hk0; injection hk0 with hk0; subst hk0
    have hloc := h.loc _ k hk
    have hr0 : k.core.tok r.idx = 0 := by
      have h1 := h.tok r
      have h2 := hcnt r
      rw [if_pos rfl] at h2
      rw [held_of hk] at h1; omega
    have hlk : ∀ r', look (s.conns.set r.conn { k with subCh := k.subCh ++ [r.idx] }) r' = look s.conns r' := fun r' => look_heap hk rfl
    refine h.build hk rfl ⟨_, run_snoc (e := .pushSub r.idx) hes (if_pos hc)⟩ ?_ ?_ ?_ ?_ ?_ h.nil ?_
    · refine ⟨?_, ?_, ?_, hloc.empty, hloc.refs, hloc.nil⟩
      · intro i; rw [htk]
        split
        · rename_i hi; rw [← hi, hr0]; omega
        · exact hloc.tok i
      · intro i; rw [htk]
        split
        · rename_i hi; rw [← hi]; intro _; exact hl
        · exact hloc.idx i
      · intro i hi
        have hi : i ∈ k.subCh ++ [r.idx] ∨ i ∈ k.subList := hi
        rw [mem_append_one] at hi
        show (deref k.heap i).frame.isSome
        rcases hi with (hi | hi) | hi
        · exact hloc.full i (Or.inl hi)
        · rw [hi, hdr]; exact hxf
        · exact hloc.full i (Or.inr hi)
    · intro x
      show held (s.conns.set _ _) x + waiting s x + (todoSubs t).count x ≤ 1
      have h1 := h.tok x
      rw [hcnt] at h1
      rw [held_set hk, htk]
      split
      · rename_i hcx
        rw [held_of (k := k) (by rw [← hcx]; exact hk)] at h1
        have : (if r.idx = x.idx then 1 else 0) = if r = x then 1 else 0 := by
          by_cases hrx : r = x
          · subst hrx; simp
          · rw [if_neg hrx, if_neg]
            intro e
            apply hrx
            cases r; cases x; simp_all
        omega
      · have : r ≠ x := by rintro rfl; rename_i hne; exact hne rfl
        rw [if_neg this] at h1; exact h1
    · intro x hx; dsimp only; rw [hlk]; exact h.empty x hx
    · intro x hx; dsimp only; rw [hlk]; exact h.full x (by rw [hcnt]; dsimp only at hx; omega)
    · intro x hx; dsimp only; rw [hlk]; exact h.unsub x hx
    · intro d x m hx; exact h.due d x m (by rw [ht]; exact List.mem_cons_of_mem _ hx)
  | pushTopic dest r m t k ht hk hf hc =>
    obtain ⟨es, hes⟩ := h.run _ k hk
    have hloc := h.loc _ k hk
    have hlk : ∀ r', look (s.conns.set r.conn { k with writeCh := k.writeCh ++ [m.addressed (deref k.heap r.idx).id] }) r' = look s.conns r' := fun r' => look_heap hk rfl
    have hhld : ∀ x, held (s.conns.set r.conn { k with writeCh := k.writeCh ++ [m.addressed (deref k.heap r.idx).id] }) x = held s.conns x := by
      intro x; rw [held_set hk]; split
      · rename_i hc; rw [held_of (k := k) (by rw [← hc]; exact hk)]; rfl
      · rfl
    have hcnt : todoSubs s.todo = todoSubs t := by rw [ht]; rfl
    refine h.build hk rfl ⟨_, run_snoc (e := .pushTopic (m.addressed (deref k.heap r.idx).id)) hes (if_pos hc)⟩
      ⟨hloc.tok, hloc.idx, hloc.full, hloc.empty, hloc.refs, hloc.nil⟩ ?_ ?_ ?_ ?_ h.nil ?_
    · intro x; dsimp only; rw [hhld, ← hcnt]; exact h.tok x
    · intro x hx; dsimp only; rw [hlk]; exact h.empty x hx
    · intro x hx; dsimp only at hx ⊢; rw [hlk]; exact h.full x (by rw [hcnt]; exact hx)
    · intro x hx; dsimp only; rw [hlk]; exact h.unsub x hx
    · intro d x m hx; exact h.due d x m (by rw [ht]; exact List.mem_cons_of_mem _ hx)

theorem sys_crashed_step {cfg : Config} {s s' : Sys} {e : Sys.Ev} (h : s.step cfg e = some s') : s.crashed = false := by
  unfold Sys.step at h
  cases hc : s.crashed with
  | true => rw [if_pos hc] at h; cases h
  | false => rfl

/-- Induction over the continuations of a run. -/
theorem sys_induction_from {cfg : Config} {P : Sys → Prop}
    (hstep : ∀ s e s', SInv cfg s → P s → SysStep cfg s e s' → P s') (es : List Sys.Ev) (s0 s : Sys) (h0 : SInv cfg s0 ∧ P s0)
    (h : s0.run cfg es = some s) (hc : s.crashed = false) : SInv cfg s ∧ P s := by
  induction es generalizing s0 with
  | nil => simp only [Sys.run, Option.some.injEq] at h; subst h; exact h0
  | cons e es ih =>
    simp only [Sys.run] at h
    split at h
    · cases h
    · rename_i s1 hs1
      rcases (sys_step h0.1.refs hs1).2 with hcr | hst
      · cases es with
        | nil => simp only [Sys.run, Option.some.injEq] at h; subst h; rw [hc] at hcr; cases hcr
        | cons e2 es2 =>
          simp only [Sys.run] at h
          split at h
          · cases h
          · rename_i s2 hs2
            have := sys_crashed_step hs2
            rw [hcr] at this; cases this
      · exact ih s1 ⟨sinv_step h0.1 hst, hstep _ _ _ h0.1 h0.2 hst⟩ h

/-- Induction over the runs of the server. -/
theorem sys_induction {cfg : Config} {P : Sys → Prop} (h0 : P Sys.init)
    (hstep : ∀ s e s', SInv cfg s → P s → SysStep cfg s e s' → P s') (es : List Sys.Ev) (s : Sys)
    (h : Sys.init.run cfg es = some s) (hc : s.crashed = false) : SInv cfg s ∧ P s :=
  sys_induction_from hstep es _ s ⟨SInv.init cfg, h0⟩ h hc

/-- A server that has not crashed had not crashed before. -/
theorem not_crashed {cfg : Config} {es : List Sys.Ev} {s0 s : Sys} (h : s0.run cfg es = some s) (hc : s.crashed = false) : s0.crashed = false := by
  cases es with
  | nil => simp only [Sys.run, Option.some.injEq] at h; subst h; exact hc
  | cons e es =>
    simp only [Sys.run] at h
    split at h
    · cases h
    · rename_i s1 hs1; exact sys_crashed_step hs1

end Stomp.Server
