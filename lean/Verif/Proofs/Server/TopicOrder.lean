import Verif.Proofs.Server.TopicMembers
import Verif.Proofs.Server.Redelivery
import Verif.Spec.TopicOrder
/-! # The order of the messages of a topic -/
namespace Stomp.Server
open Stomp
open Stomp.Spec (firstValue)

/-! ## What a connection writes -/

/-- A step writes the first message of the write channel, or otherwise no message but those of subscriptions to queues. -/
theorem out_split {cfg : Config} {c : Conn} {e : Conn.Ev} {c' : Conn} (hg : Gate cfg c) (h : Step cfg c e c') :
    (∃ m w n, c.writeCh = m :: w ∧ c'.writeCh = w ∧ c'.out = c.out ++ [⟨some (m.alloc n none).frame, some m.tag⟩]) ∨
    ∃ new, c'.out = c.out ++ new ∧ ∀ w ∈ new, ∀ t, w.tag = some t → ∃ i m n a, (deref c.heap i).frame = some m ∧ w = ⟨some (m.alloc n a).frame, some t⟩ := by
  have z : ∀ {x : Conn}, x.out = c.out → ∃ new, x.out = c.out ++ new ∧ ∀ w ∈ new, ∀ t, w.tag = some t →
      ∃ i m n a, (deref c.heap i).frame = some m ∧ w = ⟨some (m.alloc n a).frame, some t⟩ :=
    fun h => ⟨[], by rw [h, List.append_nil], by simp⟩
  have one : ∀ {x : Conn} {i : Nat} {m : Msg} {n : Nat} {a : Option Bytes}, (deref c.heap i).frame = some m → x.out = c.out ++ [⟨some (m.alloc n a).frame, some m.tag⟩] →
      ∃ new, x.out = c.out ++ new ∧ ∀ w ∈ new, ∀ t, w.tag = some t → ∃ i m n a, (deref c.heap i).frame = some m ∧ w = ⟨some (m.alloc n a).frame, some t⟩ := by
    intro x i m n a hf hx
    refine ⟨_, hx, fun w hw t ht => ?_⟩
    rw [List.mem_singleton] at hw; subst hw
    injection ht with ht
    exact ⟨i, m, n, a, hf, by rw [ht]⟩
  cases h with
  | frame ok1 ok2 f q c1 _ f' r ha hq hsf hfin =>
    right
    have none_ : ∀ {x : Conn} (g : Option Frame), x.out = c.out ++ [⟨g, none⟩] → ∃ new, x.out = c.out ++ new ∧ ∀ w ∈ new, ∀ t, w.tag = some t →
        ∃ i m n a, (deref c.heap i).frame = some m ∧ w = ⟨some (m.alloc n a).frame, some t⟩ := by
      intro x g hx
      refine ⟨_, hx, fun w hw t ht => ?_⟩
      rw [List.mem_singleton] at hw; subst hw; cases ht
    rcases frame_cases hg hsf hfin with ⟨_, v, cx, cy, _, ⟨_, rfl⟩ | ⟨_, rfl⟩⟩ | ⟨_, _, e, v, ⟨_, rfl⟩ | ⟨_, rfl⟩⟩ | ⟨_, hh, hf⟩
    · exact none_ _ rfl
    · exact z rfl
    · exact none_ _ rfl
    · exact z rfl
    · have h1 : ∃ new, c1.out = c.out ++ new ∧ ∀ w ∈ new, w.tag = none := by
        rcases hh.out with ⟨h, _⟩ | ⟨v, _, h, _⟩ | ⟨h, _⟩
        · exact ⟨[], by simp [h], by simp⟩
        · exact ⟨_, h, by simp⟩
        · exact ⟨[], by simp [h], by simp⟩
      obtain ⟨new, h1, h2⟩ := h1
      have h3 : ∃ new, c'.out = c.out ++ new ∧ ∀ w ∈ new, w.tag = none := by
        cases hf with
        | ok => exact ⟨new, h1, h2⟩
        | panic => exact ⟨new, h1, h2⟩
        | err e =>
          refine ⟨new ++ [⟨some (errorFrame cfg e f'), none⟩], ?_, ?_⟩
          · show c1.out ++ _ = _; rw [h1, List.append_assoc]
          · intro w hw
            rcases List.mem_append.1 hw with hw | hw
            · exact h2 w hw
            · rw [List.mem_singleton] at hw; subst hw; rfl
        | errFail e => exact ⟨new, h1, h2⟩
      obtain ⟨new, h3, h4⟩ := h3
      exact ⟨new, h3, fun w hw t ht => by rw [h4 w hw] at ht; cases ht⟩
  | wrOk m w ha hw hwf hc => exact Or.inl ⟨m, w, _, hw, rfl, rfl⟩
  | wrErr m w ha hw hwf hc => exact Or.inl ⟨m, w, _, hw, rfl, rfl⟩
  | subAuto i l j m ha hl hg' hf hw hk => exact Or.inr (one hf rfl)
  | subPanic i l j m ha hl hg' hf hw hk hi => exact Or.inr (one hf rfl)
  | subAdd i l j m ha hl hg' hf hw hk hi => exact Or.inr (one hf rfl)
  | timerOk =>
    right
    refine ⟨_, rfl, fun w hw t ht => ?_⟩
    rw [List.mem_singleton] at hw; subst hw; cases ht
  | _ => exact Or.inr (z rfl)

theorem Mics.writeCh_sublist {a b : Core} (hm : Mics a b) : b.writeCh.Sublist a.writeCh := by
  induction hm with
  | refl => exact List.Sublist.refl _
  | step _ hm ih =>
    refine List.Sublist.trans ?_ ih
    cases hm <;> first | exact List.Sublist.refl _ | skip
    rename_i h
    rw [h]; exact List.sublist_cons_self _ _

/-! ## The messages of a topic on their way to a subscription -/

/-- A message for destination `d` and subscription `id` in the write channel. -/
def chanFor (d id : Bytes) (m : Msg) : Option Tag :=
  if firstValue m.frame.header Hdr.destination = some d ∧ firstValue m.frame.header Hdr.subscription = some id then some m.tag else none

/-- A message of the topic `d` the processor still has to hand to subscription `id` of connection `c`. -/
def todoFor (heap : List Sub) (d : Bytes) (c : Nat) (id : Bytes) : Delivery → Option Tag
  | .topic d' r m => if d' = d ∧ r.conn = c ∧ (deref heap r.idx).id = id then some m.tag else none
  | .queue _ => none

/-- The messages of the topic `d` for subscription `id` of connection `c`: written, in the write channel, still to be handed over. -/
def course (s : Sys) (d : Bytes) (c : Nat) (id : Bytes) (k : Conn) : List Tag :=
  Spec.writtenTo d id k.out ++ k.writeCh.filterMap (chanFor d id) ++ s.todo.filterMap (todoFor k.heap d c id)

theorem writtenFor_alloc (d id : Bytes) (m : Msg) (n : Nat) (a : Option Bytes) :
    Spec.writtenFor d id ⟨some (m.alloc n a).frame, some m.tag⟩ = chanFor d id m := by
  unfold Spec.writtenFor chanFor Spec.hdr
  dsimp only
  rw [show firstValue (m.alloc n a).frame.header b!"destination" = firstValue m.frame.header Hdr.destination from
      firstValue_alloc m n a Hdr.destination (by decide) (by decide) (by decide),
    show firstValue (m.alloc n a).frame.header b!"subscription" = firstValue m.frame.header Hdr.subscription from
      firstValue_alloc m n a Hdr.subscription (by decide) (by decide) (by decide)]

theorem chanFor_addressed (d id x : Bytes) (m : Msg) :
    chanFor d id (m.addressed x) = if firstValue m.frame.header Hdr.destination = some d ∧ x = id then some m.tag else none := by
  unfold chanFor
  rw [firstValue_addressed, destination_addressed]
  simp only [Option.some.injEq]
  rfl

theorem todo_congr {heap heap' : List Sub} {d : Bytes} {c : Nat} {id : Bytes} {l : List Delivery}
    (h : ∀ d' r m, .topic d' r m ∈ l → r.conn = c → (deref heap' r.idx).id = (deref heap r.idx).id) :
    l.filterMap (todoFor heap' d c id) = l.filterMap (todoFor heap d c id) := by
  induction l with
  | nil => rfl
  | cons x l ih =>
    rw [List.filterMap_cons, List.filterMap_cons, ih (fun d' r m hm => h d' r m (List.mem_cons_of_mem _ hm))]
    have : todoFor heap' d c id x = todoFor heap d c id x := by
      cases x with
      | queue => rfl
      | topic d' r m =>
        unfold todoFor
        dsimp only
        by_cases hc : r.conn = c
        · rw [h d' r m List.mem_cons_self hc]
        · rw [if_neg (fun e => hc e.2.1), if_neg (fun e => hc e.2.1)]
    rw [this]

theorem filterMap_le_one {α β : Type} {l : List α} {p : α → Option β} {t : β} (hn : l.Nodup) (hp : ∀ x ∈ l, ∀ b, p x = some b → b = t)
    (hu : ∀ x ∈ l, ∀ y ∈ l, (p x).isSome → (p y).isSome → x = y) : (l.filterMap p).Sublist [t] := by
  induction l with
  | nil => exact List.nil_sublist _
  | cons a l ih =>
    have hn' := List.nodup_cons.1 hn
    have ih := ih hn'.2 (fun x hx => hp x (List.mem_cons_of_mem _ hx)) (fun x hx y hy => hu x (List.mem_cons_of_mem _ hx) y (List.mem_cons_of_mem _ hy))
    cases ha : p a with
    | none => rw [List.filterMap_cons_none ha]; exact ih
    | some b =>
      have e : l.filterMap p = [] := by
        rw [List.filterMap_eq_nil_iff]
        intro x hx
        cases hx2 : p x with
        | none => rfl
        | some y =>
          exfalso
          have := hu a List.mem_cons_self x (List.mem_cons_of_mem _ hx) (by rw [ha]; rfl) (by rw [hx2]; rfl)
          subst this
          exact hn'.1 hx
      rw [List.filterMap_cons_some ha, e, hp a List.mem_cons_self b ha]
      exact List.Sublist.refl _

/-- The messages of the topic `d` on their way to a subscription are in the order of the requests. -/
def OrderOk (d : Bytes) (L : List Tag) (s : Sys) : Prop :=
  ∀ (c : Nat) (k : Conn), s.conns[c]? = some k → ∀ id, (course s d c id k).Sublist L

/-- The messages a request asks the topic to send. -/
def castTag (d : Bytes) (s : Sys) (e : Sys.Ev) : List Tag := (Spec.askedTopic d s e).filterMap Spec.castOf

theorem order_step {cfg : Config} {d : Bytes} (hd : isQueueDestination d = false) {s s' : Sys} {e : Sys.Ev} {L : List Tag} (hi : SInv cfg s) (ha : Addr s)
    (hch : ChainOk d s) (h : OrderOk d L s) (hs : SysStep cfg s e s') : OrderOk d (L ++ castTag d s e) s' := by
  have grow : ∀ {l : List Tag}, l.Sublist L → l.Sublist (L ++ castTag d s e) := fun h => h.trans (List.sublist_append_left _ _)
  have todoLt : ∀ {c : Nat} {k : Conn} {d' : Bytes} {r : SubRef} {m : Msg}, s.conns[c]? = some k → .topic d' r m ∈ s.todo → r.conn = c → r.idx < k.heap.length := by
    intro c k d' r m hk hm hc
    obtain ⟨_, x, hx, _⟩ := ha.t d' r (hi.due d' r m hm)
    obtain ⟨k0, h1, h2, _⟩ := look_some hx
    rw [hc, hk] at h1; injection h1 with h1; subst h1; exact h2
  -- nothing happens to the messages
  have same : (∀ (c : Nat) (k' : Conn), s'.conns[c]? = some k' → ∃ k, s.conns[c]? = some k ∧ k'.out = k.out ∧ k'.writeCh = k.writeCh ∧
      ∀ i, (deref k'.heap i).id = (deref k.heap i).id) → (∀ heap c id, s'.todo.filterMap (todoFor heap d c id) = s.todo.filterMap (todoFor heap d c id)) →
      OrderOk d (L ++ castTag d s e) s' := by
    intro hk ht c k' hk' id
    obtain ⟨k, h0, h1, h2, h3⟩ := hk c k' hk'
    refine grow ?_
    have h4 := h c k h0 id
    unfold course at h4 ⊢
    rw [h1, h2, ht, todo_congr (fun _ r _ _ _ => h3 r.idx)]
    exact h4
  have keepAll : s'.conns = s.conns → ∀ (c : Nat) (k' : Conn), s'.conns[c]? = some k' → ∃ k, s.conns[c]? = some k ∧ k'.out = k.out ∧ k'.writeCh = k.writeCh ∧
      ∀ i, (deref k'.heap i).id = (deref k.heap i).id := by
    intro he c k' hk'; rw [he] at hk'; exact ⟨k', hk', rfl, rfl, fun _ => rfl⟩
  have keepOne : ∀ {j : Nat} {k1 k2 : Conn}, s.conns[j]? = some k1 → s'.conns = s.conns.set j k2 → k2.out = k1.out → k2.writeCh = k1.writeCh →
      (∀ i, (deref k2.heap i).fixed = (deref k1.heap i).fixed) → ∀ (c : Nat) (k' : Conn), s'.conns[c]? = some k' → ∃ k, s.conns[c]? = some k ∧ k'.out = k.out ∧ k'.writeCh = k.writeCh ∧
      ∀ i, (deref k'.heap i).id = (deref k.heap i).id := by
    intro j k1 k2 h1 h2 h3 h4 h5 c k' hk'
    rw [h2, get_set h1] at hk'
    split at hk'
    · rename_i hj; injection hk' with hk'; subst hk' hj
      exact ⟨k1, h1, h3, h4, fun i => (fixed_id (h5 i)).1⟩
    · exact ⟨k', hk', rfl, rfl, fun _ => rfl⟩
  have noTopic : ∀ {t : List Delivery}, s.todo = [] → t = [] ∨ (∃ r, t = [.queue r]) → ∀ heap c id, t.filterMap (todoFor heap d c id) = s.todo.filterMap (todoFor heap d c id) := by
    intro t h0 ht heap c id
    rw [h0]
    rcases ht with rfl | ⟨r, rfl⟩ <;> rfl
  cases hs with
  | accept =>
    intro c k' hk' id
    rcases conns_evol (cfg := cfg) (SysStep.accept (cfg := cfg) (s := s)) hk' with ⟨hn, rfl⟩ | ⟨k, hk, _⟩
    · have : course { s with conns := s.conns ++ [Conn.init s.conns.length] } d c id (Conn.init c) = [] := by
        unfold course
        show [] ++ [] ++ s.todo.filterMap (todoFor _ d c id) = []
        rw [List.append_nil, List.nil_append, List.filterMap_eq_nil_iff]
        intro x hx
        cases x with
        | queue => rfl
        | topic d' r m =>
          refine if_neg (fun e => ?_)
          obtain ⟨_, y, hy, _⟩ := ha.t d' r (hi.due d' r m hx)
          obtain ⟨k0, h1, _, _⟩ := look_some hy
          rw [e.2.1, hn] at h1; cases h1
      rw [this]; exact List.nil_sublist _
    · have hlt : c < s.conns.length := (List.getElem?_eq_some_iff.1 hk).1
      dsimp only at hk'
      rw [List.getElem?_append_left hlt] at hk'
      exact grow (h c k' hk' id)
  | conn j e k k' hk hin hst =>
    intro c x hx id
    dsimp only at hx
    rw [get_set hk] at hx
    split at hx
    · rename_i hj; injection hx with hx; subst hx hj
      obtain ⟨es, hrun⟩ := hi.run j k hk
      have hmics := mics_conn hi hk hin hst
      have h0 := h j k hk id
      refine grow (List.Sublist.trans ?_ h0)
      unfold course
      have et : s.todo.filterMap (todoFor k'.heap d j id) = s.todo.filterMap (todoFor k.heap d j id) :=
        todo_congr (fun d' r m hm hc => (fixed_id (hmics.evol.fixed r.idx (todoLt hk hm hc))).1)
      show (_ ++ _ ++ s.todo.filterMap (todoFor k'.heap d j id)).Sublist _
      rw [et]
      refine List.Sublist.append ?_ (List.Sublist.refl _)
      rcases out_split (gate_run cfg j es k hrun) (step_of _ _ _ _ hst) with ⟨m, w, n, h1, h2, h3⟩ | ⟨new, h1, h2⟩
      · unfold Spec.writtenTo
        rw [h3, h2, h1, List.filterMap_append, List.append_assoc]
        refine List.Sublist.append (List.Sublist.refl _) ?_
        rw [List.filterMap_cons, List.filterMap_nil, List.filterMap_cons, writtenFor_alloc]
        cases chanFor d id m <;> exact List.Sublist.refl _
      · have e2 : new.filterMap (Spec.writtenFor d id) = [] := by
          rw [List.filterMap_eq_nil_iff]
          intro w hw
          cases ht : w.tag with
          | none =>
            unfold Spec.writtenFor
            split
            · rw [ht]; split <;> rfl
            · rfl
          | some t =>
            obtain ⟨i, m, n, a, hf, rfl⟩ := h2 w hw t ht
            obtain ⟨_, hq1, hq2⟩ := (ha.core j k hk).heap i m hf
            unfold Spec.writtenFor Spec.hdr
            dsimp only
            rw [show firstValue (m.alloc n a).frame.header b!"destination" = firstValue m.frame.header Hdr.destination from
              firstValue_alloc m n a Hdr.destination (by decide) (by decide) (by decide), hq1]
            refine if_neg (fun e => ?_)
            have e1 := Option.some.inj e.1
            rw [e1] at hq2
            rw [hd] at hq2; cases hq2
        unfold Spec.writtenTo
        rw [h1, List.filterMap_append, e2, List.append_nil]
        exact List.Sublist.append (List.Sublist.refl _) (hmics.writeCh_sublist.filterMap _)
    · exact grow (h c x hx id)
  | flush j k r o hk ho hc => exact same (keepOne hk rfl rfl rfl (fun _ => rfl)) (fun _ _ _ => rfl)
  | skip r rs ht hr hn => exact same (keepAll rfl) (fun _ _ _ => rfl)
  | joinTopic r rs k dest ht hr hk hidx hdest hq => exact same (keepAll rfl) (fun _ _ _ => rfl)
  | wait r rs k dest ht hr hk hidx hdest hq => exact same (keepOne hk rfl rfl rfl (fun _ => fixed_putInList _ _ _ _)) (fun _ _ _ => rfl)
  | take r rs k dest m l ht hr hk hidx hdest hq => exact same (keepOne hk rfl rfl rfl (fun _ => fixed_putFrame _ _ _ _)) (noTopic ht (Or.inr ⟨r, rfl⟩))
  | leaveQueue r rs k dest ht hr hk hidx hdest hq => exact same (keepOne hk rfl rfl rfl (fun _ => fixed_putInList _ _ _ _)) (fun _ _ _ => rfl)
  | absent r rs k dest ht hr hk hidx hdest hq => exact same (keepAll rfl) (fun _ _ _ => rfl)
  | leaveTopic r rs k dest ht hr hk hidx hdest hq => exact same (keepAll rfl) (fun _ _ _ => rfl)
  | store front m rs dest ht hr => exact same (keepAll rfl) (fun _ _ _ => rfl)
  | give front m rs dest r q k ht hr hdd hq he hk =>
    exact same (keepOne hk rfl rfl rfl (fun _ => (fixed_putFrame _ _ _ _).trans (fixed_putInList _ _ _ _))) (noTopic ht (Or.inr ⟨r, rfl⟩))
  | cast m rs dest ht hr hdest hq =>
    rw [contains_eq] at hdest
    have htm : Spec.target m = some dest := hdest
    by_cases hdd : dest = d
    · subst hdd
      have hask : castTag dest s .proc = [m.tag] := by
        unfold castTag Spec.askedTopic; dsimp only; rw [hr]; dsimp only
        rw [htm, if_pos rfl]; rfl
      rw [hask]
      intro c k hk id
      have h0 := h c k hk id
      unfold course at h0 ⊢
      rw [ht, List.filterMap_nil, List.append_nil] at h0
      refine List.Sublist.append h0 ?_
      dsimp only
      rw [List.filterMap_map]
      refine filterMap_le_one (topic_nodup hi dest) ?_ ?_
      · intro r _ b hb
        dsimp only [Function.comp, todoFor] at hb
        split at hb
        · injection hb with hb; exact hb.symm
        · cases hb
      · intro r hr1 r' hr2 h1 h2
        dsimp only [Function.comp, todoFor] at h1 h2
        split at h1
        · rename_i e1
          split at h2
          · rename_i e2
            obtain ⟨rc, ri⟩ := r
            obtain ⟨rc', ri'⟩ := r'
            obtain ⟨_, e3, e4⟩ := e1
            obtain ⟨_, e5, e6⟩ := e2
            dsimp only at e3 e4 e5 e6
            subst e3 e5
            rw [hch.unique hk hr1 hr2 (e4.trans e6.symm)]
          · cases h2
        · cases h1
    · refine same (keepAll rfl) (fun heap c id => ?_)
      rw [ht, List.filterMap_nil, List.filterMap_eq_nil_iff]
      intro x hx
      obtain ⟨r, _, rfl⟩ := List.mem_map.1 hx
      exact if_neg (fun e => hdd e.1)
  | drop m rs dest ht hr => exact same (keepAll rfl) (fun _ _ _ => rfl)
  | pushQueue r t k ht hk =>
    refine same (keepOne hk rfl rfl rfl (fun _ => rfl)) (fun heap c id => ?_)
    rw [ht]; rfl
  | pushTopic dest r m t k ht hk hfr hc =>
    intro c x hx id
    refine grow ?_
    dsimp only at hx
    rw [get_set hk] at hx
    have htm : firstValue m.frame.header Hdr.destination = some dest := ha.todo dest r m (by rw [ht]; simp)
    split at hx
    · rename_i hj; injection hx with hx; subst hx hj
      have h0 := h r.conn k hk id
      unfold course at h0 ⊢
      dsimp only
      rw [ht, List.filterMap_cons] at h0
      rw [List.filterMap_append, List.filterMap_cons, List.filterMap_nil, chanFor_addressed, htm]
      have e1 : todoFor k.heap d r.conn id (.topic dest r m) = if some dest = some d ∧ (deref k.heap r.idx).id = id then some m.tag else none := by
        show (if dest = d ∧ r.conn = r.conn ∧ (deref k.heap r.idx).id = id then some m.tag else none) = _
        simp only [true_and, Option.some.injEq]
      rw [e1] at h0
      revert h0
      generalize (if some dest = some d ∧ (deref k.heap r.idx).id = id then some m.tag else none) = o
      intro h0
      cases o with
      | none => simpa using h0
      | some t2 => simpa using h0
    · rename_i hj
      have h0 := h c x hx id
      unfold course at h0 ⊢
      dsimp only
      rw [ht, List.filterMap_cons] at h0
      have e1 : todoFor x.heap d c id (.topic dest r m) = none := if_neg (fun e => hj e.2.1)
      rw [e1] at h0
      exact h0

theorem order_run_topic {cfg : Config} {d : Bytes} (hd : isQueueDestination d = false) {es : List Sys.Ev} {s : Sys} (h : Sys.init.run cfg es = some s)
    (hc : s.crashed = false) : ChainOk d s ∧ OrderOk d (Spec.broadcast d cfg es) s := by
  refine (trace_induction (P := fun es s => ChainOk d s ∧ OrderOk d (Spec.broadcast d cfg es) s) ⟨ChainOk.init d, fun c k hk => by cases hk⟩ ?_ es s h hc).2.2
  intro es s e s' hi ha hr hp hs
  refine ⟨chain_step hd hi ha hp.1 hs, ?_⟩
  have := order_step hd hi ha hp.1 hp.2 hs
  have e1 : Spec.broadcast d cfg (es ++ [e]) = Spec.broadcast d cfg es ++ castTag d s e := by
    unfold Spec.broadcast castTag
    rw [observe_snoc _ _ _ _ _ hr, List.filterMap_append]
  rw [e1]; exact this

/-! ## The order of the senders -/

/-- The messages the topic is asked to send are among those that reach the processor. -/
theorem broadcast_sublist {d : Bytes} {cfg : Config} : ∀ (es : List Sys.Ev) (s : Sys),
    ((Spec.observe (Spec.askedTopic d) cfg s es).filterMap Spec.castOf).Sublist (Spec.observe entered cfg s es)
  | [], _ => List.Sublist.refl _
  | e :: es, s => by
    simp only [Spec.observe]
    have h1 : ((Spec.askedTopic d s e).filterMap Spec.castOf).Sublist (entered s e) := by
      cases e with
      | proc =>
        unfold Spec.askedTopic entered
        dsimp only
        split <;> (try split) <;> first | (simp [Spec.castOf]; done) | (rename_i he _; rw [he]; simp [Spec.castOf])
      | _ => exact List.Sublist.refl _
    rw [List.filterMap_append]
    refine h1.append ?_
    split
    · exact List.Sublist.refl _
    · exact broadcast_sublist es _

theorem broadcast_nodup {cfg : Config} {es : List Sys.Ev} {s : Sys} (h : Sys.init.run cfg es = some s) (hc : s.crashed = false) (d : Bytes) :
    (Spec.broadcast d cfg es).Nodup := by
  refine (broadcast_sublist es Sys.init).nodup ?_
  rw [List.nodup_iff_count]
  intro t
  have := enq_run h hc t
  have h1 : made s.conns t ≤ 1 := by
    unfold made
    split
    · omega
    · split <;> omega
  omega

theorem Mic.sends {a b : Core} (hc : Counted a) (hm : Mic a b) :
    ∃ new, enqTags b.pend = enqTags a.pend ++ new ∧
      (Spec.messages b.me 0 b.effective).map (·.tag) = (Spec.messages a.me 0 a.effective).map (·.tag) ++ new := by
  cases hm with
  | send f hf =>
    refine ⟨[⟨a.me, a.sent⟩], ?_, ?_⟩
    · dsimp only; rw [enqTags_append]; rfl
    · dsimp only
      rw [messages_append, List.map_append, hc]
      have : f.command = b!"SEND" := hf
      simp [Spec.messages, this]
  | effect f hf =>
    refine ⟨[], (List.append_nil _).symm, ?_⟩
    dsimp only
    rw [messages_append, List.map_append]
    have : ¬ f.command = b!"SEND" := hf
    simp [Spec.messages, this]
  | _ => exact ⟨[], by first | exact (List.append_nil _).symm | (dsimp only; rw [enqTags_append]; rfl), (List.append_nil _).symm⟩

theorem Mics.sends {a b : Core} (hc : Counted a) (hm : Mics a b) :
    ∃ new, enqTags b.pend = enqTags a.pend ++ new ∧
      (Spec.messages b.me 0 b.effective).map (·.tag) = (Spec.messages a.me 0 a.effective).map (·.tag) ++ new := by
  induction hm with
  | refl => exact ⟨[], by simp, by simp⟩
  | step h hm ih =>
    obtain ⟨x, h1, h2⟩ := ih
    obtain ⟨y, h3, h4⟩ := hm.sends (h.counted hc)
    exact ⟨x ++ y, by rw [h3, h1, List.append_assoc], by rw [h4, h2, List.append_assoc]⟩

/-- The messages of a connection reach the processor in the order of its SEND frames. -/
def SentOk (E : List Tag) (s : Sys) : Prop := ∀ (c : Nat) (k : Conn), s.conns[c]? = some k →
  (E ++ enqTags s.reqCh).filter (fun t => decide (t.src = c)) ++ enqTags (pending k.outbox) = (Spec.messages c 0 k.effective).map (·.tag)

theorem sent_step {cfg : Config} {s s' : Sys} {e : Sys.Ev} {E : List Tag} (hi : SInv cfg s) (hE : ∀ t ∈ E ++ enqTags s.reqCh, t.src < s.conns.length)
    (h : SentOk E s) (hs : SysStep cfg s e s') : SentOk (E ++ entered s e) s' := by
  have proc : ∀ {r0 : Req} {rs : List Req}, s.reqCh = r0 :: rs → s'.reqCh = rs → e = .proc → SentOk (E ++ entered s e) s' := by
    intro r0 rs hr hr' he c k' hk'
    obtain ⟨k, hk, _, h2, h3, _, _⟩ := proc_keep hs (Or.inl he) hk'
    have : E ++ entered s e ++ enqTags s'.reqCh = E ++ enqTags s.reqCh := by
      rw [he, hr', hr, List.append_assoc]
      congr 1
      unfold entered
      dsimp only
      rw [hr]
      cases r0 <;> rfl
    rw [this, h2, h3]; exact h c k hk
  have push : s'.reqCh = s.reqCh → e = .push → SentOk (E ++ entered s e) s' := by
    intro hr he c k' hk'
    obtain ⟨k, hk, _, h2, h3, _, _⟩ := proc_keep hs (Or.inr he) hk'
    rw [he, hr, h2, h3]
    show (E ++ [] ++ _).filter _ ++ _ = _
    rw [List.append_nil]; exact h c k hk
  cases hs with
  | accept =>
    intro c k' hk'
    show (E ++ [] ++ enqTags s.reqCh).filter _ ++ _ = _
    rw [List.append_nil]
    rcases conns_evol (cfg := cfg) (SysStep.accept (cfg := cfg) (s := s)) hk' with ⟨hn, rfl⟩ | ⟨k, hk, _⟩
    · have : (E ++ enqTags s.reqCh).filter (fun t => decide (t.src = c)) = [] := by
        rw [List.filter_eq_nil_iff]
        intro t ht
        have h1 := hE t ht
        rw [List.getElem?_eq_none_iff] at hn
        simp only [decide_eq_true_eq]
        omega
      rw [this]; rfl
    · have hlt : c < s.conns.length := (List.getElem?_eq_some_iff.1 hk).1
      dsimp only at hk'
      rw [List.getElem?_append_left hlt] at hk'
      exact h c k' hk'
  | conn j e k k' hk hin hst =>
    intro c x hx
    show (E ++ [] ++ enqTags s.reqCh).filter _ ++ _ = _
    rw [List.append_nil]
    dsimp only at hx
    rw [get_set hk] at hx
    split at hx
    · rename_i hj; injection hx with hx; subst hx hj
      have hmics := mics_conn hi hk hin hst
      obtain ⟨hcnt, hme⟩ := hi.counted hk
      obtain ⟨new, h1, h2⟩ := hmics.sends hcnt
      have hme2 : k'.core.me = j := hmics.evol.me.trans hme
      have hme1 : k.core.me = j := hme
      rw [hme2, hme1] at h2
      have h0 := h j k hk
      have h1 : enqTags (pending k'.outbox) = enqTags (pending k.outbox) ++ new := h1
      have h2 : (Spec.messages j 0 k'.effective).map (·.tag) = (Spec.messages j 0 k.effective).map (·.tag) ++ new := h2
      rw [h1, h2, ← h0, List.append_assoc]
    · exact h c x hx
  | flush j k r o hk ho hc =>
    have hp : pending k.outbox = r :: pending o := by rw [ho]; rfl
    have hsrc : ∀ t ∈ enqTags [r], t.src = j := by
      intro t ht
      have h0 := h j k hk
      have h1 : t ∈ (Spec.messages j 0 k.effective).map (·.tag) := by
        rw [← h0, hp]
        refine List.mem_append_right _ ?_
        have : r :: pending o = [r] ++ pending o := rfl
        rw [this, enqTags_append]
        exact List.mem_append_left _ ht
      obtain ⟨m, hm, rfl⟩ := List.mem_map.1 h1
      exact (messages_tag hm).1
    intro c x hx
    show (E ++ [] ++ enqTags (s.reqCh ++ [r])).filter _ ++ _ = _
    rw [List.append_nil]
    dsimp only at hx
    rw [get_set hk] at hx
    rw [enqTags_append, ← List.append_assoc, List.filter_append]
    split at hx
    · rename_i hj; injection hx with hx; subst hx hj
      have h0 := h j k hk
      have e2 : (enqTags [r]).filter (fun t => decide (t.src = j)) = enqTags [r] :=
        List.filter_eq_self.2 (fun t ht => by simpa using hsrc t ht)
      rw [e2, List.append_assoc, ← enqTags_append]
      rw [hp] at h0
      exact h0
    · rename_i hj
      have e2 : (enqTags [r]).filter (fun t => decide (t.src = c)) = [] := by
        rw [List.filter_eq_nil_iff]
        intro t ht
        simp only [decide_eq_true_eq]
        rw [hsrc t ht]; exact hj
      rw [e2, List.append_nil]
      exact h c x hx
  | skip r rs ht hr => exact proc hr rfl rfl
  | joinTopic r rs k dest ht hr => exact proc hr rfl rfl
  | wait r rs k dest ht hr => exact proc hr rfl rfl
  | take r rs k dest m l ht hr => exact proc hr rfl rfl
  | leaveQueue r rs k dest ht hr => exact proc hr rfl rfl
  | absent r rs k dest ht hr => exact proc hr rfl rfl
  | leaveTopic r rs k dest ht hr => exact proc hr rfl rfl
  | store front m rs dest ht hr => exact proc hr rfl rfl
  | give front m rs dest r q k ht hr => exact proc hr rfl rfl
  | cast m rs dest ht hr => exact proc hr rfl rfl
  | drop m rs dest ht hr => exact proc hr rfl rfl
  | pushQueue r t k ht hk => exact push rfl rfl
  | pushTopic dest r m t k ht hk => exact push rfl rfl

theorem sent_run {cfg : Config} {es : List Sys.Ev} {s : Sys} (h : Sys.init.run cfg es = some s) (hc : s.crashed = false) :
    SentOk (Spec.observe entered cfg Sys.init es) s := by
  refine (trace_induction (P := fun es s => (∀ t, (Spec.observe entered cfg Sys.init es).count t + (enqTags s.reqCh).count t + enqSum s.conns t = made s.conns t) ∧
    SentOk (Spec.observe entered cfg Sys.init es) s) ⟨?_, fun c k hk => by cases hk⟩ ?_ es s h hc).2.2.2
  · intro t; simp [Spec.observe, Sys.init, enqTags, enqSum, made]
  · intro es s e s' hi _ hr hp hs
    rw [observe_snoc _ _ _ _ _ hr]
    refine ⟨fun t => ?_, sent_step hi ?_ hp.2 hs⟩
    · rw [List.count_append]
      have := enq_step hi hs t
      have := hp.1 t
      omega
    · intro t ht
      have h1 := List.count_pos_iff.2 ht
      rw [List.count_append] at h1
      have h2 := hp.1 t
      have h3 : 0 < made s.conns t := by omega
      unfold made at h3
      split at h3
      · omega
      · rename_i k hk
        exact (List.getElem?_eq_some_iff.1 hk).1

/-- The messages of a sender are sent to the subscriptions of a topic in the order of its SEND frames. -/
theorem broadcast_sent {cfg : Config} {es : List Sys.Ev} {s : Sys} (h : Sys.init.run cfg es = some s) (hc : s.crashed = false) (d : Bytes) {c : Nat} {k : Conn}
    (hk : s.conns[c]? = some k) :
    ((Spec.broadcast d cfg es).filter (fun t => decide (t.src = c))).Sublist ((Spec.messages c 0 k.effective).map (·.tag)) := by
  rw [← sent_run h hc c k hk, List.filter_append, List.append_assoc]
  exact ((broadcast_sublist es Sys.init).filter _).trans (List.sublist_append_left _ _)

end Stomp.Server
