import Verif.Proofs.Server.QueueSim
import Verif.Proofs.Server.Origin
import Verif.Spec.Topic
/-! # The topics of the server behave as specified -/
namespace Stomp.Server
open Stomp
open Stomp.Spec (firstValue)

theorem Matched_mono {α β : Type} {R R' : α → β → Prop} (h : ∀ x y, R x y → R' x y) {a : List α} {b : List β} (hm : Spec.Matched R a b) : Spec.Matched R' a b := by
  induction hm with
  | nil => exact .nil
  | snoc _ hr ih => exact .snoc ih (h _ _ hr)

/-- A subscription keeps its destination, id and mode. -/
theorem theSub_keep {cfg : Config} {s s' : Sys} {e : Sys.Ev} (hi : SInv cfg s) (hs : SysStep cfg s e s') {r : SubRef} {x : Sub} (hx : Spec.theSub s r = some x) :
    ∃ y, Spec.theSub s' r = some y ∧ y.fixed = x.fixed := by
  rw [theSub_look] at hx
  obtain ⟨k, hk, hl, hd⟩ := look_some hx
  obtain ⟨k', hk'⟩ := conns_keep hs hk
  rcases conns_evol hs hk' with ⟨h, _⟩ | ⟨k0, h0, h⟩
  · rw [hk] at h; cases h
  · rw [hk] at h0; injection h0 with h0; subst h0
    have : k.heap.length ≤ k'.heap.length ∧ (deref k'.heap r.idx).fixed = (deref k.heap r.idx).fixed := by
      rcases h with ⟨e, he, hst⟩ | h
      · have ev := (mics_conn hi hk he hst).evol
        exact ⟨ev.len, ev.fixed _ hl⟩
      · exact ⟨Nat.le_of_eq h.len.symm, h.fixed _⟩
    refine ⟨deref k'.heap r.idx, ?_, by rw [this.2, hd]⟩
    rw [theSub_look]; exact look_of hk' (by omega)

theorem handed_keep {cfg : Config} {d : Bytes} {s s' : Sys} {e : Sys.Ev} (hi : SInv cfg s) (hs : SysStep cfg s e s') (x : SubRef × Msg) (y : Nat × Msg)
    (h : Spec.Handed d s x y) : Spec.Handed d s' x y := by
  obtain ⟨h1, u, h2, h3, h4⟩ := h
  obtain ⟨v, hv, hf⟩ := theSub_keep hi hs h2
  refine ⟨h1, v, hv, ?_, ?_⟩
  · have : v.dest = u.dest := by have := congrArg Sub.dest hf; exact this
    rw [this]; exact h3
  · have : v.id = u.id := by have := congrArg Sub.id hf; exact this
    rw [this]; exact h4

/-! ## What appears in the write channels -/

theorem newWrites_nil {s s' : Sys} (h : ∀ (c : Nat) (k k' : Conn), s.conns[c]? = some k → s'.conns[c]? = some k' → k'.writeCh.length ≤ k.writeCh.length) :
    Spec.newWrites s s' = [] := by
  unfold Spec.newWrites
  rw [List.flatMap_eq_nil_iff]
  intro c _
  split
  · rename_i k k' hk hk'
    rw [List.drop_eq_nil_of_le (h c k k' hk hk')]; rfl
  · rfl

theorem flatMap_range_one {α : Type} (n j : Nat) (x : α) : (List.range n).flatMap (fun c => if c = j then [x] else []) = if j < n then [x] else [] := by
  induction n with
  | zero => simp
  | succ n ih =>
    rw [List.range_succ, List.flatMap_append, ih]
    by_cases h : j < n
    · rw [if_pos h, if_pos (by omega)]
      have : n ≠ j := by omega
      simp [this]
    · rw [if_neg h]
      by_cases h2 : n = j
      · subst h2; simp
      · rw [if_neg (by omega)]; simp [h2]

theorem flatMap_congr_mem {α β : Type} {l : List α} {f g : α → List β} (h : ∀ x ∈ l, f x = g x) : l.flatMap f = l.flatMap g := by
  induction l with
  | nil => rfl
  | cons x l ih =>
    rw [List.flatMap_cons, List.flatMap_cons, h x List.mem_cons_self, ih (fun y hy => h y (List.mem_cons_of_mem _ hy))]

theorem newWrites_one {s s' : Sys} {j : Nat} {k k' : Conn} {m : Msg} (hk : s.conns[j]? = some k) (hs : s'.conns = s.conns.set j k')
    (hw : k'.writeCh = k.writeCh ++ [m]) : Spec.newWrites s s' = [(j, m)] := by
  unfold Spec.newWrites
  have hlt : j < s.conns.length := (List.getElem?_eq_some_iff.1 hk).1
  refine Eq.trans (flatMap_congr_mem (g := fun c => if c = j then [(j, m)] else []) ?_) ?_
  · skip
    intro c hc
    rw [hs, get_set hk]
    by_cases hcj : c = j
    · subst hcj
      rw [hk, if_pos rfl, if_pos rfl]
      dsimp only
      rw [hw, List.drop_left]; rfl
    · rw [if_neg (fun h => hcj h.symm), if_neg hcj]
      have hlc : c < s.conns.length := by simpa using hc
      rw [List.getElem?_eq_getElem hlc]
      dsimp only
      rw [List.drop_eq_nil_of_le (Nat.le_refl _)]; rfl
  · rw [flatMap_range_one, if_pos hlt]

theorem Mic.writeCh_len {a b : Core} (hm : Mic a b) : b.writeCh.length ≤ a.writeCh.length := by
  cases hm <;> first | exact Nat.le_refl _ | skip
  all_goals (rename_i h; rw [h]; simp)

theorem Mics.writeCh_len {a b : Core} (hm : Mics a b) : b.writeCh.length ≤ a.writeCh.length := by
  induction hm with
  | refl => exact Nat.le_refl _
  | step _ hm ih => exact Nat.le_trans hm.writeCh_len ih

theorem newWrites_set {s s' : Sys} {j : Nat} {k k' : Conn} (hk : s.conns[j]? = some k) (hs : s'.conns = s.conns.set j k')
    (hw : k'.writeCh.length ≤ k.writeCh.length) : Spec.newWrites s s' = [] := by
  refine newWrites_nil ?_
  intro c a a' ha ha'
  rw [hs, get_set hk] at ha'
  split at ha'
  · rename_i hj; subst hj
    rw [hk] at ha; injection ha with ha; subst ha
    injection ha' with ha'; subst ha'; exact hw
  · rw [ha] at ha'; injection ha' with ha'; subst ha'; exact Nat.le_refl _

theorem newWrites_same {s s' : Sys} (hs : s'.conns = s.conns) : Spec.newWrites s s' = [] := by
  refine newWrites_nil ?_
  intro c a a' ha ha'
  rw [hs, ha] at ha'; injection ha' with ha'; subst ha'; exact Nat.le_refl _

/-- The other headers stay. -/
theorem filter_set (h : Header) (k v : Bytes) : (h.set k v).filter (fun e => decide (e.1 ≠ k)) = h.filter (fun e => decide (e.1 ≠ k)) := by
  induction h with
  | nil => simp [Header.set]
  | cons e h ih =>
    unfold Header.set
    split
    · rename_i he; simp [he]
    · rename_i he; simp [he]
      simpa using ih

theorem addressed_to (m : Msg) (id : Bytes) : Spec.AddressedTo id m (m.addressed id) :=
  ⟨rfl, rfl, rfl, firstValue_addressed m id, filter_set _ _ _⟩

theorem target_addressed (m : Msg) (id : Bytes) : Spec.target (m.addressed id) = Spec.target m := by
  unfold Spec.target
  show firstValue (m.frame.header.set _ _) _ = _
  rw [firstValue_set, if_neg (by decide)]

/-- The state of a topic agrees with the specification. -/
def TopicOk (d : Bytes) (i : List Spec.TAsk) (o : List (Nat × Msg)) (s : Sys) : Prop :=
  ∃ done, Spec.Topic i (done ++ Spec.stillToDo d s) (s.topics.list d) ∧ Spec.Matched (Spec.Handed d s) done o

theorem topic_step {cfg : Config} {d : Bytes} (hd : isQueueDestination d = false) {s s' : Sys} {e : Sys.Ev} {i : List Spec.TAsk} {o : List (Nat × Msg)}
    (hi : SInv cfg s) (ha : Addr s) (h : TopicOk d i o s) (hs : SysStep cfg s e s') (hst : s.step cfg e = some s') :
    TopicOk d (i ++ Spec.askedTopic d s e) (o ++ Spec.given d cfg s e) s' := by
  obtain ⟨done, h1, h2⟩ := h
  have h2 : Spec.Matched (Spec.Handed d s') done o := Matched_mono (handed_keep hi hs) h2
  have hg : Spec.given d cfg s e = (Spec.newWrites s s').filter (fun x => decide (Spec.target x.2 = some d)) := by
    unfold Spec.given; rw [hst]
  have hg0 : Spec.newWrites s s' = [] → Spec.given d cfg s e = [] := by intro e2; rw [hg, e2]; rfl
  have same : Spec.askedTopic d s e = [] → Spec.newWrites s s' = [] → Spec.stillToDo d s' = Spec.stillToDo d s → s'.topics.list d = s.topics.list d →
      TopicOk d (i ++ Spec.askedTopic d s e) (o ++ Spec.given d cfg s e) s' := by
    intro e1 e2 e3 e4
    rw [hg, e1, e2, List.filter_nil, List.append_nil, List.append_nil]
    exact ⟨done, by rw [e3, e4]; exact h1, h2⟩
  have todo_nil : ∀ t : Sys, t.todo = [] → Spec.stillToDo d t = [] := by
    intro t ht; unfold Spec.stillToDo; rw [ht]; rfl
  cases hs with
  | accept =>
    refine same rfl (newWrites_nil ?_) rfl rfl
    intro c k k' hk hk'
    have hlt := (List.getElem?_eq_some_iff.1 hk).1
    rw [List.getElem?_append_left hlt, hk] at hk'
    injection hk' with hk'; subst hk'; exact Nat.le_refl _
  | conn c e k k' hk hin hcs => exact same rfl (newWrites_set hk rfl (mics_conn hi hk hin hcs).writeCh_len) rfl rfl
  | flush c k r q hk ho hc => exact same rfl (newWrites_set hk rfl (Nat.le_refl _)) rfl rfl
  | skip r rs ht hr hn =>
    refine same ?_ (newWrites_same rfl) rfl rfl
    unfold Spec.askedTopic; dsimp only; rw [hr]
    rcases hn with ⟨c, rfl⟩ | ⟨c, rfl⟩ <;> rfl
  | joinTopic r rs k dest ht hr hk hidx hdest hq =>
    have hask : Spec.askedTopic d s .proc = if dest = d then [.subscribe r] else [] := by
      unfold Spec.askedTopic; dsimp only; rw [hr]; dsimp only
      rw [look_at hk hidx, hdest]; simp only [Option.some.injEq]
    by_cases hdd : dest = d
    · subst hdd
      rw [hask, if_pos rfl, hg0 (newWrites_same rfl), List.append_nil]
      refine ⟨done, ?_, h2⟩
      dsimp only
      rw [AMap.list_set, if_pos rfl]
      exact h1.join
    · refine same (by rw [hask, if_neg hdd]) (newWrites_same rfl) rfl ?_
      dsimp only; rw [AMap.list_set, if_neg hdd]
  | wait r rs k dest ht hr hk hidx hdest hq he hl =>
    refine same ?_ (newWrites_set hk rfl (Nat.le_refl _)) rfl rfl
    unfold Spec.askedTopic; dsimp only; rw [hr]; dsimp only
    rw [look_at hk hidx, if_neg]
    intro e; injection e with e; rw [hdest] at e; subst e; rw [hq] at hd; cases hd
  | take r rs k dest m l ht hr hk hidx hdest hq hm hfr =>
    refine same ?_ (newWrites_set hk rfl (Nat.le_refl _)) ?_ rfl
    · unfold Spec.askedTopic; dsimp only; rw [hr]; dsimp only
      rw [look_at hk hidx, if_neg]
      intro e; injection e with e; rw [hdest] at e; subst e; rw [hq] at hd; cases hd
    · rw [todo_nil s ht]; rfl
  | leaveQueue r rs k dest ht hr hk hidx hdest hq hm =>
    refine same ?_ (newWrites_set hk rfl (Nat.le_refl _)) rfl rfl
    unfold Spec.askedTopic; dsimp only; rw [hr]; dsimp only
    rw [look_at hk hidx, if_neg]
    intro e; injection e with e; rw [hdest] at e; subst e; rw [hq] at hd; cases hd
  | absent r rs k dest ht hr hk hidx hdest hq hm =>
    refine same ?_ (newWrites_same rfl) rfl rfl
    unfold Spec.askedTopic; dsimp only; rw [hr]; dsimp only
    rw [look_at hk hidx, if_neg]
    intro e; injection e with e; rw [hdest] at e; subst e; rw [hq] at hd; cases hd
  | leaveTopic r rs k dest ht hr hk hidx hdest hq =>
    have hask : Spec.askedTopic d s .proc = if dest = d then [.unsubscribe r] else [] := by
      unfold Spec.askedTopic; dsimp only; rw [hr]; dsimp only
      rw [look_at hk hidx, hdest]; simp only [Option.some.injEq]
    by_cases hdd : dest = d
    · subst hdd
      rw [hask, if_pos rfl, hg0 (newWrites_same rfl), List.append_nil]
      refine ⟨done, ?_, h2⟩
      dsimp only
      rw [AMap.list_set, if_pos rfl]
      exact h1.leave
    · refine same (by rw [hask, if_neg hdd]) (newWrites_same rfl) rfl ?_
      dsimp only; rw [AMap.list_set, if_neg hdd]
  | store front m rs dest ht hr hdest hq he =>
    rw [contains_eq] at hdest
    refine same ?_ (newWrites_same rfl) rfl rfl
    have : Spec.target m = some dest := hdest
    unfold Spec.askedTopic; dsimp only; rw [hr]
    have hne : dest ≠ d := by rintro rfl; rw [hq] at hd; cases hd
    cases front <;> simp [putReq, this, hne]
  | give front m rs dest r q k ht hr hdest hq he hk hidx hfr =>
    rw [contains_eq] at hdest
    refine same ?_ (newWrites_set hk rfl (Nat.le_refl _)) ?_ rfl
    · have : Spec.target m = some dest := hdest
      unfold Spec.askedTopic; dsimp only; rw [hr]
      have hne : dest ≠ d := by rintro rfl; rw [hq] at hd; cases hd
      cases front <;> simp [putReq, this, hne]
    · rw [todo_nil s ht]; rfl
  | cast m rs dest ht hr hdest hq =>
    rw [contains_eq] at hdest
    have htm : Spec.target m = some dest := hdest
    have hask : Spec.askedTopic d s .proc = if dest = d then [.cast m] else [] := by
      unfold Spec.askedTopic; dsimp only; rw [hr]; dsimp only
      rw [htm]; simp only [Option.some.injEq]
    have hst : ∀ l : List SubRef, (l.map (fun r => Delivery.topic dest r m)).filterMap
        (fun | .topic _ r m => if Spec.target m = some d then some (r, m) else none | .queue _ => none) = if dest = d then l.map (fun r => (r, m)) else [] := by
      intro l
      induction l with
      | nil => simp
      | cons x l ih =>
        rw [List.map_cons, List.filterMap_cons]
        dsimp only
        rw [htm]
        by_cases hdd : dest = d
        · rw [if_pos (by rw [hdd]), if_pos hdd] at *
          dsimp only; rw [ih, List.map_cons]
        · rw [if_neg (fun e => hdd (Option.some.inj e)), if_neg hdd] at *
          dsimp only; rw [ih]
    rw [todo_nil s ht, List.append_nil] at h1
    by_cases hdd : dest = d
    · rw [hask, if_pos hdd, hg0 (newWrites_same rfl), List.append_nil]
      refine ⟨done, ?_, h2⟩
      have e3 := hst (s.topics.list dest)
      rw [if_pos hdd] at e3
      have e4 : Spec.stillToDo d { s with reqCh := rs, todo := (s.topics.list dest).map (fun r => .topic dest r m), tlog := s.tlog ++ [(dest, .cast m.tag)] } =
        (s.topics.list dest).map (fun r => (r, m)) := e3
      rw [e4, hdd]
      exact h1.cast
    · refine same (by rw [hask, if_neg hdd]) (newWrites_same rfl) ?_ rfl
      have e3 := hst (s.topics.list dest)
      rw [if_neg hdd] at e3
      rw [todo_nil s ht]
      exact e3
  | drop m rs dest ht hr hdest hq =>
    refine same ?_ (newWrites_same rfl) rfl rfl
    unfold Spec.askedTopic; dsimp only; rw [hr]
  | pushQueue r t k ht hk hc =>
    refine same rfl (newWrites_set hk rfl (Nat.le_refl _)) ?_ rfl
    unfold Spec.stillToDo; dsimp only; rw [ht]; rfl
  | pushTopic dest r m t k ht hk hfr hc =>
    have htm : Spec.target m = some dest := ha.todo dest r m (by rw [ht]; simp)
    have hg2 : Spec.given d cfg s .push = if dest = d then [(r.conn, m.addressed (deref k.heap r.idx).id)] else [] := by
      rw [hg, newWrites_one (m := m.addressed (deref k.heap r.idx).id) hk rfl rfl, List.filter_cons, target_addressed, htm]
      by_cases hdd : dest = d
      · rw [if_pos hdd, if_pos (by simp [hdd])]; rfl
      · rw [if_neg hdd, if_neg (by simp [hdd])]; rfl
    have hstill : Spec.stillToDo d s = (if dest = d then [(r, m)] else []) ++
        Spec.stillToDo d { s with conns := s.conns.set r.conn { k with writeCh := k.writeCh ++ [m.addressed (deref k.heap r.idx).id] }, todo := t, tlog := s.tlog ++ [(dest, .give r (m.addressed (deref k.heap r.idx).id))] } := by
      unfold Spec.stillToDo; rw [ht, List.filterMap_cons]; dsimp only; rw [htm]
      by_cases hdd : dest = d
      · rw [if_pos (by rw [hdd]), if_pos hdd]; rfl
      · rw [if_neg (fun e => hdd (Option.some.inj e)), if_neg hdd]; rfl
    rw [hg2]
    have hask : Spec.askedTopic d s .push = [] := rfl
    rw [hask, List.append_nil]
    by_cases hdd : dest = d
    · rw [if_pos hdd] at hstill ⊢
      refine ⟨done ++ [(r, m)], ?_, h2.snoc ?_⟩
      · rw [hstill] at h1
        rw [List.append_assoc]; exact h1
      · obtain ⟨_, x, hx, hxd⟩ := ha.t dest r (hi.due dest r m (by rw [ht]; simp))
        obtain ⟨k2, hk2, hlx, hdx⟩ := look_some hx
        rw [hk] at hk2; injection hk2 with hk2; subst hk2
        refine ⟨rfl, deref k.heap r.idx, ?_, by rw [hdx, hxd, hdd], addressed_to _ _⟩
        rw [theSub_look]
        exact look_of (k := { k with writeCh := k.writeCh ++ [m.addressed (deref k.heap r.idx).id] }) (by dsimp only; rw [get_set hk, if_pos rfl]) hlx
    · rw [if_neg hdd] at hstill ⊢
      rw [List.append_nil]
      exact ⟨done, by rw [hstill, List.nil_append] at h1; exact h1, h2⟩

/-- Every topic of every reachable state agrees with the specification. -/
theorem topic_run {cfg : Config} {d : Bytes} (hd : isQueueDestination d = false) {es : List Sys.Ev} {s : Sys} (h : Sys.init.run cfg es = some s)
    (hc : s.crashed = false) :
    TopicOk d (Spec.observe (Spec.askedTopic d) cfg Sys.init es) (Spec.observe (Spec.given d cfg) cfg Sys.init es) s := by
  refine (trace_induction_step (P := fun es s => TopicOk d (Spec.observe (Spec.askedTopic d) cfg Sys.init es)
    (Spec.observe (Spec.given d cfg) cfg Sys.init es) s) ⟨[], Spec.Topic.start, .nil⟩ ?_ es s h hc).2.2
  intro es s e s' hi ha hr hp hs hst
  rw [observe_snoc _ _ _ _ _ hr, observe_snoc _ _ _ _ _ hr]
  exact topic_step hd hi ha hp hs hst

end Stomp.Server
