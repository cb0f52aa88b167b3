import Verif.Spec.Busy
import Verif.Proofs.Server.Returns
/-! # What the server does by itself comes to an end -/
set_option linter.unusedSimpArgs false
namespace Stomp.Server
open Stomp

theorem sum_map_set {α : Type} (f : α → Nat) (l : List α) (i : Nat) (x y : α) (h : l[i]? = some x) : ((l.set i y).map f).sum + f x = (l.map f).sum + f y := by
  induction l generalizing i with
  | nil => cases h
  | cons a l ih =>
    cases i with
    | zero => injection h with h; subst h; simp only [List.set_cons_zero, List.map_cons, List.sum_cons]; omega
    | succ i =>
      have := ih i h
      simp only [List.set_cons_succ, List.map_cons, List.sum_cons]; omega

/-- Steps left in `cleanupConn`. -/
def Stage.rank : Stage → Nat
  | .run => 9 | .discard1 => 8 | .unsub => 7 | .acklist => 6 | .discard2 => 5 | .drain1 => 4 | .announce => 3 | .discard3 => 2 | .drain2 => 1 | .closed => 0

def Req.subs : Req → Nat | .subscribe _ => 1 | _ => 0
def Req.sends : Req → Nat | .enqueue _ => 1 | _ => 0
def Req.work : Req → Nat | .requeue _ => 5 | _ => 1
def Out.subs : Out → Nat | .req r => r.subs | .panic => 0
def Out.sends : Out → Nat | .req r => r.sends | .panic => 0
def Out.work : Out → Nat | .req r => r.work + 1 | .panic => 0
def Delivery.subs : Delivery → Nat | .queue _ => 1 | .topic .. => 0
def Delivery.work : Delivery → Nat | .queue _ => 4 | .topic .. => 2

/-- Queue subscriptions on their way: asking for a message, or holding one. -/
def Conn.onWay (k : Conn) : Nat := (k.outbox.map Out.subs).sum + k.subCh.length + k.subList.length
def Conn.toSend (k : Conn) : Nat := (k.outbox.map Out.sends).sum
def Conn.work (k : Conn) : Nat := (k.outbox.map Out.work).sum + 3 * k.subCh.length + k.writeCh.length

def Sys.unread (s : Sys) : Nat := (s.conns.map (·.inq.length)).sum
def Sys.open_ (s : Sys) : Nat := (s.conns.map (·.stage.rank)).sum
def Sys.onWay (s : Sys) : Nat := (s.conns.map Conn.onWay).sum + (s.reqCh.map Req.subs).sum + (s.todo.map Delivery.subs).sum + AMap.sum List.length s.queues
def Sys.toSend (s : Sys) : Nat := (s.conns.map Conn.toSend).sum + (s.reqCh.map Req.sends).sum
def Sys.work (s : Sys) : Nat := (s.conns.map Conn.work).sum + (s.reqCh.map Req.work).sum + (s.todo.map Delivery.work).sum + 4 * AMap.sum List.length s.store

/-- One thing after the other gets less. -/
inductive Less : (a b k e w : Nat) → (a' b' k' e' w' : Nat) → Prop
  | unread {a b k e w a' b' k' e' w' : Nat} (h : a' < a) : Less a b k e w a' b' k' e' w'
  | open_ {a b k e w a' b' k' e' w' : Nat} (ha : a' ≤ a) (h : b' < b) : Less a b k e w a' b' k' e' w'
  | onWay {a b k e w a' b' k' e' w' : Nat} (ha : a' ≤ a) (hb : b' ≤ b) (h : k' < k) : Less a b k e w a' b' k' e' w'
  | toSend {a b k e w a' b' k' e' w' : Nat} (ha : a' ≤ a) (hb : b' ≤ b) (hk : k' ≤ k) (h : e' < e) : Less a b k e w a' b' k' e' w'
  | work {a b k e w a' b' k' e' w' : Nat} (ha : a' ≤ a) (hb : b' ≤ b) (hk : k' ≤ k) (he : e' ≤ e) (h : w' < w) : Less a b k e w a' b' k' e' w'

def Sys.Less (s s' : Sys) : Prop := Server.Less s.unread s.open_ s.onWay s.toSend s.work s'.unread s'.open_ s'.onWay s'.toSend s'.work

def Conn.Less (s s' : Conn) : Prop := Server.Less s.inq.length s.stage.rank s.onWay s.toSend s.work s'.inq.length s'.stage.rank s'.onWay s'.toSend s'.work

theorem conn_less {cfg : Config} {k k' : Conn} {e : Conn.Ev} (hg : Gate cfg k) (hi : Sys.internal e = true) (ho : Spec.Own (.conn 0 e)) (hs : Step cfg k e k') : k.Less k' := by
  have sel : k.atSelect = true → k.stage = .run ∧ k.outbox = [] := by
    intro h
    unfold Conn.atSelect at h
    simp at h
    exact h
  cases hs with
  | recv => exact absurd ho id
  | readErr => exact absurd ho id
  | timerOk => exact absurd ho id
  | timerFail => exact absurd ho id
  | flushed => cases hi
  | setFrame => cases hi
  | setInList => cases hi
  | pushSub => cases hi
  | pushTopic => cases hi
  | frame ok1 ok2 f q c1 _ f' r ha hq hsf hfin =>
    have this : ∀ c2 : Conn, c2.inq = q → k.Less c2 := fun c2 h => .unread (by rw [h, hq]; simp)
    rcases frame_cases hg hsf hfin with ⟨_, v, cx, cy, _, ⟨_, rfl⟩ | ⟨_, rfl⟩⟩ | ⟨_, _, e, v, ⟨_, rfl⟩ | ⟨_, rfl⟩⟩ | ⟨_, hh', hf⟩
    · exact this _ rfl
    · exact this _ rfl
    · exact this _ rfl
    · exact this _ rfl
    · have h2 : c1.inq = q := hh'.keeps.inq
      cases hf <;> exact this _ h2
  | readClosed ha => exact .open_ (Nat.le_refl _) (by rw [(sel ha).1]; simp [Stage.rank])
  | wrErr m w ha => exact .open_ (Nat.le_refl _) (by rw [(sel ha).1]; simp [Stage.rank])
  | wrFail ok m w ha => exact .open_ (Nat.le_refl _) (by rw [(sel ha).1]; simp [Stage.rank])
  | subFail ok i l j m ha => exact .open_ (Nat.le_refl _) (by rw [(sel ha).1]; simp [Stage.rank])
  | wrOk m w ha hw => exact .work (Nat.le_refl _) (Nat.le_refl _) (Nat.le_refl _) (Nat.le_refl _) (by unfold Conn.work; rw [hw]; simp)
  | subGone ok i l ha hl =>
    refine .onWay (Nat.le_refl _) (Nat.le_refl _) ?_
    unfold Conn.onWay Conn.emit
    rw [hl, (sel ha).2]
    simp [Out.subs, Req.subs]
  | subNil ok i l j ha hl =>
    refine .work (Nat.le_refl _) (Nat.le_refl _) ?_ ?_ ?_
    · unfold Conn.onWay; rw [hl, (sel ha).2]; simp [Out.subs] <;> omega
    · unfold Conn.toSend; rw [(sel ha).2]; simp [Out.sends]
    · unfold Conn.work; rw [hl, (sel ha).2]; simp [Out.work] <;> omega
  | subAuto i l j m ha hl =>
    refine .work (Nat.le_refl _) (Nat.le_refl _) ?_ ?_ ?_
    · unfold Conn.onWay Conn.emit; rw [hl, (sel ha).2]; simp [Out.subs, Req.subs] <;> omega
    · unfold Conn.toSend Conn.emit; rw [(sel ha).2]; simp [Out.sends, Req.sends]
    · unfold Conn.work Conn.emit; rw [hl, (sel ha).2]; simp [Out.work, Req.work] <;> omega
  | subPanic i l j m ha hl =>
    refine .work (Nat.le_refl _) (Nat.le_refl _) ?_ ?_ ?_
    · unfold Conn.onWay; rw [hl, (sel ha).2]; simp [Out.subs] <;> omega
    · unfold Conn.toSend; rw [(sel ha).2]; simp [Out.sends]
    · unfold Conn.work; rw [hl, (sel ha).2]; simp [Out.work] <;> omega
  | subAdd i l j m ha hl =>
    refine .work (Nat.le_refl _) (Nat.le_refl _) ?_ (Nat.le_refl _) ?_
    · unfold Conn.onWay; rw [hl, (sel ha).2]; simp <;> omega
    · unfold Conn.work; rw [hl, (sel ha).2]; simp <;> omega
  | discard m w ho hs hw => exact .work (Nat.le_refl _) (Nat.le_refl _) (Nat.le_refl _) (Nat.le_refl _) (by unfold Conn.work; rw [hw]; simp)
  | discardEnd st ho hw hs =>
    refine .open_ (Nat.le_refl _) ?_
    rcases hs with ⟨h1, rfl⟩ | ⟨h1, rfl⟩ | ⟨h1, rfl⟩ <;> rw [h1] <;> simp [Stage.rank]
  | acklist hob hs => exact .open_ (Nat.le_refl _) (by rw [hs]; show Stage.rank .discard2 < _; simp [Stage.rank])
  | drain i l hob hs hl =>
    refine .onWay (Nat.le_refl _) (Nat.le_refl _) ?_
    unfold Conn.onWay Conn.emit
    rw [hl, hob]
    simp [Out.subs, Req.subs]
  | drainEnd st ho hl hs =>
    refine .open_ (Nat.le_refl _) ?_
    rcases hs with ⟨h1, rfl⟩ | ⟨h1, rfl⟩ <;> rw [h1] <;> simp [Stage.rank]
  | announce hob hs => exact .open_ (Nat.le_refl _) (by rw [hs]; show Stage.rank .discard3 < _; simp [Stage.rank])
  | unsub order hob hs => exact .open_ (Nat.le_refl _) (by rw [hs]; show Stage.rank .acklist < _; simp [Stage.rank])

theorem subs_erase {r : SubRef} {l : List SubRef} (h : r ∈ l) : (l.erase r).length + 1 = l.length := by
  rw [List.length_erase_of_mem h]
  have := List.length_pos_of_mem h
  omega

theorem sys_less {cfg : Config} {s s' : Sys} {e : Sys.Ev} (hi : SInv cfg s) (ho : Spec.Own e) (hs : SysStep cfg s e s') : s.Less s' := by
  have same : ∀ {c : Nat} {k k' : Conn}, s.conns[c]? = some k → ∀ f : Conn → Nat, f k' = f k → ((s.conns.set c k').map f).sum = (s.conns.map f).sum := by
    intro c k k' hk f he
    have := sum_map_set f s.conns c k k' hk
    omega
  cases hs with
  | accept => exact absurd ho id
  | conn c e k k' hk hin hst =>
    obtain ⟨ces, hrun⟩ := hi.run c k hk
    have hg := (gate_induction (P := fun _ => True) (fun _ _ _ _ _ _ => trivial) ces k trivial hrun).1
    have hl := conn_less hg hin (by cases e <;> exact ho) (step_of cfg k e k' hst)
    have h1 := sum_map_set (·.inq.length) s.conns c k k' hk
    have h2 := sum_map_set (·.stage.rank) s.conns c k k' hk
    have h3 := sum_map_set Conn.onWay s.conns c k k' hk
    have h4 := sum_map_set Conn.toSend s.conns c k k' hk
    have h5 := sum_map_set Conn.work s.conns c k k' hk
    unfold Sys.Less Sys.unread Sys.open_ Sys.onWay Sys.toSend Sys.work
    dsimp only
    cases hl with
    | unread h => exact .unread (by omega)
    | open_ ha h => exact .open_ (by omega) (by omega)
    | onWay ha hb h => exact .onWay (by omega) (by omega) (by omega)
    | toSend ha hb hk h => exact .toSend (by omega) (by omega) (by omega) (by omega)
    | work ha hb hk he h => exact .work (by omega) (by omega) (by omega) (by omega) (by omega)
  | flush c k r o hk hob hc =>
    have h1 := sum_map_set (·.inq.length) s.conns c k { k with outbox := o } hk
    have h2 := sum_map_set (·.stage.rank) s.conns c k { k with outbox := o } hk
    have h3 := sum_map_set Conn.onWay s.conns c k { k with outbox := o } hk
    have h4 := sum_map_set Conn.toSend s.conns c k { k with outbox := o } hk
    have h5 := sum_map_set Conn.work s.conns c k { k with outbox := o } hk
    unfold Conn.onWay at h3
    unfold Conn.toSend at h4
    unfold Conn.work at h5
    simp only [hob, List.map_cons, List.sum_cons, Out.subs, Out.sends, Out.work] at h1 h2 h3 h4 h5
    refine .work ?_ ?_ ?_ ?_ ?_
    · unfold Sys.unread; dsimp only; omega
    · unfold Sys.open_; dsimp only; omega
    · unfold Sys.onWay Conn.onWay; simp only [List.map_append, List.map_cons, List.map_nil, List.sum_append, List.sum_cons, List.sum_nil]; omega
    · unfold Sys.toSend Conn.toSend; simp only [List.map_append, List.map_cons, List.map_nil, List.sum_append, List.sum_cons, List.sum_nil]; omega
    · unfold Sys.work Conn.work; simp only [List.map_append, List.map_cons, List.map_nil, List.sum_append, List.sum_cons, List.sum_nil]; omega
  | skip r rs ht hr hn =>
    refine .work (Nat.le_refl _) (Nat.le_refl _) ?_ ?_ ?_
    · unfold Sys.onWay; simp only [hr, List.map_cons, List.sum_cons]; omega
    · unfold Sys.toSend; simp only [hr, List.map_cons, List.sum_cons]; omega
    · unfold Sys.work; simp only [hr, List.map_cons, List.sum_cons]
      rcases hn with ⟨c, rfl⟩ | ⟨c, rfl⟩ <;> simp only [Req.work] <;> omega
  | joinTopic r rs k dest ht hr hk hix hd hq =>
    unfold Sys.Less Sys.unread Sys.open_ Sys.onWay Sys.toSend Sys.work
    refine .onWay (Nat.le_refl _) (Nat.le_refl _) ?_
    simp only [hr, List.map_cons, List.sum_cons, Req.subs]; omega
  | wait r rs k dest ht hr hk hix hd hq he hl =>
    have q1 := same hk (k' := { k with heap := putInList k.heap r.idx true }) (·.inq.length) rfl
    have q2 := same hk (k' := { k with heap := putInList k.heap r.idx true }) (·.stage.rank) rfl
    have q3 := same hk (k' := { k with heap := putInList k.heap r.idx true }) Conn.onWay rfl
    have q4 := same hk (k' := { k with heap := putInList k.heap r.idx true }) Conn.toSend rfl
    have q5 := same hk (k' := { k with heap := putInList k.heap r.idx true }) Conn.work rfl
    have q6 := AMap.sum_set List.length rfl s.queues dest (s.queues.list dest ++ [r])
    simp only [List.length_append, List.length_cons, List.length_nil] at q6
    unfold Sys.Less Sys.unread Sys.open_ Sys.onWay Sys.toSend Sys.work
    simp only [hr, ht, List.map_cons, List.sum_cons, List.map_nil, List.sum_nil, Req.subs, Req.sends, Req.work, Delivery.subs, Delivery.work, List.length_append, List.length_cons, List.length_nil] at hr ht ⊢
    exact .work (by omega) (by omega) (by omega) (by omega) (by omega)
  | take r rs k dest m l ht hr hk hix hd hq hm hf =>
    have q1 := same hk (k' := { k with heap := putFrame k.heap r.idx (some (m.addressed (deref k.heap r.idx).id)) }) (·.inq.length) rfl
    have q2 := same hk (k' := { k with heap := putFrame k.heap r.idx (some (m.addressed (deref k.heap r.idx).id)) }) (·.stage.rank) rfl
    have q3 := same hk (k' := { k with heap := putFrame k.heap r.idx (some (m.addressed (deref k.heap r.idx).id)) }) Conn.onWay rfl
    have q4 := same hk (k' := { k with heap := putFrame k.heap r.idx (some (m.addressed (deref k.heap r.idx).id)) }) Conn.toSend rfl
    have q5 := same hk (k' := { k with heap := putFrame k.heap r.idx (some (m.addressed (deref k.heap r.idx).id)) }) Conn.work rfl
    have q6 := AMap.sum_set List.length rfl s.store dest l
    rw [hm] at q6
    simp only [List.length_append, List.length_cons, List.length_nil] at q6
    unfold Sys.Less Sys.unread Sys.open_ Sys.onWay Sys.toSend Sys.work
    simp only [hr, ht, List.map_cons, List.sum_cons, List.map_nil, List.sum_nil, Req.subs, Req.sends, Req.work, Delivery.subs, Delivery.work, List.length_append, List.length_cons, List.length_nil] at hr ht ⊢
    exact .work (by omega) (by omega) (by omega) (by omega) (by omega)
  | leaveQueue r rs k dest ht hr hk hix hd hq hm =>
    have q1 := same hk (k' := { k with heap := putInList k.heap r.idx false }) (·.inq.length) rfl
    have q2 := same hk (k' := { k with heap := putInList k.heap r.idx false }) (·.stage.rank) rfl
    have q3 := same hk (k' := { k with heap := putInList k.heap r.idx false }) Conn.onWay rfl
    have q4 := same hk (k' := { k with heap := putInList k.heap r.idx false }) Conn.toSend rfl
    have q5 := same hk (k' := { k with heap := putInList k.heap r.idx false }) Conn.work rfl
    have q6 := AMap.sum_set List.length rfl s.queues dest ((s.queues.list dest).erase r)
    have q7 := subs_erase hm
    unfold Sys.Less Sys.unread Sys.open_ Sys.onWay Sys.toSend Sys.work
    simp only [hr, ht, List.map_cons, List.sum_cons, List.map_nil, List.sum_nil, Req.subs, Req.sends, Req.work, Delivery.subs, Delivery.work, List.length_append, List.length_cons, List.length_nil] at hr ht ⊢
    exact .onWay (by omega) (by omega) (by omega)
  | absent r rs k dest ht hr hk hix hd hq hm =>
    unfold Sys.Less Sys.unread Sys.open_ Sys.onWay Sys.toSend Sys.work
    simp only [hr, ht, List.map_cons, List.sum_cons, List.map_nil, List.sum_nil, Req.subs, Req.sends, Req.work, Delivery.subs, Delivery.work, List.length_append, List.length_cons, List.length_nil] at hr ht ⊢
    exact .work (by omega) (by omega) (by omega) (by omega) (by omega)
  | leaveTopic r rs k dest ht hr hk hix hd hq =>
    unfold Sys.Less Sys.unread Sys.open_ Sys.onWay Sys.toSend Sys.work
    simp only [hr, ht, List.map_cons, List.sum_cons, List.map_nil, List.sum_nil, Req.subs, Req.sends, Req.work, Delivery.subs, Delivery.work, List.length_append, List.length_cons, List.length_nil] at hr ht ⊢
    exact .work (by omega) (by omega) (by omega) (by omega) (by omega)
  | store front m rs dest ht hr hd hq he =>
    have q6 := AMap.sum_set List.length rfl s.store dest (if front then m :: s.store.list dest else s.store.list dest ++ [m])
    unfold Sys.Less Sys.unread Sys.open_ Sys.onWay Sys.toSend Sys.work
    cases front
    · simp only [putReq, Bool.false_eq_true, if_false] at hr q6 ⊢
      simp only [hr, ht, List.map_cons, List.sum_cons, List.map_nil, List.sum_nil, Req.subs, Req.sends, Req.work, Delivery.subs, Delivery.work, List.length_append, List.length_cons, List.length_nil] at hr ht ⊢
      exact .toSend (by omega) (by omega) (by omega) (by omega)
    · simp only [putReq, if_true, List.length_cons] at hr q6 ⊢
      simp only [hr, ht, List.map_cons, List.sum_cons, List.map_nil, List.sum_nil, Req.subs, Req.sends, Req.work, Delivery.subs, Delivery.work, List.length_append, List.length_cons, List.length_nil] at hr ht ⊢
      exact .work (by omega) (by omega) (by omega) (by omega) (by omega)
  | give front m rs dest r q k ht hr hd hq he hk hix hf =>
    have q1 := same hk (k' := { k with heap := putFrame (putInList k.heap r.idx false) r.idx (some (m.addressed (deref k.heap r.idx).id)) }) (·.inq.length) rfl
    have q2 := same hk (k' := { k with heap := putFrame (putInList k.heap r.idx false) r.idx (some (m.addressed (deref k.heap r.idx).id)) }) (·.stage.rank) rfl
    have q3 := same hk (k' := { k with heap := putFrame (putInList k.heap r.idx false) r.idx (some (m.addressed (deref k.heap r.idx).id)) }) Conn.onWay rfl
    have q4 := same hk (k' := { k with heap := putFrame (putInList k.heap r.idx false) r.idx (some (m.addressed (deref k.heap r.idx).id)) }) Conn.toSend rfl
    have q5 := same hk (k' := { k with heap := putFrame (putInList k.heap r.idx false) r.idx (some (m.addressed (deref k.heap r.idx).id)) }) Conn.work rfl
    have q6 := AMap.sum_set List.length rfl s.queues dest q
    rw [he] at q6
    simp only [List.length_append, List.length_cons, List.length_nil] at q6
    unfold Sys.Less Sys.unread Sys.open_ Sys.onWay Sys.toSend Sys.work
    cases front
    · simp only [putReq, Bool.false_eq_true, if_false] at hr
      simp only [hr, ht, List.map_cons, List.sum_cons, List.map_nil, List.sum_nil, Req.subs, Req.sends, Req.work, Delivery.subs, Delivery.work, List.length_append, List.length_cons, List.length_nil] at hr ht ⊢
      exact .toSend (by omega) (by omega) (by omega) (by omega)
    · simp only [putReq, if_true] at hr
      simp only [hr, ht, List.map_cons, List.sum_cons, List.map_nil, List.sum_nil, Req.subs, Req.sends, Req.work, Delivery.subs, Delivery.work, List.length_append, List.length_cons, List.length_nil] at hr ht ⊢
      exact .work (by omega) (by omega) (by omega) (by omega) (by omega)
  | cast m rs dest ht hr hd hq =>
    have q6 : (((s.topics.list dest).map (fun r => Delivery.topic dest r m)).map Delivery.subs).sum = 0 := by
      generalize s.topics.list dest = l
      induction l with
      | nil => rfl
      | cons a l ih => simpa [Delivery.subs] using ih
    unfold Sys.Less Sys.unread Sys.open_ Sys.onWay Sys.toSend Sys.work
    simp only [hr, List.map_cons, List.sum_cons, Req.subs, Req.sends, Req.work, q6]
    exact .toSend (by omega) (by omega) (by omega) (by omega)
  | drop m rs dest ht hr hd hq =>
    unfold Sys.Less Sys.unread Sys.open_ Sys.onWay Sys.toSend Sys.work
    simp only [hr, ht, List.map_cons, List.sum_cons, List.map_nil, List.sum_nil, Req.subs, Req.sends, Req.work, Delivery.subs, Delivery.work, List.length_append, List.length_cons, List.length_nil] at hr ht ⊢
    exact .work (by omega) (by omega) (by omega) (by omega) (by omega)
  | pushQueue r t k ht hk hc =>
    have q1 := sum_map_set (·.inq.length) s.conns r.conn k { k with subCh := k.subCh ++ [r.idx] } hk
    have q2 := sum_map_set (·.stage.rank) s.conns r.conn k { k with subCh := k.subCh ++ [r.idx] } hk
    have q3 := sum_map_set Conn.onWay s.conns r.conn k { k with subCh := k.subCh ++ [r.idx] } hk
    have q4 := sum_map_set Conn.toSend s.conns r.conn k { k with subCh := k.subCh ++ [r.idx] } hk
    have q5 := sum_map_set Conn.work s.conns r.conn k { k with subCh := k.subCh ++ [r.idx] } hk
    have p3 : ({ k with subCh := k.subCh ++ [r.idx] } : Conn).onWay = k.onWay + 1 := by unfold Conn.onWay; simp; omega
    have p4 : ({ k with subCh := k.subCh ++ [r.idx] } : Conn).toSend = k.toSend := rfl
    have p5 : ({ k with subCh := k.subCh ++ [r.idx] } : Conn).work = k.work + 3 := by unfold Conn.work; simp; omega
    rw [p3] at q3
    rw [p4] at q4
    rw [p5] at q5
    dsimp only at q1 q2
    unfold Sys.Less Sys.unread Sys.open_ Sys.onWay Sys.toSend Sys.work
    simp only [ht, List.map_cons, List.sum_cons, Delivery.subs, Delivery.work]
    exact .work (by omega) (by omega) (by omega) (by omega) (by omega)
  | pushTopic dest r m t k ht hk hf hc =>
    generalize hx : ({ k with writeCh := k.writeCh ++ [m.addressed (deref k.heap r.idx).id] } : Conn) = k'
    have q1 := sum_map_set (·.inq.length) s.conns r.conn k k' hk
    have q2 := sum_map_set (·.stage.rank) s.conns r.conn k k' hk
    have q3 := sum_map_set Conn.onWay s.conns r.conn k k' hk
    have q4 := sum_map_set Conn.toSend s.conns r.conn k k' hk
    have q5 := sum_map_set Conn.work s.conns r.conn k k' hk
    have p1 : k'.inq = k.inq := by subst hx; rfl
    have p2 : k'.stage = k.stage := by subst hx; rfl
    have p3 : k'.onWay = k.onWay := by subst hx; rfl
    have p4 : k'.toSend = k.toSend := by subst hx; rfl
    have p5 : k'.work = k.work + 1 := by subst hx; unfold Conn.work; simp; omega
    rw [p3] at q3
    rw [p4] at q4
    rw [p5] at q5
    simp only [p1, p2] at q1 q2
    unfold Sys.Less Sys.unread Sys.open_ Sys.onWay Sys.toSend Sys.work
    simp only [ht, List.map_cons, List.sum_cons, Delivery.subs, Delivery.work]
    exact .work (by omega) (by omega) (by omega) (by omega) (by omega)

/-- Nothing can get less for ever. -/
theorem less_wf : WellFounded (fun s' s : Sys => s.Less s') := by
  refine Subrelation.wf (r := InvImage (Prod.Lex (· < ·) (Prod.Lex (· < ·) (Prod.Lex (· < ·) (Prod.Lex (· < ·) (· < ·)))))
    (fun s : Sys => (s.unread, s.open_, s.onWay, s.toSend, s.work))) ?_ (InvImage.wf _ ?_)
  · intro s' s h
    unfold InvImage
    have le : ∀ {β : Type} {r : β → β → Prop} {a' a : Nat} {x y : β}, a' ≤ a → r x y → Prod.Lex (· < ·) r (a', x) (a, y) := by
      intro β r a' a x y h1 h2
      rcases Nat.lt_or_eq_of_le h1 with h1 | rfl
      · exact .left _ _ h1
      · exact .right _ h2
    cases h with
    | unread h => exact .left _ _ h
    | open_ ha h => exact le ha (.left _ _ h)
    | onWay ha hb h => exact le ha (le hb (.left _ _ h))
    | toSend ha hb hk h => exact le ha (le hb (le hk (.left _ _ h)))
    | work ha hb hk he h => exact le ha (le hb (le hk (le he h)))
  · have w : WellFounded (fun a b : Nat => a < b) := Nat.lt_wfRel.wf
    exact (Prod.lex ⟨_, w⟩ (Prod.lex ⟨_, w⟩ (Prod.lex ⟨_, w⟩ (Prod.lex ⟨_, w⟩ ⟨_, w⟩)))).wf

end Stomp.Server
