import Verif.Proofs.Server.CoreFacts
import Verif.Model.Server.System
/-! # The steps of the server, case by case -/
namespace Stomp.Server
open Stomp

/-- The message as it is addressed to a subscription. -/
def Msg.addressed (m : Msg) (id : Bytes) : Msg :=
  { m with frame := { m.frame with header := m.frame.header.set Hdr.subscription id } }

/-- The request by which a message gets to the processor. -/
def putReq (front : Bool) (m : Msg) : Req := if front then .requeue (some m) else .enqueue m

/-- The steps after which the server has not crashed. -/
inductive SysStep (cfg : Config) (s : Sys) : Sys.Ev → Sys → Prop
  | accept : SysStep cfg s .accept { s with conns := s.conns ++ [Conn.init s.conns.length] }
  | conn (c : Nat) (e : Conn.Ev) (k k' : Conn) (hk : s.conns[c]? = some k) (hi : Sys.internal e = true) (hs : k.step cfg e = some k') :
      SysStep cfg s (.conn c e) { s with conns := s.conns.set c k' }
  | flush (c : Nat) (k : Conn) (r : Req) (o : List Out) (hk : s.conns[c]? = some k) (ho : k.outbox = .req r :: o) (hc : s.reqCh.length < 128) :
      SysStep cfg s (.flush c) { s with conns := s.conns.set c { k with outbox := o }, reqCh := s.reqCh ++ [r] }
  | skip (r : Req) (rs : List Req) (ht : s.todo = []) (hr : s.reqCh = r :: rs) (hn : (∃ c, r = .connected c) ∨ ∃ c, r = .disconnected c) :
      SysStep cfg s .proc { s with reqCh := rs }
  | joinTopic (r : SubRef) (rs : List Req) (k : Conn) (dest : Bytes) (ht : s.todo = []) (hr : s.reqCh = .subscribe r :: rs)
      (hk : s.conns[r.conn]? = some k) (hi : r.idx < k.heap.length) (hd : (deref k.heap r.idx).dest = dest) (hq : isQueueDestination dest = false) :
      SysStep cfg s .proc { s with reqCh := rs, topics := s.topics.set dest (s.topics.list dest ++ [r]), tlog := s.tlog ++ [(dest, .join r)] }
  | wait (r : SubRef) (rs : List Req) (k : Conn) (dest : Bytes) (ht : s.todo = []) (hr : s.reqCh = .subscribe r :: rs)
      (hk : s.conns[r.conn]? = some k) (hi : r.idx < k.heap.length) (hd : (deref k.heap r.idx).dest = dest) (hq : isQueueDestination dest = true)
      (he : s.store.list dest = []) (hl : (deref k.heap r.idx).inList = false) :
      SysStep cfg s .proc { s with reqCh := rs, conns := s.conns.set r.conn { k with heap := putInList k.heap r.idx true },
                                   queues := s.queues.set dest (s.queues.list dest ++ [r]), qlog := s.qlog ++ [(dest, .wait r)] }
  | take (r : SubRef) (rs : List Req) (k : Conn) (dest : Bytes) (m : Msg) (l : List Msg) (ht : s.todo = []) (hr : s.reqCh = .subscribe r :: rs)
      (hk : s.conns[r.conn]? = some k) (hi : r.idx < k.heap.length) (hd : (deref k.heap r.idx).dest = dest) (hq : isQueueDestination dest = true)
      (hm : s.store.list dest = m :: l) (hf : (deref k.heap r.idx).frame = none) :
      SysStep cfg s .proc { s with reqCh := rs, store := s.store.set dest l, todo := [.queue r], qlog := s.qlog ++ [(dest, .take r m.tag)],
                                   conns := s.conns.set r.conn { k with heap := putFrame k.heap r.idx (some (m.addressed (deref k.heap r.idx).id)) } }
  | leaveQueue (r : SubRef) (rs : List Req) (k : Conn) (dest : Bytes) (ht : s.todo = []) (hr : s.reqCh = .unsubscribe r :: rs)
      (hk : s.conns[r.conn]? = some k) (hi : r.idx < k.heap.length) (hd : (deref k.heap r.idx).dest = dest) (hq : isQueueDestination dest = true)
      (hm : r ∈ s.queues.list dest) :
      SysStep cfg s .proc { s with reqCh := rs, conns := s.conns.set r.conn { k with heap := putInList k.heap r.idx false },
                                   queues := s.queues.set dest ((s.queues.list dest).erase r), qlog := s.qlog ++ [(dest, .leave r)] }
  | absent (r : SubRef) (rs : List Req) (k : Conn) (dest : Bytes) (ht : s.todo = []) (hr : s.reqCh = .unsubscribe r :: rs)
      (hk : s.conns[r.conn]? = some k) (hi : r.idx < k.heap.length) (hd : (deref k.heap r.idx).dest = dest) (hq : isQueueDestination dest = true)
      (hm : r ∉ s.queues.list dest) :
      SysStep cfg s .proc { s with reqCh := rs }
  | leaveTopic (r : SubRef) (rs : List Req) (k : Conn) (dest : Bytes) (ht : s.todo = []) (hr : s.reqCh = .unsubscribe r :: rs)
      (hk : s.conns[r.conn]? = some k) (hi : r.idx < k.heap.length) (hd : (deref k.heap r.idx).dest = dest) (hq : isQueueDestination dest = false) :
      SysStep cfg s .proc { s with reqCh := rs, topics := s.topics.set dest ((s.topics.list dest).erase r), tlog := s.tlog ++ [(dest, .leave r)] }
  | store (front : Bool) (m : Msg) (rs : List Req) (dest : Bytes) (ht : s.todo = []) (hr : s.reqCh = putReq front m :: rs)
      (hd : m.frame.header.contains Hdr.destination = some dest) (hq : isQueueDestination dest = true) (he : s.queues.list dest = []) :
      SysStep cfg s .proc { s with reqCh := rs, qlog := s.qlog ++ [(dest, .put front m.tag)],
                                   store := s.store.set dest (if front then m :: s.store.list dest else s.store.list dest ++ [m]) }
  | give (front : Bool) (m : Msg) (rs : List Req) (dest : Bytes) (r : SubRef) (q : List SubRef) (k : Conn) (ht : s.todo = [])
      (hr : s.reqCh = putReq front m :: rs)
      (hd : m.frame.header.contains Hdr.destination = some dest) (hq : isQueueDestination dest = true) (he : s.queues.list dest = r :: q)
      (hk : s.conns[r.conn]? = some k) (hi : r.idx < k.heap.length) (hf : (deref k.heap r.idx).frame = none) :
      SysStep cfg s .proc { s with reqCh := rs, qlog := s.qlog ++ [(dest, .put front m.tag), (dest, .take r m.tag)], todo := [.queue r],
                                   queues := s.queues.set dest q,
                                   conns := s.conns.set r.conn { k with heap := putFrame (putInList k.heap r.idx false) r.idx (some (m.addressed (deref k.heap r.idx).id)) } }
  | cast (m : Msg) (rs : List Req) (dest : Bytes) (ht : s.todo = []) (hr : s.reqCh = .enqueue m :: rs)
      (hd : m.frame.header.contains Hdr.destination = some dest) (hq : isQueueDestination dest = false) :
      SysStep cfg s .proc { s with reqCh := rs, todo := (s.topics.list dest).map (fun r => .topic dest r m), tlog := s.tlog ++ [(dest, .cast m.tag)] }
  | drop (m : Msg) (rs : List Req) (dest : Bytes) (ht : s.todo = []) (hr : s.reqCh = .requeue (some m) :: rs)
      (hd : m.frame.header.contains Hdr.destination = some dest) (hq : isQueueDestination dest = false) :
      SysStep cfg s .proc { s with reqCh := rs, dropped := s.dropped ++ [m.tag] }
  | pushQueue (r : SubRef) (t : List Delivery) (k : Conn) (ht : s.todo = .queue r :: t) (hk : s.conns[r.conn]? = some k) (hc : k.subCh.length < 16) :
      SysStep cfg s .push { s with conns := s.conns.set r.conn { k with subCh := k.subCh ++ [r.idx] }, todo := t }
  | pushTopic (dest : Bytes) (r : SubRef) (m : Msg) (t : List Delivery) (k : Conn) (ht : s.todo = .topic dest r m :: t) (hk : s.conns[r.conn]? = some k)
      (hf : (deref k.heap r.idx).frame = none) (hc : k.writeCh.length < 16) :
      SysStep cfg s .push { s with conns := s.conns.set r.conn { k with writeCh := k.writeCh ++ [m.addressed (deref k.heap r.idx).id] }, todo := t,
                                   tlog := s.tlog ++ [(dest, .give r (m.addressed (deref k.heap r.idx).id))] }

theorem modify_eq_set {α : Type} (l : List α) (i : Nat) (f : α → α) (x : α) (h : l[i]? = some x) : l.modify i f = l.set i (f x) := by
  apply List.ext_getElem?
  intro j
  rw [List.getElem?_modify, List.getElem?_set]
  by_cases hij : i = j
  · subst hij
    rw [h]
    have : i < l.length := by
      by_cases hl : i < l.length
      · exact hl
      · rw [List.getElem?_eq_none (by omega)] at h; cases h
    simp [this]
  · simp [hij]

theorem Sys.conn_eq {s : Sys} {c : Nat} {k : Conn} (h : s.conns[c]? = some k) : s.conn c = k := by
  unfold Sys.conn; rw [List.getD_eq_getElem?_getD, h]; rfl

theorem Sys.sub_eq {s : Sys} {r : SubRef} {k : Conn} (h : s.conns[r.conn]? = some k) : s.sub r = deref k.heap r.idx := by
  unfold Sys.sub; rw [Sys.conn_eq h]

theorem Store.enqueue_eq (s : Store) (d : Bytes) (m : Msg) : s.enqueue d m = s.set d (s.list d ++ [m]) := by
  unfold Store.enqueue AMap.list
  cases s.get? d <;> rfl

theorem Store.requeue_eq (s : Store) (d : Bytes) (m : Msg) : s.requeue d m = s.set d (m :: s.list d) := by
  unfold Store.requeue AMap.list
  cases s.get? d <;> rfl

theorem Store.dequeue_cases (s : Store) (d : Bytes) :
    (s.list d = [] ∧ s.dequeue d = (none, s)) ∨ ∃ m l, s.list d = m :: l ∧ s.dequeue d = (some m, s.set d l) := by
  unfold Store.dequeue AMap.list
  cases s.get? d with
  | none => exact Or.inl ⟨rfl, rfl⟩
  | some l => cases l with
    | nil => exact Or.inl ⟨rfl, rfl⟩
    | cons m l => exact Or.inr ⟨m, l, rfl, rfl⟩

/-- A pointer to an existing subscription. -/
def Sys.valid (s : Sys) (r : SubRef) : Prop := ∃ k, s.conns[r.conn]? = some k ∧ r.idx < k.heap.length

/-- The pointers the processor uses are valid. -/
structure Refs (s : Sys) : Prop where
  sub : ∀ r, .subscribe r ∈ s.reqCh → s.valid r
  unsub : ∀ r, .unsubscribe r ∈ s.reqCh → s.valid r
  queue : ∀ d, ∀ r ∈ s.queues.list d, s.valid r

theorem send_cases (s : Sys) (dest : Bytes) (r : SubRef) (m : Msg) (k : Conn) (hk : s.conns[r.conn]? = some k) :
    ((deref k.heap r.idx).frame.isSome ∧ (s.sendQueueFrame dest r m).crashed = true) ∨
    ((deref k.heap r.idx).frame = none ∧ s.sendQueueFrame dest r m =
      { s with conns := s.conns.set r.conn { k with heap := putFrame k.heap r.idx (some (m.addressed (deref k.heap r.idx).id)) },
               todo := s.todo ++ [.queue r], qlog := s.qlog ++ [(dest, .take r m.tag)] }) := by
  unfold Sys.sendQueueFrame
  rw [Sys.sub_eq hk]
  cases hf : (deref k.heap r.idx).frame with
  | some x => left; simp
  | none =>
    right
    refine ⟨rfl, ?_⟩
    rw [if_neg (by simp)]
    dsimp only [Sys.setSub]
    rw [modify_eq_set _ _ _ _ hk]
    rfl

theorem sys_put {cfg : Config} {s s' : Sys} (hR : Refs s) (ht : s.todo = []) (front : Bool) (m : Msg) (rs : List Req)
    (hr : s.reqCh = putReq front m :: rs) (dest : Bytes) (hd : m.frame.header.contains Hdr.destination = some dest)
    (hq : isQueueDestination dest = true) (h : ({ s with reqCh := rs } : Sys).queuePut front dest m = s') :
    s'.crashed = true ∨ SysStep cfg s .proc s' := by
  unfold Sys.queuePut at h
  dsimp only at h
  cases he : s.queues.list dest with
  | nil =>
    rw [he] at h
    right
    have := SysStep.store (cfg := cfg) front m rs dest ht hr hd hq he
    rw [← h]
    cases front with
    | true => rw [if_pos rfl, Store.requeue_eq]; exact this
    | false => rw [if_neg (by simp), Store.enqueue_eq]; exact this
  | cons r q =>
    rw [he] at h
    dsimp only at h
    obtain ⟨k, hk, hi⟩ := hR.queue dest r (by rw [he]; simp)
    have hlt : r.conn < s.conns.length := (List.getElem?_eq_some_iff.1 hk).1
    have hk2 : (s.conns.set r.conn { k with heap := putInList k.heap r.idx false })[r.conn]? = some { k with heap := putInList k.heap r.idx false } := by
      rw [List.getElem?_set]; simp [hlt]
    have e1 : (deref (putInList k.heap r.idx false) r.idx).frame = (deref k.heap r.idx).frame := frame_putInList _ _ _ _
    have e2 : (deref (putInList k.heap r.idx false) r.idx).id = (deref k.heap r.idx).id := by
      rw [deref_putInList]; split <;> rfl
    have hs := send_cases ({ s with reqCh := rs, queues := s.queues.set dest q, conns := s.conns.set r.conn { k with heap := putInList k.heap r.idx false },
                                    qlog := s.qlog ++ [(dest, .put front m.tag)] }) dest r m _ hk2
    have e3 : ({ s with reqCh := rs, queues := s.queues.set dest q, conns := s.conns.set r.conn { k with heap := putInList k.heap r.idx false },
                        qlog := s.qlog ++ [(dest, .put front m.tag)] } : Sys).sendQueueFrame dest r m = s' := by
      rw [← h]
      dsimp only [Sys.setSub]
      rw [modify_eq_set _ _ _ _ hk]
      rfl
    rw [e3] at hs
    dsimp only at hs
    rw [e1, e2] at hs
    rcases hs with ⟨_, hs⟩ | ⟨hf, hs⟩
    · exact Or.inl hs
    · right
      have := SysStep.give (cfg := cfg) front m rs dest r q k ht hr hd hq he hk hi hf
      rw [List.set_set, ht, List.append_assoc] at hs
      rw [hs]
      exact this

theorem sys_step {cfg : Config} {s s' : Sys} {e : Sys.Ev} (hR : Refs s) (h : s.step cfg e = some s') :
    s.crashed = false ∧ (s'.crashed = true ∨ SysStep cfg s e s') := by
  unfold Sys.step at h
  cases hc : s.crashed with
  | true => rw [if_pos hc] at h; cases h
  | false =>
    rw [if_neg (by rw [hc]; simp)] at h
    refine ⟨rfl, ?_⟩
    cases e with
    | accept => dsimp only at h; injection h with h; subst h; exact Or.inr .accept
    | conn c e =>
      dsimp only at h
      split at h
      · rename_i hi
        split at h
        · cases h
        · rename_i k hk
          split at h
          · cases h
          · rename_i k' hs
            injection h with h; subst h
            exact Or.inr (.conn c e k k' hk hi hs)
      · cases h
    | flush c =>
      dsimp only at h
      split at h
      · cases h
      · rename_i k hk
        split at h
        · cases h
        · injection h with h; subst h; exact Or.inl rfl
        · rename_i r o ho
          split at h
          · rename_i hl
            split at h
            · cases h
            · rename_i k' hs
              injection h with h; subst h
              have hs := step_of _ _ _ _ hs
              cases hs with
              | flushed r' o' ho' =>
                rw [ho] at ho'
                injection ho' with h1 h2
                injection h1 with h1
                subst h1 h2
                exact Or.inr (.flush c k r o hk ho hl)
          · cases h
    | proc =>
      dsimp only at h
      split at h
      · rename_i r rs ht hr
        injection h with h
        unfold Sys.handle at h
        cases r with
        | subscribe r =>
          obtain ⟨k, hk, hi⟩ := hR.sub r (by rw [hr]; simp)
          have es : Sys.sub { s with reqCh := rs } r = deref k.heap r.idx := Sys.sub_eq (s := { s with reqCh := rs }) hk
          dsimp only at h
          rw [es] at h
          split at h
          · rename_i hq
            unfold Sys.queueSubscribe at h
            rcases Store.dequeue_cases s.store (deref k.heap r.idx).dest with ⟨he, hdq⟩ | ⟨m, l, hm, hdq⟩
            · rw [hdq] at h
              dsimp only at h
              rw [es] at h
              split at h
              · subst h; exact Or.inl rfl
              · rename_i hl
                right
                have := SysStep.wait (cfg := cfg) r rs k _ ht hr hk hi rfl hq he (by simpa using hl)
                rw [← h]
                dsimp only [Sys.setSub]
                rw [modify_eq_set _ _ _ _ hk]
                exact this
            · rw [hdq] at h
              dsimp only at h
              have hs := send_cases ({ s with reqCh := rs, store := s.store.set (deref k.heap r.idx).dest l }) (deref k.heap r.idx).dest r m k hk
              rw [h] at hs
              rcases hs with ⟨_, hs⟩ | ⟨hf, hs⟩
              · exact Or.inl hs
              · right
                have := SysStep.take (cfg := cfg) r rs k _ m l ht hr hk hi rfl hq hm hf
                dsimp only at hs
                rw [ht] at hs
                rw [hs]
                exact this
          · rename_i hq
            right
            have := SysStep.joinTopic (cfg := cfg) r rs k _ ht hr hk hi rfl (by simpa using hq)
            rw [← h]
            exact this
        | unsubscribe r =>
          obtain ⟨k, hk, hi⟩ := hR.unsub r (by rw [hr]; simp)
          have es : Sys.sub { s with reqCh := rs } r = deref k.heap r.idx := Sys.sub_eq (s := { s with reqCh := rs }) hk
          dsimp only at h
          rw [es] at h
          split at h
          · rename_i hq
            unfold Sys.queueUnsubscribe at h
            dsimp only at h
            split at h
            · rename_i hm
              right
              have := SysStep.leaveQueue (cfg := cfg) r rs k _ ht hr hk hi rfl hq hm
              rw [← h]
              dsimp only [Sys.setSub]
              rw [modify_eq_set _ _ _ _ hk]
              exact this
            · rename_i hm
              right
              rw [← h]
              exact SysStep.absent (cfg := cfg) r rs k _ ht hr hk hi rfl hq hm
          · rename_i hq
            right
            rw [← h]
            exact SysStep.leaveTopic (cfg := cfg) r rs k _ ht hr hk hi rfl (by simpa using hq)
        | enqueue m =>
          dsimp only at h
          split at h
          · subst h; exact Or.inl rfl
          · rename_i dest hd
            split at h
            · rename_i hq
              exact sys_put hR ht false m rs hr dest hd hq h
            · rename_i hq
              right
              rw [← h]
              exact SysStep.cast (cfg := cfg) m rs dest ht hr hd (by simpa using hq)
        | requeue m =>
          cases m with
          | none => subst h; exact Or.inl rfl
          | some m =>
            dsimp only at h
            split at h
            · subst h; exact Or.inl rfl
            · rename_i dest hd
              split at h
              · rename_i hq
                exact sys_put hR ht true m rs hr dest hd hq h
              · rename_i hq
                right
                rw [← h]
                exact SysStep.drop (cfg := cfg) m rs dest ht hr hd (by simpa using hq)
        | connected c => subst h; exact Or.inr (.skip _ rs ht hr (Or.inl ⟨c, rfl⟩))
        | disconnected c => subst h; exact Or.inr (.skip _ rs ht hr (Or.inr ⟨c, rfl⟩))
      · cases h
    | push =>
      dsimp only at h
      split at h
      · cases h
      · rename_i r t ht
        split at h
        · cases h
        · rename_i k hk
          split at h
          · cases h
          · rename_i k' hs
            injection h with h; subst h
            cases step_of _ _ _ _ hs with
            | pushSub i hl => exact Or.inr (.pushQueue r t k ht hk hl)
      · rename_i dest r m t ht
        split at h
        · cases h
        · rename_i k hk
          split at h
          · injection h with h; subst h; exact Or.inl rfl
          · rename_i hf
            split at h
            · cases h
            · rename_i k' hs
              injection h with h; subst h
              cases step_of _ _ _ _ hs with
              | pushTopic m hl => exact Or.inr (.pushTopic dest r _ t k ht hk (by simpa using hf) hl)

end Stomp.Server
