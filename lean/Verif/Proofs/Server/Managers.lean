import Verif.Spec.Managers
import Verif.Proofs.AMap
namespace Stomp.Server
open Stomp Spec

namespace Mgr

theorem sound_new : Sound Manager.new := ⟨by intro d p h; simp [Manager.new, AMap.get?] at h, by intro p o h; simp [Manager.new] at h⟩

theorem find_get (m : Manager) (d : Bytes) : (m.find d).2.map.get? d = some (m.find d).1 := by
  unfold Manager.find
  split
  · next p h => exact h
  · simp [AMap.get?_set]

theorem lt_of_found {m : Manager} (h : Sound m) {d : Bytes} {p : Nat} (hp : m.map.get? d = some p) : p < m.heap.length := by
  obtain ⟨o, ho, _⟩ := h.found d p hp
  exact (List.getElem?_eq_some_iff.1 ho).1

theorem sound_find {m : Manager} (h : Sound m) (d : Bytes) : Sound (m.find d).2 := by
  unfold Manager.find
  split
  · exact h
  · next hn =>
    constructor
    · intro d' p hp
      rw [AMap.get?_set] at hp
      split at hp
      · next hd =>
        cases hp
        exact ⟨newChannel d, by simp, by simpa [newChannel] using hd⟩
      · obtain ⟨o, ho, hd⟩ := h.found d' p hp
        refine ⟨o, ?_, hd⟩
        rw [List.getElem?_append_left (lt_of_found h hp)]
        exact ho
    · intro p o ho
      rw [AMap.get?_set]
      by_cases hl : p < m.heap.length
      · rw [List.getElem?_append_left hl] at ho
        have := h.kept p o ho
        rw [if_neg (fun e => by rw [← e, hn] at this; cases this)]
        exact this
      · have hp : p = m.heap.length := by
          have := (List.getElem?_eq_some_iff.1 ho).1
          simp at this; omega
        subst hp
        simp at ho
        subst ho
        simp [newChannel]

theorem subsAt_find {m : Manager} (h : Sound m) (d d' : Bytes) : subsAt (m.find d).2 d' = subsAt m d' := by
  unfold Manager.find
  split
  · rfl
  · next hn =>
    unfold subsAt
    rw [AMap.get?_set]
    by_cases hd : d = d'
    · subst hd
      simp [hn, newChannel]
    · simp only [if_neg hd]
      split
      · rfl
      · next p hp =>
        rw [List.getElem?_append_left (lt_of_found h hp)]

theorem obj_of {m : Manager} (h : Sound m) {d : Bytes} {p : Nat} (hp : m.map.get? d = some p) :
    (m.obj p).dest = d ∧ (m.obj p).subs = subsAt m d := by
  obtain ⟨o, ho, hd⟩ := h.found d p hp
  unfold Manager.obj subsAt
  rw [List.getD_eq_getElem?_getD, ho, hp]
  simp [hd, ho]

theorem sound_setSubs {m : Manager} (h : Sound m) (p : Nat) (l : List SubRef) : Sound (m.setSubs p l) := by
  constructor
  · intro d q hq
    obtain ⟨o, ho, hd⟩ := h.found d q hq
    unfold Manager.setSubs
    simp only [List.getElem?_modify, ho]
    split
    · exact ⟨_, rfl, hd⟩
    · exact ⟨_, rfl, hd⟩
  · intro q o ho
    unfold Manager.setSubs at ho
    simp only [List.getElem?_modify] at ho
    cases hq : m.heap[q]? with
    | none => simp [hq] at ho
    | some o' =>
      have hk := h.kept q o' hq
      rw [hq] at ho
      simp only [Option.map_eq_map, Option.map_some, Option.some.injEq] at ho
      show m.map.get? o.dest = some q
      rw [← ho]
      split <;> exact hk

theorem subsAt_setSubs {m : Manager} (h : Sound m) {d : Bytes} {p : Nat} (hp : m.map.get? d = some p) (l : List SubRef) (d' : Bytes) :
    subsAt (m.setSubs p l) d' = if d = d' then l else subsAt m d' := by
  obtain ⟨o, ho, hd⟩ := h.found d p hp
  unfold subsAt Manager.setSubs
  by_cases e : d = d'
  · subst e
    simp [hp, ho]
  · simp only [if_neg e]
    cases hq : m.map.get? d' with
    | none => rfl
    | some q =>
      obtain ⟨o', ho', hd'⟩ := h.found d' q hq
      have : p ≠ q := by
        intro e'
        subst e'
        rw [ho] at ho'
        cases ho'
        exact e (hd.symm.trans hd')
      simp [ho', this]

end Mgr

namespace MSys
open Mgr

/-- The other server, for a state of this one. -/
def plain (x : MSys) (q t : AMap (List SubRef)) : Sys := { x.sys with queues := q, topics := t }

theorem same_iff {x : MSys} {s : Sys} :
    Same x s ↔ ∃ q t, s = x.plain q t ∧ (∀ d, q.list d = subsAt x.qm d) ∧ (∀ d, t.list d = subsAt x.tm d) := by
  constructor
  · intro h
    refine ⟨s.queues, s.topics, ?_, h.queues, h.topics⟩
    obtain ⟨h1, h2, h3, h4, h5, h6, h7, h8, _, _⟩ := h
    cases s
    simp only at h1 h2 h3 h4 h5 h6 h7 h8
    simp [plain, h1, h2, h3, h4, h5, h6, h7, h8]
  · rintro ⟨q, t, rfl, hq, ht⟩
    exact ⟨rfl, rfl, rfl, rfl, rfl, rfl, rfl, rfl, hq, ht⟩

theorem sendQueueFrame_plain (s : Sys) (q t : AMap (List SubRef)) (d : Bytes) (r : SubRef) (m : Msg) :
    ({ s with queues := q, topics := t } : Sys).sendQueueFrame d r m = { s.sendQueueFrame d r m with queues := q, topics := t } := by
  unfold Sys.sendQueueFrame
  by_cases h : (s.sub r).frame.isSome = true
  · have h' : (({ s with queues := q, topics := t } : Sys).sub r).frame.isSome = true := h
    rw [if_pos h, if_pos h']
  · have h' : ¬ (({ s with queues := q, topics := t } : Sys).sub r).frame.isSome = true := h
    rw [if_neg h, if_neg h']
    rfl

structure Ok (x : MSys) : Prop where
  q : Sound x.qm
  t : Sound x.tm

theorem queueSubscribe_same {x : MSys} {s : Sys} (h : Same x s) (ok : Ok x) {d : Bytes} {p : Nat} (hp : x.qm.map.get? d = some p) (r : SubRef)
    (hd : (x.sys.sub r).dest = d) : Same (x.queueSubscribe p r) (s.queueSubscribe d r) ∧ Ok (x.queueSubscribe p r) := by
  obtain ⟨q, t, rfl, hq, ht⟩ := same_iff.1 h
  obtain ⟨od, os⟩ := obj_of ok.q hp
  unfold queueSubscribe Sys.queueSubscribe
  rw [hd, od, os]
  cases hdq : x.sys.store.dequeue d with
  | mk f st =>
    have hdq' : (x.plain q t).store.dequeue d = (f, st) := hdq
    rw [hdq']
    cases f with
    | none =>
      simp only []
      by_cases hi : (x.sys.sub r).inList = true
      · have hi' : ((x.plain q t).sub r).inList = true := hi
        rw [if_pos hi, if_pos hi']
        exact ⟨same_iff.2 ⟨q, t, rfl, hq, ht⟩, ⟨ok.q, ok.t⟩⟩
      · have hi' : ¬ ((x.plain q t).sub r).inList = true := hi
        rw [if_neg hi, if_neg hi']
        refine ⟨same_iff.2 ⟨q.set d (q.list d ++ [r]), t, rfl, fun d' => ?_, ht⟩, ⟨sound_setSubs ok.q _ _, ok.t⟩⟩
        rw [AMap.list_set, subsAt_setSubs ok.q hp, hq d', hq d]
    | some m =>
      exact ⟨same_iff.2 ⟨q, t, sendQueueFrame_plain { x.sys with store := st } q t d r m, hq, ht⟩, ⟨ok.q, ok.t⟩⟩

theorem queueUnsubscribe_same {x : MSys} {s : Sys} (h : Same x s) (ok : Ok x) {d : Bytes} {p : Nat} (hp : x.qm.map.get? d = some p) (r : SubRef) :
    Same (x.queueUnsubscribe p r) (s.queueUnsubscribe d r) ∧ Ok (x.queueUnsubscribe p r) := by
  obtain ⟨q, t, rfl, hq, ht⟩ := same_iff.1 h
  obtain ⟨od, os⟩ := obj_of ok.q hp
  unfold queueUnsubscribe Sys.queueUnsubscribe
  rw [od, os]
  simp only [plain, hq d]
  split
  · refine ⟨same_iff.2 ⟨q.set d ((subsAt x.qm d).erase r), t, rfl, fun d' => ?_, ht⟩, ⟨sound_setSubs ok.q _ _, ok.t⟩⟩
    rw [AMap.list_set, subsAt_setSubs ok.q hp, hq d']
  · exact ⟨h, ⟨ok.q, ok.t⟩⟩

theorem queuePut_same {x : MSys} {s : Sys} (h : Same x s) (ok : Ok x) {d : Bytes} {p : Nat} (hp : x.qm.map.get? d = some p) (b : Bool) (m : Msg) :
    Same (x.queuePut b p m) (s.queuePut b d m) ∧ Ok (x.queuePut b p m) := by
  obtain ⟨q, t, rfl, hq, ht⟩ := same_iff.1 h
  obtain ⟨od, os⟩ := obj_of ok.q hp
  unfold queuePut Sys.queuePut
  rw [od, os]
  simp only [plain, hq d]
  cases hl : subsAt x.qm d with
  | nil =>
    simp only []
    exact ⟨same_iff.2 ⟨q, t, rfl, hq, ht⟩, ⟨ok.q, ok.t⟩⟩
  | cons r rs =>
    refine ⟨same_iff.2 ⟨q.set d rs, t, ?_, fun d' => ?_, ht⟩, ⟨sound_setSubs ok.q _ _, ok.t⟩⟩
    · exact sendQueueFrame_plain { x.sys.setSub r (fun b => { b with inList := false }) with qlog := x.sys.qlog ++ [(d, .put b m.tag)] } (q.set d rs) t d r m
    · rw [AMap.list_set]
      show _ = subsAt (x.qm.setSubs p rs) d'
      rw [subsAt_setSubs ok.q hp, hq d']

theorem topicSubscribe_same {x : MSys} {s : Sys} (h : Same x s) (ok : Ok x) {d : Bytes} {p : Nat} (hp : x.tm.map.get? d = some p) (r : SubRef) :
    Same (x.topicSubscribe p r) (s.topicSubscribe d r) ∧ Ok (x.topicSubscribe p r) := by
  obtain ⟨q, t, rfl, hq, ht⟩ := same_iff.1 h
  obtain ⟨od, os⟩ := obj_of ok.t hp
  unfold topicSubscribe Sys.topicSubscribe
  rw [od, os]
  simp only [plain, ht d]
  refine ⟨same_iff.2 ⟨q, t.set d (subsAt x.tm d ++ [r]), rfl, hq, fun d' => ?_⟩, ⟨ok.q, sound_setSubs ok.t _ _⟩⟩
  rw [AMap.list_set, subsAt_setSubs ok.t hp, ht d']

theorem topicUnsubscribe_same {x : MSys} {s : Sys} (h : Same x s) (ok : Ok x) {d : Bytes} {p : Nat} (hp : x.tm.map.get? d = some p) (r : SubRef) :
    Same (x.topicUnsubscribe p r) (s.topicUnsubscribe d r) ∧ Ok (x.topicUnsubscribe p r) := by
  obtain ⟨q, t, rfl, hq, ht⟩ := same_iff.1 h
  obtain ⟨od, os⟩ := obj_of ok.t hp
  unfold topicUnsubscribe Sys.topicUnsubscribe
  rw [od, os]
  simp only [plain, ht d]
  refine ⟨same_iff.2 ⟨q, t.set d ((subsAt x.tm d).erase r), rfl, hq, fun d' => ?_⟩, ⟨ok.q, sound_setSubs ok.t _ _⟩⟩
  rw [AMap.list_set, subsAt_setSubs ok.t hp, ht d']

theorem topicEnqueue_same {x : MSys} {s : Sys} (h : Same x s) (ok : Ok x) {d : Bytes} {p : Nat} (hp : x.tm.map.get? d = some p) (m : Msg) :
    Same (x.topicEnqueue p m) (s.topicEnqueue d m) ∧ Ok (x.topicEnqueue p m) := by
  obtain ⟨q, t, rfl, hq, ht⟩ := same_iff.1 h
  obtain ⟨od, os⟩ := obj_of ok.t hp
  unfold topicEnqueue Sys.topicEnqueue
  rw [od, os]
  simp only [plain, ht d]
  exact ⟨same_iff.2 ⟨q, t, rfl, hq, ht⟩, ⟨ok.q, ok.t⟩⟩

theorem findQ_same {x : MSys} {s : Sys} (h : Same x s) (ok : Ok x) (d : Bytes) :
    Same { x with qm := (x.qm.find d).2 } s ∧ Ok { x with qm := (x.qm.find d).2 } :=
  ⟨⟨h.conns, h.reqCh, h.store, h.todo, h.crashed, h.qlog, h.tlog, h.dropped, fun d' => (h.queues d').trans (subsAt_find ok.q d d').symm, h.topics⟩,
    ⟨sound_find ok.q d, ok.t⟩⟩

theorem findT_same {x : MSys} {s : Sys} (h : Same x s) (ok : Ok x) (d : Bytes) :
    Same { x with tm := (x.tm.find d).2 } s ∧ Ok { x with tm := (x.tm.find d).2 } :=
  ⟨⟨h.conns, h.reqCh, h.store, h.todo, h.crashed, h.qlog, h.tlog, h.dropped, h.queues, fun d' => (h.topics d').trans (subsAt_find ok.t d d').symm⟩,
    ⟨ok.q, sound_find ok.t d⟩⟩

theorem sub_same {x : MSys} {s : Sys} (h : Same x s) (r : SubRef) : s.sub r = x.sys.sub r := by
  unfold Sys.sub Sys.conn; rw [h.conns]

theorem crash_same {x : MSys} {s : Sys} (h : Same x s) : Same { x with sys := { x.sys with crashed := true } } { s with crashed := true } :=
  ⟨h.conns, h.reqCh, h.store, h.todo, rfl, h.qlog, h.tlog, h.dropped, h.queues, h.topics⟩

theorem handle_same {x : MSys} {s : Sys} (h : Same x s) (ok : Ok x) (r : Req) : Same (x.handle r) (s.handle r) ∧ Ok (x.handle r) := by
  cases r with
  | subscribe r =>
    simp only [handle, Sys.handle, sub_same h r]
    split
    · exact queueSubscribe_same (findQ_same h ok _).1 (findQ_same h ok _).2 (find_get _ _) r rfl
    · exact topicSubscribe_same (findT_same h ok _).1 (findT_same h ok _).2 (find_get _ _) r
  | unsubscribe r =>
    simp only [handle, Sys.handle, sub_same h r]
    split
    · exact queueUnsubscribe_same (findQ_same h ok _).1 (findQ_same h ok _).2 (find_get _ _) r
    · exact topicUnsubscribe_same (findT_same h ok _).1 (findT_same h ok _).2 (find_get _ _) r
  | enqueue m =>
    simp only [handle, Sys.handle]
    cases hd : m.frame.header.contains Hdr.destination with
    | none => exact ⟨crash_same h, ⟨ok.q, ok.t⟩⟩
    | some d =>
      simp only []
      split
      · exact queuePut_same (findQ_same h ok _).1 (findQ_same h ok _).2 (find_get _ _) _ _
      · exact topicEnqueue_same (findT_same h ok _).1 (findT_same h ok _).2 (find_get _ _) _
  | requeue m =>
    cases m with
    | none => exact ⟨crash_same h, ⟨ok.q, ok.t⟩⟩
    | some m =>
      simp only [handle, Sys.handle]
      cases hd : m.frame.header.contains Hdr.destination with
      | none => exact ⟨crash_same h, ⟨ok.q, ok.t⟩⟩
      | some d =>
        simp only []
        split
        · exact queuePut_same (findQ_same h ok _).1 (findQ_same h ok _).2 (find_get _ _) _ _
        · refine ⟨⟨h.conns, h.reqCh, h.store, h.todo, h.crashed, h.qlog, h.tlog, ?_, h.queues, h.topics⟩, ⟨ok.q, ok.t⟩⟩
          show s.dropped ++ _ = x.sys.dropped ++ _
          rw [h.dropped]
  | connected _ => exact ⟨h, ⟨ok.q, ok.t⟩⟩
  | disconnected _ => exact ⟨h, ⟨ok.q, ok.t⟩⟩

/-- Other events do not look at the lists of the queues and topics. -/
theorem step_plain (cfg : Config) (s : Sys) (q t : AMap (List SubRef)) (e : Sys.Ev) (he : e ≠ .proc) :
    ({ s with queues := q, topics := t } : Sys).step cfg e = (s.step cfg e).map (fun s' => { s' with queues := q, topics := t }) := by
  unfold Sys.step
  by_cases hc : s.crashed
  · simp [hc]
  · simp only [hc]
    cases e with
    | proc => exact absurd rfl he
    | accept => rfl
    | conn c e =>
      simp only []
      cases hi : Sys.internal e
      · rfl
      · cases hk : s.conns[c]? with
        | none => simp
        | some k => cases hs : k.step cfg e <;> simp [hs]
    | flush c =>
      simp only []
      cases hk : s.conns[c]? with
      | none => rfl
      | some k =>
        cases ho : k.outbox with
        | nil => simp [ho]
        | cons o os =>
          cases o with
          | panic => simp [ho]
          | req r =>
            simp only [ho]
            by_cases hl : s.reqCh.length < Sys.reqCap
            · cases hs : k.step cfg .flushed <;> simp [hl, hs]
            · simp [hl]
    | push =>
      simp only []
      cases ht : s.todo with
      | nil => rfl
      | cons o os =>
        cases o with
        | queue r =>
          simp only []
          cases hk : s.conns[r.conn]? with
          | none => rfl
          | some k => cases hs : k.step cfg (.pushSub r.idx) <;> simp [hs]
        | topic d r m =>
          simp only []
          cases hk : s.conns[r.conn]? with
          | none => rfl
          | some k =>
            simp only []
            by_cases hf : (deref k.heap r.idx).frame.isSome = true
            · simp [hf]
            · simp only [if_neg hf]
              simp only [Bool.false_eq_true, if_false]
              cases hs : k.step cfg (.pushTopic { m with frame := { m.frame with header := m.frame.header.set Hdr.subscription (deref k.heap r.idx).id } }) <;> rfl

theorem sys_proc {cfg : Config} {s : Sys} {r : Req} {rs : List Req} (hc : s.crashed = false) (ht : s.todo = []) (hr : s.reqCh = r :: rs) :
    s.step cfg .proc = some (({ s with reqCh := rs } : Sys).handle r) := by
  cases s; subst hc ht hr; rfl

theorem sys_proc_inv {cfg : Config} {s s' : Sys} (h : s.step cfg .proc = some s') :
    ∃ r rs, s.crashed = false ∧ s.todo = [] ∧ s.reqCh = r :: rs ∧ s' = (({ s with reqCh := rs } : Sys).handle r) := by
  unfold Sys.step at h
  split at h
  · cases h
  · next hc =>
    simp only [] at h
    split at h
    · next r rs ht hr => cases h; exact ⟨r, rs, by simpa using hc, ht, hr, rfl⟩
    · cases h

theorem proc {cfg : Config} {x : MSys} {r : Req} {rs : List Req} (hc : x.sys.crashed = false) (ht : x.sys.todo = []) (hr : x.sys.reqCh = r :: rs) :
    x.step cfg .proc = some (({ x with sys := { x.sys with reqCh := rs } } : MSys).handle r) := by
  obtain ⟨s, q, t⟩ := x
  cases s; simp only [] at hc ht hr; subst hc ht hr; rfl

theorem proc_inv {cfg : Config} {x x' : MSys} (h : x.step cfg .proc = some x') :
    ∃ r rs, x.sys.crashed = false ∧ x.sys.todo = [] ∧ x.sys.reqCh = r :: rs ∧ x' = (({ x with sys := { x.sys with reqCh := rs } } : MSys).handle r) := by
  simp only [step] at h
  split at h
  · cases h
  · next hc =>
    split at h
    · next r rs ht hr => cases h; exact ⟨r, rs, by simpa using hc, ht, hr, rfl⟩
    · cases h

theorem step_same {cfg : Config} {x : MSys} {s : Sys} (h : Same x s) (ok : Ok x) (e : Sys.Ev) :
    (∀ x', x.step cfg e = some x' → ∃ s', s.step cfg e = some s' ∧ Same x' s' ∧ Ok x') ∧
    (∀ s', s.step cfg e = some s' → ∃ x', x.step cfg e = some x' ∧ Same x' s' ∧ Ok x') := by
  by_cases he : e = .proc
  · subst he
    have key : ∀ r rs, x.sys.reqCh = r :: rs → Same (({ x with sys := { x.sys with reqCh := rs } } : MSys).handle r) (({ s with reqCh := rs } : Sys).handle r) ∧
        Ok (({ x with sys := { x.sys with reqCh := rs } } : MSys).handle r) := fun r rs _ =>
      handle_same (x := { x with sys := { x.sys with reqCh := rs } }) (s := { s with reqCh := rs })
        ⟨h.conns, rfl, h.store, h.todo, h.crashed, h.qlog, h.tlog, h.dropped, h.queues, h.topics⟩ ⟨ok.q, ok.t⟩ r
    constructor
    · intro x' hx
      obtain ⟨r, rs, hc, ht, hr, rfl⟩ := proc_inv hx
      exact ⟨_, sys_proc (h.crashed.trans hc) (h.todo.trans ht) (h.reqCh.trans hr), key r rs hr⟩
    · intro s' hs
      obtain ⟨r, rs, hc, ht, hr, rfl⟩ := sys_proc_inv hs
      exact ⟨_, proc (h.crashed.symm.trans hc) (h.todo.symm.trans ht) (h.reqCh.symm.trans hr), key r rs (h.reqCh.symm.trans hr)⟩
  · obtain ⟨q, t, rfl, hq, ht⟩ := same_iff.1 h
    have hm : x.step cfg e = (x.sys.step cfg e).map (fun s => { x with sys := s }) := by
      cases e <;> first | rfl | exact absurd rfl he
    rw [hm, plain, step_plain cfg x.sys q t e he]
    cases hs : x.sys.step cfg e with
    | none => exact ⟨fun _ h => (by cases h), fun _ h => (by cases h)⟩
    | some s1 =>
      have hh : Same { x with sys := s1 } { s1 with queues := q, topics := t } := same_iff.2 ⟨q, t, rfl, hq, ht⟩
      exact ⟨fun x' e => by cases e; exact ⟨_, rfl, hh, ok.q, ok.t⟩, fun s' e => by cases e; exact ⟨_, rfl, hh, ok.q, ok.t⟩⟩

theorem run_same {cfg : Config} {es : List Sys.Ev} : ∀ {x : MSys} {s : Sys}, Same x s → Ok x →
    (∀ x', x.run cfg es = some x' → ∃ s', s.run cfg es = some s' ∧ Same x' s' ∧ Ok x') ∧
    (∀ s', s.run cfg es = some s' → ∃ x', x.run cfg es = some x' ∧ Same x' s' ∧ Ok x') := by
  induction es with
  | nil =>
    intro x s h ok
    exact ⟨fun x' e => by cases e; exact ⟨s, rfl, h, ok⟩, fun s' e => by cases e; exact ⟨x, rfl, h, ok⟩⟩
  | cons e es ih =>
    intro x s h ok
    obtain ⟨h1, h2⟩ := step_same (cfg := cfg) h ok e
    constructor
    · intro x' hx
      simp only [run] at hx
      cases hs : x.step cfg e with
      | none => rw [hs] at hx; cases hx
      | some x1 =>
        rw [hs] at hx
        obtain ⟨s1, hs1, hh, ok1⟩ := h1 x1 hs
        obtain ⟨s', hr, r⟩ := (ih hh ok1).1 x' hx
        exact ⟨s', by simp only [Sys.run, hs1]; exact hr, r⟩
    · intro s' hx
      simp only [Sys.run] at hx
      cases hs : s.step cfg e with
      | none => rw [hs] at hx; cases hx
      | some s1 =>
        rw [hs] at hx
        obtain ⟨x1, hs1, hh, ok1⟩ := h2 s1 hs
        obtain ⟨x', hr, r⟩ := (ih hh ok1).2 s' hx
        exact ⟨x', by simp only [run, hs1]; exact hr, r⟩

theorem same_init : Same init Sys.init ∧ Ok init :=
  ⟨⟨rfl, rfl, rfl, rfl, rfl, rfl, rfl, rfl, fun _ => rfl, fun _ => rfl⟩, ⟨sound_new, sound_new⟩⟩

/-! ## Entries stay -/

/-- What one manager may become: nothing that was found is lost or replaced, and at most `n` objects are new. -/
structure Grows (m m' : Manager) (n : Nat) : Prop where
  stay : ∀ d p, m.map.get? d = some p → m'.map.get? d = some p
  len : m.heap.length ≤ m'.heap.length ∧ m'.heap.length ≤ m.heap.length + n

theorem Grows.refl (m : Manager) : Grows m m 0 := ⟨fun _ _ h => h, by omega⟩

theorem grows_find (m : Manager) (d : Bytes) : Grows m (m.find d).2 1 := by
  unfold Manager.find
  split
  · exact ⟨fun _ _ h => h, Nat.le_refl _, Nat.le_succ _⟩
  · next hn =>
    refine ⟨fun d' p h => ?_, by simp⟩
    rw [AMap.get?_set, if_neg (fun e => by rw [← e, hn] at h; cases h)]
    exact h

theorem grows_set {m m' : Manager} {n : Nat} (h : Grows m m' n) (p : Nat) (l : List SubRef) : Grows m (m'.setSubs p l) n :=
  ⟨h.stay, by simpa [Manager.setSubs] using h.len⟩

theorem Grows.trans {a b c : Manager} {m n : Nat} (h : Grows a b m) (h' : Grows b c n) : Grows a c (m + n) :=
  ⟨fun d p hp => h'.stay d p (h.stay d p hp), by have := h.len; have := h'.len; omega⟩

/-- Both managers; together they get at most `n` new objects. -/
structure Grows2 (x x' : MSys) (n : Nat) : Prop where
  ex : ∃ a b, Grows x.qm x'.qm a ∧ Grows x.tm x'.tm b ∧ a + b ≤ n

theorem queueSubscribe_grows {m : Manager} {n : Nat} {x : MSys} (h : Grows m x.qm n) (p : Nat) (r : SubRef) :
    Grows m (x.queueSubscribe p r).qm n ∧ (x.queueSubscribe p r).tm = x.tm := by
  unfold queueSubscribe
  split
  · split
    · exact ⟨h, rfl⟩
    · exact ⟨grows_set h _ _, rfl⟩
  · exact ⟨h, rfl⟩

theorem queueUnsubscribe_grows {m : Manager} {n : Nat} {x : MSys} (h : Grows m x.qm n) (p : Nat) (r : SubRef) :
    Grows m (x.queueUnsubscribe p r).qm n ∧ (x.queueUnsubscribe p r).tm = x.tm := by
  unfold queueUnsubscribe
  split
  · exact ⟨grows_set h _ _, rfl⟩
  · exact ⟨h, rfl⟩

theorem queuePut_grows {m : Manager} {n : Nat} {x : MSys} (h : Grows m x.qm n) (b : Bool) (p : Nat) (f : Msg) :
    Grows m (x.queuePut b p f).qm n ∧ (x.queuePut b p f).tm = x.tm := by
  unfold queuePut
  split
  · exact ⟨h, rfl⟩
  · exact ⟨grows_set h _ _, rfl⟩

theorem handle_grows (x : MSys) (r : Req) : Grows2 x (x.handle r) 1 := by
  have z : ∀ t, Grows2 x { x with sys := t } 1 := fun t => ⟨0, 0, .refl _, .refl _, by omega⟩
  have q : ∀ x' : MSys, (Grows x.qm x'.qm 1 ∧ x'.tm = x.tm) → Grows2 x x' 1 := fun x' h => ⟨1, 0, h.1, h.2 ▸ .refl _, by omega⟩
  cases r with
  | subscribe r =>
    simp only [handle]
    split
    · exact q _ (queueSubscribe_grows (grows_find _ _) _ _)
    · exact ⟨0, 1, .refl _, grows_set (grows_find _ _) _ _, by omega⟩
  | unsubscribe r =>
    simp only [handle]
    split
    · exact q _ (queueUnsubscribe_grows (grows_find _ _) _ _)
    · exact ⟨0, 1, .refl _, grows_set (grows_find _ _) _ _, by omega⟩
  | enqueue m =>
    simp only [handle]
    split
    · exact z _
    · split
      · exact q _ (queuePut_grows (grows_find _ _) _ _ _)
      · exact ⟨0, 1, .refl _, grows_find _ _, by omega⟩
  | requeue m =>
    cases m with
    | none => exact z _
    | some m =>
      simp only [handle]
      split
      · exact z _
      · split
        · exact q _ (queuePut_grows (grows_find _ _) _ _ _)
        · exact z _
  | connected _ => exact z _
  | disconnected _ => exact z _

theorem step_grows {cfg : Config} {x x' : MSys} {e : Sys.Ev} (h : x.step cfg e = some x') : Grows2 x x' (if e = .proc then 1 else 0) := by
  by_cases he : e = .proc
  · subst he
    obtain ⟨r, rs, _, _, _, rfl⟩ := proc_inv h
    obtain ⟨a, b, ha, hb, hn⟩ := handle_grows { x with sys := { x.sys with reqCh := rs } } r
    exact ⟨a, b, ha, hb, by simpa using hn⟩
  · have hm : x.step cfg e = (x.sys.step cfg e).map (fun s => { x with sys := s }) := by
      cases e <;> first | rfl | exact absurd rfl he
    rw [hm] at h
    cases hs : x.sys.step cfg e with
    | none => rw [hs] at h; cases h
    | some s1 =>
      rw [hs] at h
      cases h
      exact ⟨0, 0, .refl _, .refl _, by omega⟩

theorem run_grows {cfg : Config} {es : List Sys.Ev} : ∀ {x x' : MSys}, x.run cfg es = some x' → Grows2 x x' (es.count .proc) := by
  induction es with
  | nil => intro x x' h; cases h; exact ⟨0, 0, .refl _, .refl _, by simp⟩
  | cons e es ih =>
    intro x x' h
    simp only [run] at h
    cases hs : x.step cfg e with
    | none => rw [hs] at h; cases h
    | some x1 =>
      rw [hs] at h
      obtain ⟨a, b, ha, hb, hn⟩ := step_grows hs
      obtain ⟨a', b', ha', hb', hn'⟩ := ih h
      refine ⟨a + a', b + b', ha.trans ha', hb.trans hb', ?_⟩
      rw [List.count_cons]
      by_cases he : e = .proc
      · subst he; simp at hn ⊢; omega
      · simp [he] at hn ⊢; omega

end MSys
end Stomp.Server
