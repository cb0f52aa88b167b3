import Verif.Proofs.Server.Managers
/-!
# Property C90: there is one queue and one topic for each destination, made when first needed
-/
namespace Stomp.Server
open Stomp Spec

/-- **C90** (1). A server that makes queues and topics when they are first needed and finds them again in a map cannot be told from one in which every destination has its list of
subscribers from the start: every execution of the one is an execution of the other, and they end in the same state. -/
theorem C90_same (cfg : Config) (es : List Sys.Ev) :
    (∀ x, MSys.init.run cfg es = some x → ∃ s, Sys.init.run cfg es = some s ∧ Same x s) ∧
    (∀ s, Sys.init.run cfg es = some s → ∃ x, MSys.init.run cfg es = some x ∧ Same x s) := by
  obtain ⟨h1, h2⟩ := MSys.run_same (cfg := cfg) (es := es) MSys.same_init.1 MSys.same_init.2
  constructor
  · intro x hx
    obtain ⟨s, hs, h, _⟩ := h1 x hx
    exact ⟨s, hs, h⟩
  · intro s hs
    obtain ⟨x, hx, h, _⟩ := h2 s hs
    exact ⟨x, hx, h⟩

/-- **C90** (2). At every moment, what a manager finds for a destination is an object for that destination, every object it has made is found, and so different destinations have different
objects; `Find` after `Find` gives the same object. -/
theorem C90_one (cfg : Config) (es : List Sys.Ev) (x : MSys) (h : MSys.init.run cfg es = some x) :
    ∀ m, m = x.qm ∨ m = x.tm →
      (∀ d p, m.map.get? d = some p → ∃ o, m.heap[p]? = some o ∧ o.dest = d) ∧
      (∀ p o, m.heap[p]? = some o → m.map.get? o.dest = some p) ∧
      (∀ d d', (m.find d).1 = ((m.find d).2.find d').1 ↔ d = d') := by
  obtain ⟨s, _, _, ok⟩ := (MSys.run_same (cfg := cfg) (es := es) MSys.same_init.1 MSys.same_init.2).1 x h
  intro m hm
  have hs : Sound m := by rcases hm with rfl | rfl; exact ok.q; exact ok.t
  refine ⟨hs.found, hs.kept, fun d d' => ⟨fun he => ?_, fun he => ?_⟩⟩
  · have h1 := (MSys.grows_find (m.find d).2 d').stay d _ (Mgr.find_get m d)
    have h2 := Mgr.find_get (m.find d).2 d'
    have s2 := Mgr.sound_find (Mgr.sound_find hs d) d'
    obtain ⟨o, ho, hd⟩ := s2.found _ _ h1
    obtain ⟨o', ho', hd'⟩ := s2.found _ _ h2
    rw [he] at ho
    rw [ho] at ho'
    cases ho'
    exact hd.symm.trans hd'
  · subst he
    have key : ∀ (m' : Manager) p, m'.map.get? d = some p → (m'.find d).1 = p := by
      intro m' p hp
      unfold Manager.find
      rw [hp]
    exact (key _ _ (Mgr.find_get m d)).symm

/-- **C90** (3). What a manager once finds for a destination it finds ever after, and there is at most one object for every request that has been handled. -/
theorem C90_room_partial (cfg : Config) (es es' : List Sys.Ev) (x x' : MSys) (h : MSys.init.run cfg es = some x) (h' : x.run cfg es' = some x') :
    (∀ d p, x.qm.map.get? d = some p → x'.qm.map.get? d = some p) ∧ (∀ d p, x.tm.map.get? d = some p → x'.tm.map.get? d = some p) ∧
    x.qm.heap.length + x.tm.heap.length ≤ es.count .proc := by
  obtain ⟨a, b, ha, hb, hn⟩ := MSys.run_grows h
  obtain ⟨a', b', ha', hb', _⟩ := MSys.run_grows h'
  refine ⟨ha'.stay, hb'.stay, ?_⟩
  have h1 : x.qm.heap.length ≤ 0 + a := ha.len.2
  have h2 : x.tm.heap.length ≤ 0 + b := hb.len.2
  omega

namespace ManagersEx

/-- A configuration. -/
def cfg : Config := { heartBeat := 0, auth := fun _ _ => true, parseErr := fun s => s }

/-- A client connects. -/
def start : List Sys.Ev := [.accept, .conn 0 (.recv (Frame.new Cmd.connect [(Hdr.acceptVersion, b!"1.2")])), .conn 0 (.frame true true), .flush 0, .proc]

/-- A topic. -/
def dest (n : Nat) : Bytes := b!"/t" ++ List.replicate n 120

/-- It sends a message to a topic; the server deals with it. -/
def say (d : Bytes) : List Sys.Ev := [.conn 0 (.recv (Frame.new Cmd.send [(Hdr.destination, d)])), .conn 0 (.frame true true), .flush 0, .proc]

/-- Messages to `n` topics. -/
def many : Nat → List Sys.Ev
  | 0 => start
  | n + 1 => many n ++ say (dest n)

/-- Nothing is going on and nobody is subscribed to anything. -/
structure Idle (x : MSys) : Prop where
  conn : ∃ k, x.sys.conns = [k] ∧ k.readDone = false ∧ k.inq = [] ∧ k.stage = .run ∧ k.outbox = [] ∧ k.connected = true ∧ k.heap = []
  reqCh : x.sys.reqCh = []
  todo : x.sys.todo = []
  crashed : x.sys.crashed = false
  store : x.sys.store = []
  objs : ∀ o ∈ x.tm.heap, o.subs = []

theorem dest_topic (n : Nat) : isQueueDestination (dest n) = false := by
  unfold isQueueDestination dest
  rfl

theorem run_append (cfg : Config) (es es' : List Sys.Ev) : ∀ x x' : MSys, x.run cfg es = some x' → x.run cfg (es ++ es') = x'.run cfg es' := by
  induction es with
  | nil => intro x x' h; cases h; rfl
  | cons e es ih =>
    intro x x' h
    simp only [MSys.run, List.cons_append] at h ⊢
    cases hs : x.step cfg e with
    | none => rw [hs] at h; cases h
    | some x1 => rw [hs] at h; exact ih x1 x' h

theorem say_step (x : MSys) (h : Idle x) (n : Nat) :
    ∃ x', x.run cfg (say (dest n)) = some x' ∧ Idle x' ∧ x'.tm = (x.tm.find (dest n)).2 ∧ x'.qm = x.qm := by
  obtain ⟨⟨k, hk, hr, hi, hst, ho, hc, hh⟩, h2, h3, h4, h5, h6⟩ := h
  obtain ⟨s, qm, tm⟩ := x
  obtain ⟨conns, reqCh, queues, store, topics, todo, crashed, qlog, tlog, dropped⟩ := s
  simp only at hk h2 h3 h4 h5 h6
  subst hk h2 h3 h4 h5
  obtain ⟨⟩ := k
  simp only at hr hi hst ho hc hh
  subst hr hi hst ho hc hh
  have hsub : ((tm.find (dest n)).2.obj (tm.find (dest n)).1).subs = [] ∧ ∀ o ∈ (tm.find (dest n)).2.heap, o.subs = [] := by
    have hall : ∀ o ∈ (tm.find (dest n)).2.heap, o.subs = [] := by
      unfold Manager.find
      split
      · exact h6
      · intro o ho
        simp only [List.mem_append, List.mem_singleton] at ho
        rcases ho with ho | rfl
        · exact h6 o ho
        · rfl
    refine ⟨?_, hall⟩
    unfold Manager.obj
    rw [List.getD_eq_getElem?_getD]
    cases hg : (tm.find (dest n)).2.heap[(tm.find (dest n)).1]? with
    | none => rfl
    | some o => exact hall o (List.mem_of_getElem? hg)
  refine ⟨_, rfl, ⟨⟨_, rfl, rfl, rfl, rfl, rfl, rfl, rfl⟩, rfl, ?_, rfl, rfl, hsub.2⟩, rfl, rfl⟩
  show ((tm.find (dest n)).2.obj (tm.find (dest n)).1).subs.map _ = []
  rw [hsub.1]
  rfl

theorem many_run (n : Nat) : ∃ x, MSys.init.run cfg (many n) = some x ∧ Idle x ∧ x.tm.heap.length = n ∧ (∀ d p, x.tm.map.get? d = some p → ∃ i, i < n ∧ d = dest i) ∧
    x.qm = Manager.new := by
  induction n with
  | zero =>
    refine ⟨_, rfl, ⟨⟨_, rfl, rfl, rfl, rfl, rfl, rfl, rfl⟩, rfl, rfl, rfl, rfl, fun o ho => ?_⟩, rfl, fun d p h => ?_, rfl⟩
    · cases ho
    · cases h
  | succ n ih =>
    obtain ⟨x, hx, hi, hl, hm, hq⟩ := ih
    obtain ⟨x', hx', hi', ht, hq'⟩ := say_step x hi n
    have hn : x.tm.map.get? (dest n) = none := by
      cases hg : x.tm.map.get? (dest n) with
      | none => rfl
      | some p =>
        obtain ⟨i, hin, he⟩ := hm _ _ hg
        have := congrArg List.length he
        simp [dest] at this
        omega
    refine ⟨x', by rw [many, run_append cfg _ _ _ _ hx, hx'], hi', ?_, ?_, hq'.trans hq⟩
    · rw [ht]
      unfold Manager.find
      rw [hn]
      simp [hl]
    · intro d p hp
      rw [ht] at hp
      unfold Manager.find at hp
      rw [hn] at hp
      simp only [AMap.get?_set] at hp
      split at hp
      · next he => exact ⟨n, by omega, he.symm⟩
      · obtain ⟨i, h1, h2⟩ := hm d p hp
        exact ⟨i, by omega, h2⟩

end ManagersEx

/-- **C90** (4), that an object nobody needs is given up, is not so: for every `n` there is an execution with a single client that has never subscribed to anything, after which nothing
is going on, nothing is stored, and there are `n` topics without subscribers, which stay for ever. -/
theorem C90_false (n : Nat) :
    ∃ (es : List Sys.Ev) (x : MSys), MSys.init.run ManagersEx.cfg es = some x ∧
      (∃ k, x.sys.conns = [k] ∧ k.heap = [] ∧ k.inq = [] ∧ k.outbox = []) ∧ x.sys.reqCh = [] ∧ x.sys.todo = [] ∧ x.sys.crashed = false ∧ x.sys.store = [] ∧
      x.tm.heap.length = n ∧ (∀ o ∈ x.tm.heap, o.subs = []) ∧
      ∀ es' x', x.run ManagersEx.cfg es' = some x' → ∀ o ∈ x.tm.heap, x'.tm.map.get? o.dest = x.tm.map.get? o.dest ∧ (x.tm.map.get? o.dest).isSome = true := by
  obtain ⟨x, hx, hi, hl, _, _⟩ := ManagersEx.many_run n
  obtain ⟨⟨k, hk, _, h2, _, h3, _, h4⟩, h5, h6, h7, h8, h9⟩ := hi
  refine ⟨_, x, hx, ⟨k, hk, h4, h2, h3⟩, h5, h6, h7, h8, hl, h9, ?_⟩
  intro es' x' hx' o ho
  obtain ⟨p, hp⟩ := List.getElem?_of_mem ho
  have hg := (C90_one _ _ _ hx x.tm (.inr rfl)).2.1 p o hp
  rw [hg]
  exact ⟨(C90_room_partial _ _ _ _ _ hx hx').2.1 _ _ hg, rfl⟩

namespace ManagersEx

/-- Two clients; one subscribes to a queue and to a topic, the other sends to both and to a second queue. -/
def busy : List Sys.Ev :=
  start ++
  [.conn 0 (.recv (Frame.new Cmd.subscribe [(Hdr.id, b!"1"), (Hdr.destination, b!"/queue/a")])), .conn 0 (.frame true true), .flush 0, .proc,
   .conn 0 (.recv (Frame.new Cmd.subscribe [(Hdr.id, b!"2"), (Hdr.destination, b!"/topic/a")])), .conn 0 (.frame true true), .flush 0, .proc,
   .accept, .conn 1 (.recv (Frame.new Cmd.connect [(Hdr.acceptVersion, b!"1.2")])), .conn 1 (.frame true true), .flush 1, .proc,
   .conn 1 (.recv (Frame.new Cmd.send [(Hdr.destination, b!"/queue/b")])), .conn 1 (.frame true true), .flush 1, .proc,
   .conn 1 (.recv (Frame.new Cmd.send [(Hdr.destination, b!"/topic/a")])), .conn 1 (.frame true true), .flush 1, .proc, .push,
   .conn 1 (.recv (Frame.new Cmd.send [(Hdr.destination, b!"/queue/a")])), .conn 1 (.frame true true), .flush 1, .proc, .push]

/-- The objects that are there then. -/
def busyObjs : List (Bytes × Nat) × List (Bytes × Nat) := ([(b!"/queue/a", 0), (b!"/queue/b", 0)], [(b!"/topic/a", 1)])

/-- For C90 (1), (2) and (3): executions with queues, topics, subscribers and messages. Three objects for seven requests. -/
example : ∃ x, MSys.init.run cfg busy = some x ∧ (x.qm.heap.map (fun o => (o.dest, o.subs.length)), x.tm.heap.map (fun o => (o.dest, o.subs.length))) = busyObjs ∧
    busy.count .proc = 7 ∧ x.sys.store ≠ [] := by
  refine ⟨(MSys.init.run cfg busy).getD MSys.init, ?_, ?_, ?_, ?_⟩
  · have : (MSys.init.run cfg busy).isSome = true := by decide +kernel
    revert this
    cases MSys.init.run cfg busy <;> simp
  · decide +kernel
  · decide +kernel
  · decide +kernel

end ManagersEx
end Stomp.Server
