import Verif.Proofs.Server.QueueSim
import Verif.Props.Server.Session
/-! # Queues (C36) and the kinds of destinations (C43) -/
namespace Stomp.Server
open Stomp
open Stomp.Spec (firstValue)

theorem isQueue_iff (d : Bytes) : isQueueDestination d = true ↔ Spec.IsQueue d := by
  unfold isQueueDestination Spec.IsQueue
  exact List.isPrefixOf_iff_prefix

/-- Tags of the messages put into a queue. -/
def Spec.putTags (i : List Spec.QAsk) : List Tag := i.filterMap (fun | .put _ t => some t | _ => none)

/-- Subscriptions a queue is asked to serve. -/
def Spec.subscribers (i : List Spec.QAsk) : List SubRef := i.filterMap (fun | .subscribe r => some r | _ => none)

/-- Whether a request puts a message back. -/
def Spec.isRequeue : Spec.QAsk → Bool | .put true _ => true | _ => false

/-- Whether a request takes a subscription away. -/
def Spec.isLeave : Spec.QAsk → Bool | .unsubscribe _ => true | _ => false

/-- **C36.** For every destination that names a queue, in every execution: the requests the processor has handled for it, the messages
handed to subscriptions (the last of them perhaps still waiting for space in the connection's channel), the messages stored and the subscriptions
waiting are those of a first-in first-out queue serving its subscribers in order of their requests. -/
theorem C36_queue (cfg : Config) (es : List Sys.Ev) (s : Sys) (h : Sys.init.run cfg es = some s) (hc : s.crashed = false) (d : Bytes) (hd : Spec.IsQueue d) :
    Spec.Queue (Spec.observe (Spec.asked d) cfg Sys.init es) (Spec.observe (Spec.handed d) cfg Sys.init es ++ Spec.due d s)
      ((s.store.list d).map (·.tag)) (s.queues.list d) :=
  (queue_run ((isQueue_iff d).2 hd) h hc).1

/-- **C36.** A message is stored only while no subscription waits and a subscription waits only while no message is stored. -/
theorem C36_work_conserving (cfg : Config) (es : List Sys.Ev) (s : Sys) (h : Sys.init.run cfg es = some s) (hc : s.crashed = false) (d : Bytes)
    (hd : Spec.IsQueue d) : s.store.list d = [] ∨ s.queues.list d = [] :=
  (queue_run ((isQueue_iff d).2 hd) h hc).2

theorem queue_excl {i : List Spec.QAsk} {o : List (SubRef × Tag)} {p : List Tag} {w : List SubRef} (h : Spec.Queue i o p w) : p = [] ∨ w = [] := by
  induction h with
  | start => exact Or.inl rfl
  | enqueue => exact Or.inr rfl
  | requeue => exact Or.inr rfl
  | serve _ ih => rcases ih with ih | ih; exact Or.inl ih; cases ih
  | wait => exact Or.inl rfl
  | fetch _ ih => rcases ih with ih | ih; cases ih; exact Or.inr ih
  | leave _ ih => rcases ih with ih | ih; exact Or.inl ih; right; rw [ih]; rfl

theorem queue_order {i : List Spec.QAsk} {o : List (SubRef × Tag)} {p : List Tag} {w : List SubRef} (h : Spec.Queue i o p w)
    (hn : ∀ a ∈ i, Spec.isRequeue a = false) : o.map (·.2) ++ p = Spec.putTags i := by
  unfold Spec.putTags
  induction h with
  | start => rfl
  | enqueue _ ih =>
    rw [List.filterMap_append, ← ih (fun a ha => hn a (List.mem_append_left _ ha))]; simp
  | requeue _ ih => have := hn _ (List.mem_append_right _ List.mem_cons_self); cases this
  | serve h ih =>
    have hp := queue_excl h
    rw [List.filterMap_append, ← ih (fun a ha => hn a (List.mem_append_left _ ha))]
    rcases hp with rfl | hp
    · simp
    · cases hp
  | wait _ ih => rw [List.filterMap_append, ← ih (fun a ha => hn a (List.mem_append_left _ ha))]; simp
  | fetch _ ih => rw [List.filterMap_append, ← ih (fun a ha => hn a (List.mem_append_left _ ha))]; simp
  | leave _ ih => rw [List.filterMap_append, ← ih (fun a ha => hn a (List.mem_append_left _ ha))]; simp

/-- **C36.** As long as nothing is put back, the messages handed out and then the messages stored are the messages sent to the queue, in the order
in which they were accepted. -/
theorem C36_order (cfg : Config) (es : List Sys.Ev) (s : Sys) (h : Sys.init.run cfg es = some s) (hc : s.crashed = false) (d : Bytes) (hd : Spec.IsQueue d)
    (hn : ∀ a ∈ Spec.observe (Spec.asked d) cfg Sys.init es, Spec.isRequeue a = false) :
    (Spec.observe (Spec.handed d) cfg Sys.init es ++ Spec.due d s).map (·.2) ++ (s.store.list d).map (·.tag) =
      Spec.putTags (Spec.observe (Spec.asked d) cfg Sys.init es) :=
  queue_order (C36_queue cfg es s h hc d hd) hn

theorem queue_subscribers {i : List Spec.QAsk} {o : List (SubRef × Tag)} {p : List Tag} {w : List SubRef} (h : Spec.Queue i o p w)
    (hn : ∀ a ∈ i, Spec.isLeave a = false) : o.map (·.1) ++ w = Spec.subscribers i := by
  unfold Spec.subscribers
  induction h with
  | start => rfl
  | enqueue _ ih => rw [List.filterMap_append, ← ih (fun a ha => hn a (List.mem_append_left _ ha))]; simp
  | requeue _ ih => rw [List.filterMap_append, ← ih (fun a ha => hn a (List.mem_append_left _ ha))]; simp
  | serve h ih => rw [List.filterMap_append, ← ih (fun a ha => hn a (List.mem_append_left _ ha))]; simp
  | wait _ ih => rw [List.filterMap_append, ← ih (fun a ha => hn a (List.mem_append_left _ ha))]; simp
  | fetch h ih =>
    have hp := queue_excl h
    rw [List.filterMap_append, ← ih (fun a ha => hn a (List.mem_append_left _ ha))]
    rcases hp with hp | rfl
    · cases hp
    · simp
  | leave _ ih => have := hn _ (List.mem_append_right _ List.mem_cons_self); cases this

/-- **C36.** As long as no subscription leaves, the subscriptions served and then the subscriptions waiting are those that asked, in order. -/
theorem C36_fair (cfg : Config) (es : List Sys.Ev) (s : Sys) (h : Sys.init.run cfg es = some s) (hc : s.crashed = false) (d : Bytes) (hd : Spec.IsQueue d)
    (hn : ∀ a ∈ Spec.observe (Spec.asked d) cfg Sys.init es, Spec.isLeave a = false) :
    (Spec.observe (Spec.handed d) cfg Sys.init es ++ Spec.due d s).map (·.1) ++ s.queues.list d =
      Spec.subscribers (Spec.observe (Spec.asked d) cfg Sys.init es) :=
  queue_subscribers (C36_queue cfg es s h hc d hd) hn

theorem queue_first {i : List Spec.QAsk} {o : List (SubRef × Tag)} {p : List Tag} {w : List SubRef} (h : Spec.Queue i o p w) (t : Tag) :
    ∀ i1 i2, i = i1 ++ .put true t :: i2 → (∀ a ∈ i2, Spec.isRequeue a = false) →
    ∃ o1 p1 w1 o2, Spec.Queue i1 o1 p1 w1 ∧ o = o1 ++ o2 ∧ ((o2 = [] ∧ p.head? = some t ∧ w = []) ∨ ∃ r l, o2 = (r, t) :: l) := by
  have snoc : ∀ {i i1 i2 : List Spec.QAsk} {a : Spec.QAsk}, i ++ [a] = i1 ++ .put true t :: i2 → (i2 = [] ∧ a = .put true t ∧ i = i1) ∨
      ∃ j, i2 = j ++ [a] ∧ i = i1 ++ .put true t :: j := by
    intro i i1 i2 a he
    rcases List.eq_nil_or_concat i2 with rfl | ⟨j, b, rfl⟩
    · have := List.append_inj' he rfl
      left; refine ⟨rfl, ?_, this.1⟩
      have := this.2; injection this
    · right
      have he : i ++ [a] = (i1 ++ .put true t :: j) ++ [b] := by rw [he]; simp
      have := List.append_inj' he rfl
      have hb : a = b := by have := this.2; injection this
      subst hb
      exact ⟨j, by simp, this.1⟩
  have tail : ∀ {j : List Spec.QAsk} {a : Spec.QAsk}, (∀ x ∈ j ++ [a], Spec.isRequeue x = false) → ∀ x ∈ j, Spec.isRequeue x = false :=
    fun h x hx => h x (List.mem_append_left _ hx)
  induction h with
  | start => intro i1 i2 he; cases i1 <;> cases he
  | enqueue h ih =>
    intro i1 i2 he hn
    rcases snoc he with ⟨_, e, _⟩ | ⟨j, rfl, e⟩
    · cases e
    · obtain ⟨o1, p1, w1, o2, h1, h2, h3⟩ := ih i1 j e (tail hn)
      refine ⟨o1, p1, w1, o2, h1, h2, ?_⟩
      rcases h3 with ⟨h3, h4, h5⟩ | h3
      · exact Or.inl ⟨h3, (by rw [List.head?_append, h4]; rfl), rfl⟩
      · exact Or.inr h3
  | requeue h ih =>
    intro i1 i2 he hn
    rcases snoc he with ⟨_, e, rfl⟩ | ⟨j, rfl, e⟩
    · injection e with _ e
      subst e
      exact ⟨_, _, _, [], h, by simp, Or.inl ⟨rfl, rfl, rfl⟩⟩
    · have := hn _ (List.mem_append_right _ List.mem_cons_self); cases this
  | serve h ih =>
    intro i1 i2 he hn
    rcases snoc he with ⟨_, e, rfl⟩ | ⟨j, rfl, e⟩
    · injection e with _ e
      subst e
      exact ⟨_, _, _, _, h, rfl, Or.inr ⟨_, _, rfl⟩⟩
    · obtain ⟨o1, p1, w1, o2, h1, h2, h3⟩ := ih i1 j e (tail hn)
      refine ⟨o1, p1, w1, o2 ++ [_], h1, by rw [h2, List.append_assoc], ?_⟩
      rcases h3 with ⟨h3, h4, h5⟩ | ⟨r, l, h3⟩
      · cases h5
      · exact Or.inr ⟨r, l ++ [_], by rw [h3]; rfl⟩
  | wait h ih =>
    intro i1 i2 he hn
    rcases snoc he with ⟨_, e, _⟩ | ⟨j, rfl, e⟩
    · cases e
    · obtain ⟨o1, p1, w1, o2, h1, h2, h3⟩ := ih i1 j e (tail hn)
      refine ⟨o1, p1, w1, o2, h1, h2, ?_⟩
      rcases h3 with ⟨h3, h4, h5⟩ | h3
      · cases h4
      · exact Or.inr h3
  | fetch h ih =>
    intro i1 i2 he hn
    rcases snoc he with ⟨_, e, _⟩ | ⟨j, rfl, e⟩
    · cases e
    · obtain ⟨o1, p1, w1, o2, h1, h2, h3⟩ := ih i1 j e (tail hn)
      refine ⟨o1, p1, w1, o2 ++ [_], h1, by rw [h2, List.append_assoc], ?_⟩
      rcases h3 with ⟨h3, h4, h5⟩ | ⟨r, l, h3⟩
      · injection h4 with h4
        subst h4 h3
        exact Or.inr ⟨_, [], rfl⟩
      · exact Or.inr ⟨r, l ++ [_], by rw [h3]; rfl⟩
  | leave h ih =>
    intro i1 i2 he hn
    rcases snoc he with ⟨_, e, _⟩ | ⟨j, rfl, e⟩
    · cases e
    · obtain ⟨o1, p1, w1, o2, h1, h2, h3⟩ := ih i1 j e (tail hn)
      refine ⟨o1, p1, w1, o2, h1, h2, ?_⟩
      rcases h3 with ⟨h3, h4, h5⟩ | h3
      · exact Or.inl ⟨h3, h4, by rw [h5]; rfl⟩
      · exact Or.inr h3

theorem queue_det {i : List Spec.QAsk} {o : List (SubRef × Tag)} {p : List Tag} {w : List SubRef} (h : Spec.Queue i o p w) :
    ∀ {o' p' w'}, Spec.Queue i o' p' w' → o' = o ∧ p' = p ∧ w' = w := by
  have key : ∀ {j : List Spec.QAsk} {a : Spec.QAsk} {o' p' w'}, Spec.Queue (j ++ [a]) o' p' w' →
      ∃ o0 p0 w0, Spec.Queue j o0 p0 w0 ∧
        match a with
        | .put f t => (w0 = [] ∧ o' = o0 ∧ p' = (if f then t :: p0 else p0 ++ [t]) ∧ w' = []) ∨ ∃ r, w0 = r :: w' ∧ o' = o0 ++ [(r, t)] ∧ p' = p0
        | .subscribe r => (p0 = [] ∧ o' = o0 ∧ p' = [] ∧ w' = w0 ++ [r]) ∨ ∃ t, p0 = t :: p' ∧ o' = o0 ++ [(r, t)] ∧ w' = w0
        | .unsubscribe r => o' = o0 ∧ p' = p0 ∧ w' = w0.erase r := by
    intro j a o' p' w' h
    generalize hx : j ++ [a] = x at h
    have inj : ∀ {k : List Spec.QAsk} {b}, j ++ [a] = k ++ [b] → k = j ∧ a = b := by
      intro k b e
      have := List.append_inj' e rfl
      exact ⟨this.1.symm, by have := this.2; injection this⟩
    cases h with
    | start => simp at hx
    | enqueue h => obtain ⟨rfl, rfl⟩ := inj hx; exact ⟨_, _, _, h, Or.inl ⟨rfl, rfl, rfl, rfl⟩⟩
    | requeue h => obtain ⟨rfl, rfl⟩ := inj hx; exact ⟨_, _, _, h, Or.inl ⟨rfl, rfl, rfl, rfl⟩⟩
    | serve h => obtain ⟨rfl, rfl⟩ := inj hx; exact ⟨_, _, _, h, Or.inr ⟨_, rfl, rfl, rfl⟩⟩
    | wait h => obtain ⟨rfl, rfl⟩ := inj hx; exact ⟨_, _, _, h, Or.inl ⟨rfl, rfl, rfl, rfl⟩⟩
    | fetch h => obtain ⟨rfl, rfl⟩ := inj hx; exact ⟨_, _, _, h, Or.inr ⟨_, rfl, rfl, rfl⟩⟩
    | leave h => obtain ⟨rfl, rfl⟩ := inj hx; exact ⟨_, _, _, h, rfl, rfl, rfl⟩
  induction h with
  | start =>
    intro o' p' w' h
    generalize hx : ([] : List Spec.QAsk) = x at h
    cases h with
    | start => exact ⟨rfl, rfl, rfl⟩
    | _ => simp at hx
  | enqueue _ ih =>
    intro o' p' w' h
    obtain ⟨o0, p0, w0, h0, hh⟩ := key h
    obtain ⟨rfl, rfl, rfl⟩ := ih h0
    rcases hh with ⟨_, rfl, rfl, rfl⟩ | ⟨r, e, _⟩
    · exact ⟨rfl, rfl, rfl⟩
    · cases e
  | requeue _ ih =>
    intro o' p' w' h
    obtain ⟨o0, p0, w0, h0, hh⟩ := key h
    obtain ⟨rfl, rfl, rfl⟩ := ih h0
    rcases hh with ⟨_, rfl, rfl, rfl⟩ | ⟨r, e, _⟩
    · exact ⟨rfl, rfl, rfl⟩
    · cases e
  | serve _ ih =>
    intro o' p' w' h
    obtain ⟨o0, p0, w0, h0, hh⟩ := key h
    obtain ⟨rfl, rfl, rfl⟩ := ih h0
    rcases hh with ⟨e, _⟩ | ⟨r, e, rfl, rfl⟩
    · cases e
    · injection e with e1 e2; subst e1 e2; exact ⟨rfl, rfl, rfl⟩
  | wait _ ih =>
    intro o' p' w' h
    obtain ⟨o0, p0, w0, h0, hh⟩ := key h
    obtain ⟨rfl, rfl, rfl⟩ := ih h0
    rcases hh with ⟨_, rfl, rfl, rfl⟩ | ⟨r, e, _⟩
    · exact ⟨rfl, rfl, rfl⟩
    · cases e
  | fetch _ ih =>
    intro o' p' w' h
    obtain ⟨o0, p0, w0, h0, hh⟩ := key h
    obtain ⟨rfl, rfl, rfl⟩ := ih h0
    rcases hh with ⟨e, _⟩ | ⟨r, e, rfl, rfl⟩
    · cases e
    · injection e with e1 e2; subst e1 e2; exact ⟨rfl, rfl, rfl⟩
  | leave _ ih =>
    intro o' p' w' h
    obtain ⟨o0, p0, w0, h0, hh⟩ := key h
    obtain ⟨rfl, rfl, rfl⟩ := ih h0
    obtain ⟨rfl, rfl, rfl⟩ := hh
    exact ⟨rfl, rfl, rfl⟩

theorem observe_append {α : Type} (T : Sys → Sys.Ev → List α) {cfg : Config} (es es' : List Sys.Ev) (s s1 : Sys) (h : s.run cfg es = some s1) :
    Spec.observe T cfg s (es ++ es') = Spec.observe T cfg s es ++ Spec.observe T cfg s1 es' := by
  induction es generalizing s with
  | nil => simp only [Sys.run, Option.some.injEq] at h; subst h; rfl
  | cons e0 es ih =>
    simp only [Sys.run] at h
    simp only [List.cons_append, Spec.observe]
    split at h
    · cases h
    · rename_i s2 hs
      rw [hs]
      dsimp only
      rw [ih s2 h, List.append_assoc]

/-- **C36.** A message that is put back is the next one its queue hands out, unless another one is put back after it. -/
theorem C36_requeued_first (cfg : Config) (es es' : List Sys.Ev) (e : Sys.Ev) (s s1 s2 : Sys) (h : Sys.init.run cfg es = some s)
    (h1 : s.step cfg e = some s1) (h2 : s1.run cfg es' = some s2) (hc : s2.crashed = false) (hcs : s.crashed = false) (d : Bytes) (hd : Spec.IsQueue d) (t : Tag)
    (he : Spec.asked d s e = [.put true t]) (hn : ∀ a ∈ Spec.observe (Spec.asked d) cfg s1 es', Spec.isRequeue a = false) :
    ∃ l, Spec.observe (Spec.handed d) cfg Sys.init (es ++ e :: es') ++ Spec.due d s2 = Spec.observe (Spec.handed d) cfg Sys.init es ++ Spec.due d s ++ l ∧
      ((l = [] ∧ (s2.store.list d).head?.map (·.tag) = some t) ∨ ∃ r l', l = (r, t) :: l') := by
  have hrun : Sys.init.run cfg (es ++ e :: es') = some s2 := by
    rw [sysRun_append _ _ _ _ h]; simp only [Sys.run, h1]; exact h2
  have hq := C36_queue cfg _ s2 hrun hc d hd
  have hq1 := C36_queue cfg _ s h hcs d hd
  have hobs : Spec.observe (Spec.asked d) cfg Sys.init (es ++ e :: es') =
      Spec.observe (Spec.asked d) cfg Sys.init es ++ .put true t :: Spec.observe (Spec.asked d) cfg s1 es' := by
    rw [observe_append _ _ _ _ _ h]; simp only [Spec.observe, h1, he]; rfl
  rw [hobs] at hq
  obtain ⟨o1, p1, w1, o2, h3, h4, h5⟩ := queue_first hq t _ _ rfl hn
  obtain ⟨rfl, rfl, rfl⟩ := queue_det hq1 h3
  refine ⟨o2, h4, ?_⟩
  rcases h5 with ⟨h5, h6, _⟩ | h5
  · refine Or.inl ⟨h5, ?_⟩
    rw [List.head?_map] at h6; exact h6
  · exact Or.inr h5

/-- A client sends two messages to a queue and subscribes in client-individual mode; it gets the first message, and refuses it; the message is
put back and handed to it again. -/
def queueRun : List Sys.Ev :=
  [.accept, .conn 0 (.recv sampleConnect), .conn 0 (.frame true true), .flush 0, .proc,
   .conn 0 (.recv ⟨b!"SEND", [(b!"destination", b!"/queue/a")], [1]⟩), .conn 0 (.frame true true), .flush 0, .proc,
   .conn 0 (.recv ⟨b!"SEND", [(b!"destination", b!"/queue/a")], [2]⟩), .conn 0 (.frame true true), .flush 0, .proc,
   .conn 0 (.recv ⟨b!"SUBSCRIBE", [(b!"id", b!"1"), (b!"destination", b!"/queue/a"), (b!"ack", b!"client-individual")], []⟩), .conn 0 (.frame true true),
   .flush 0, .proc, .push, .conn 0 (.sub true),
   .conn 0 (.recv ⟨b!"NACK", [(b!"message-id", b!"0"), (b!"subscription", b!"1")], []⟩), .conn 0 (.frame true true), .flush 0, .proc, .flush 0, .proc, .push]

-- C36: a run with two messages, a subscription and a message put back.
example : ∃ s, Sys.init.run sampleCfg queueRun = some s ∧ s.crashed = false ∧ Spec.IsQueue b!"/queue/a" ∧
    Spec.observe (Spec.asked b!"/queue/a") sampleCfg Sys.init queueRun =
      [.put false ⟨0, 0⟩, .put false ⟨0, 1⟩, .subscribe ⟨0, 0⟩, .put true ⟨0, 0⟩, .subscribe ⟨0, 0⟩] ∧
    Spec.observe (Spec.handed b!"/queue/a") sampleCfg Sys.init queueRun = [(⟨0, 0⟩, ⟨0, 0⟩), (⟨0, 0⟩, ⟨0, 0⟩)] ∧
    (s.store.list b!"/queue/a").map (·.tag) = [⟨0, 1⟩] :=
  ⟨_, rfl, by decide +kernel, by unfold Spec.IsQueue; decide +kernel, by decide +kernel, by decide +kernel, by decide +kernel⟩

-- C36_order: nothing is put back in the first part of the run, one message has been handed out and one is stored.
example : ∃ s, Sys.init.run sampleCfg (queueRun.take 18) = some s ∧ s.crashed = false ∧
    (∀ a ∈ Spec.observe (Spec.asked b!"/queue/a") sampleCfg Sys.init (queueRun.take 18), Spec.isRequeue a = false) ∧
    (Spec.observe (Spec.handed b!"/queue/a") sampleCfg Sys.init (queueRun.take 18)).length = 1 ∧ (s.store.list b!"/queue/a").length = 1 :=
  ⟨_, rfl, by decide +kernel, by decide +kernel, by decide +kernel, by decide +kernel⟩

-- C36_requeued_first: the message is put back by event 22, and handed out by event 25.
example : ∃ s s1 s2, Sys.init.run sampleCfg (queueRun.take 22) = some s ∧ s.step sampleCfg .proc = some s1 ∧ s1.run sampleCfg (queueRun.drop 23) = some s2 ∧
    s2.crashed = false ∧ Spec.asked b!"/queue/a" s .proc = [.put true ⟨0, 0⟩] ∧
    Spec.observe (Spec.asked b!"/queue/a") sampleCfg s1 (queueRun.drop 23) = [.subscribe ⟨0, 0⟩] :=
  ⟨_, _, _, rfl, rfl, rfl, by decide +kernel, by decide +kernel, by decide +kernel⟩

/-! ## C43 -/

/-- **C43.** In every execution, everything is where its destination says: messages are stored, and subscriptions wait, only at destinations that
start with `/queue`, and the messages there are for that destination; subscriptions are in the subscriber lists of topics, and messages are
broadcast, only at destinations that do not; and no message put back goes to a topic. -/
theorem C43_kinds (cfg : Config) (es : List Sys.Ev) (s : Sys) (h : Sys.init.run cfg es = some s) (hc : s.crashed = false) : Spec.Kinds s := by
  obtain ⟨hi, ha⟩ := sys_induction Addr.init (fun _ _ _ hi hp hs => addr_step hi hp hs) es s h hc
  have nq : ∀ {d : Bytes}, isQueueDestination d = false → ¬ Spec.IsQueue d := by
    intro d h1 h2
    rw [(isQueue_iff d).2 h2] at h1; cases h1
  have held : ∀ r x m, Spec.theSub s r = some x → x.frame = some m → Spec.IsQueue x.dest ∧ Spec.target m = some x.dest := by
    intro r x m hx hm
    obtain ⟨k, hk, hl, hd⟩ := look_some hx
    have := (ha.core _ k hk).heap r.idx m (by show (deref k.heap r.idx).frame = _; rw [hd]; exact hm)
    have hfx : (deref k.core.heap r.idx).fixed = x.fixed := by show (deref k.heap r.idx).fixed = _; rw [hd]
    rw [hfx] at this
    exact ⟨(isQueue_iff _).1 this.2.2, this.2.1⟩
  refine ⟨?_, ?_, ?_, held, ?_, ?_, ?_, ha.dropped⟩
  · intro d m hm; exact ⟨(isQueue_iff d).1 (ha.store d m hm).1, (ha.store d m hm).2⟩
  · intro d r hr; exact ⟨(isQueue_iff d).1 (ha.q d r hr).1, (ha.q d r hr).2⟩
  · intro r hr
    obtain ⟨x, hx, hf⟩ := hi.full r (mem_todoSubs hr)
    obtain ⟨m, hm⟩ := Option.isSome_iff_exists.1 hf
    exact ⟨x, m, hx, hm, held r x m hx hm⟩
  · intro d r hr; exact ⟨nq (ha.t d r hr).1, (ha.t d r hr).2⟩
  · intro d r m hm
    have := ha.t d r (hi.due d r m hm)
    exact ⟨nq this.1, ha.todo d r m hm, this.2⟩
  · intro c k hk m hm
    obtain ⟨i, _, h1, h2, h3⟩ := ha.wr c k hk m hm
    exact ⟨_, h2, nq h3⟩

/-- Whether a request is for this destination. -/
def Spec.concerns (s : Sys) (d : Bytes) : Req → Prop
  | .subscribe r => (Spec.theSub s r).map (·.dest) = some d
  | .unsubscribe r => (Spec.theSub s r).map (·.dest) = some d
  | .enqueue m => Spec.target m = some d
  | .requeue (some m) => Spec.target m = some d
  | _ => False

theorem list_ne {β : Type} {q : AMap (List β)} {d e : Bytes} {l : List β} (h : d ≠ e) : (q.set d l).list e = q.list e := by
  rw [AMap.list_set, if_neg h]

/-- **C43.** Handling a request for a destination changes nothing about any other destination; a request for a destination that starts with
`/queue` leaves the topics alone, any other request leaves the queues alone. -/
theorem C43_separate (cfg : Config) (es : List Sys.Ev) (s s' : Sys) (r : Req) (rs : List Req) (h : Sys.init.run cfg es = some s) (hc : s.crashed = false)
    (hr : s.reqCh = r :: rs) (hs : s.step cfg .proc = some s') (hc' : s'.crashed = false) (d : Bytes) (hd : Spec.concerns s d r) :
    (Spec.IsQueue d → s'.topics = s.topics ∧ ∀ e, e ≠ d → s'.store.list e = s.store.list e ∧ s'.queues.list e = s.queues.list e) ∧
    (¬ Spec.IsQueue d → s'.store = s.store ∧ s'.queues = s.queues ∧ ∀ e, e ≠ d → s'.topics.list e = s.topics.list e) := by
  have hi := (sys_induction Addr.init (fun _ _ _ hi hp hs => addr_step hi hp hs) es s h hc).1
  have hst : SysStep cfg s .proc s' := by
    rcases (sys_step hi.refs hs).2 with h | h
    · rw [hc'] at h; cases h
    · exact h
  have yes : ∀ {x : Bytes}, isQueueDestination x = true → Spec.IsQueue x := fun h => (isQueue_iff _).1 h
  have no : ∀ {x : Bytes}, isQueueDestination x = false → ¬ Spec.IsQueue x := by
    intro d h1 h2
    rw [(isQueue_iff d).2 h2] at h1; cases h1
  have sub : ∀ {x : SubRef} {k : Conn} {dest : Bytes}, (Spec.theSub s x).map (·.dest) = some d → s.conns[x.conn]? = some k → x.idx < k.heap.length →
      (deref k.heap x.idx).dest = dest → dest = d := by
    intro x k dest h1 hk hl hd
    rw [look_at hk hl, hd] at h1
    injection h1
  have tgt : ∀ {m : Msg} {dest : Bytes}, Spec.target m = some d → m.frame.header.contains Hdr.destination = some dest → dest = d := by
    intro m dest h1 h2
    rw [contains_eq] at h2
    have : some dest = some d := h2.symm.trans h1
    injection this
  have put : ∀ {f : Bool} {m : Msg}, Spec.concerns s d (putReq f m) → Spec.target m = some d := by
    intro f m h
    cases f <;> exact h
  cases hst with
  | skip r' rs' ht hr' hn =>
    rw [hr] at hr'; injection hr' with e1 e2; subst e1 e2
    exact ⟨fun _ => ⟨rfl, fun _ _ => ⟨rfl, rfl⟩⟩, fun _ => ⟨rfl, rfl, fun _ _ => rfl⟩⟩
  | joinTopic x rs' k dest ht hr' hk hidx hdest hq =>
    rw [hr] at hr'; injection hr' with e1 e2; subst e1 e2
    obtain rfl := sub hd hk hidx hdest
    exact ⟨fun h => absurd h (no hq), fun _ => ⟨rfl, rfl, fun e he => list_ne (Ne.symm he)⟩⟩
  | wait x rs' k dest ht hr' hk hidx hdest hq he hl =>
    rw [hr] at hr'; injection hr' with e1 e2; subst e1 e2
    obtain rfl := sub hd hk hidx hdest
    exact ⟨fun _ => ⟨rfl, fun e he => ⟨rfl, list_ne (Ne.symm he)⟩⟩, fun h => absurd (yes hq) h⟩
  | take x rs' k dest m l ht hr' hk hidx hdest hq hm hfr =>
    rw [hr] at hr'; injection hr' with e1 e2; subst e1 e2
    obtain rfl := sub hd hk hidx hdest
    exact ⟨fun _ => ⟨rfl, fun e he => ⟨list_ne (Ne.symm he), rfl⟩⟩, fun h => absurd (yes hq) h⟩
  | leaveQueue x rs' k dest ht hr' hk hidx hdest hq hm =>
    rw [hr] at hr'; injection hr' with e1 e2; subst e1 e2
    obtain rfl := sub hd hk hidx hdest
    exact ⟨fun _ => ⟨rfl, fun e he => ⟨rfl, list_ne (Ne.symm he)⟩⟩, fun h => absurd (yes hq) h⟩
  | absent x rs' k dest ht hr' => exact ⟨fun _ => ⟨rfl, fun _ _ => ⟨rfl, rfl⟩⟩, fun _ => ⟨rfl, rfl, fun _ _ => rfl⟩⟩
  | leaveTopic x rs' k dest ht hr' hk hidx hdest hq =>
    rw [hr] at hr'; injection hr' with e1 e2; subst e1 e2
    obtain rfl := sub hd hk hidx hdest
    exact ⟨fun h => absurd h (no hq), fun _ => ⟨rfl, rfl, fun e he => list_ne (Ne.symm he)⟩⟩
  | store front m rs' dest ht hr' hdest hq he =>
    rw [hr] at hr'; injection hr' with e1 e2; subst e1 e2
    obtain rfl := tgt (put hd) hdest
    exact ⟨fun _ => ⟨rfl, fun e he => ⟨list_ne (Ne.symm he), rfl⟩⟩, fun h => absurd (yes hq) h⟩
  | give front m rs' dest x q k ht hr' hdest hq he hk hidx hfr =>
    rw [hr] at hr'; injection hr' with e1 e2; subst e1 e2
    obtain rfl := tgt (put hd) hdest
    exact ⟨fun _ => ⟨rfl, fun e he => ⟨rfl, list_ne (Ne.symm he)⟩⟩, fun h => absurd (yes hq) h⟩
  | cast m rs' dest ht hr' hdest hq => exact ⟨fun _ => ⟨rfl, fun _ _ => ⟨rfl, rfl⟩⟩, fun _ => ⟨rfl, rfl, fun _ _ => rfl⟩⟩
  | drop m rs' dest ht hr' hdest hq => exact ⟨fun _ => ⟨rfl, fun _ _ => ⟨rfl, rfl⟩⟩, fun _ => ⟨rfl, rfl, fun _ _ => rfl⟩⟩

-- C43: in the run above there is a message in storage and a message held; and `/queuex` is a queue, `/topic/a` is not.
example : ∃ s, Sys.init.run sampleCfg (queueRun.take 19) = some s ∧ s.crashed = false ∧ (s.store.list b!"/queue/a").length = 1 ∧
    ((Spec.theSub s ⟨0, 0⟩).bind (·.frame)).isSome = true ∧ Spec.IsQueue b!"/queuex" ∧ ¬ Spec.IsQueue b!"/topic/a" :=
  ⟨_, rfl, by decide +kernel, by decide +kernel, by decide +kernel, by unfold Spec.IsQueue; decide +kernel, by unfold Spec.IsQueue; decide +kernel⟩

-- C43_separate: the request of event 22.
example : ∃ s s', Sys.init.run sampleCfg (queueRun.take 22) = some s ∧ s.crashed = false ∧ s.step sampleCfg .proc = some s' ∧ s'.crashed = false ∧
    (∃ m rs, s.reqCh = .requeue (some m) :: rs ∧ Spec.target m = some b!"/queue/a") :=
  ⟨_, _, rfl, by decide +kernel, rfl, by decide +kernel, _, _, rfl, by decide +kernel⟩

end Stomp.Server
