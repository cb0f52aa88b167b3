import Verif.Spec.AnyStorage
import Verif.Props.Server.Basics
import Verif.Props.Server.Acks
/-! # C77: queue storages -/
namespace Stomp.Server
open Stomp
variable {σ : Type}

/-- The server with another content of its memory. -/
def Sys.stored (s : Sys) (st : Store) : Sys := { s with store := st }

theorem stored_sendQueueFrame (s : Sys) (st : Store) (d : Bytes) (r : SubRef) (m : Msg) :
    (s.stored st).sendQueueFrame d r m = (s.sendQueueFrame d r m).stored st := by
  unfold Sys.sendQueueFrame
  by_cases h : (s.sub r).frame.isSome
  · rw [if_pos h, if_pos (show ((s.stored st).sub r).frame.isSome from h)]; rfl
  · rw [if_neg h, if_neg (show ¬((s.stored st).sub r).frame.isSome from h)]; rfl

theorem stored_step (cfg : Config) (s : Sys) (st : Store) (e : Sys.Ev) (he : e ≠ .proc) :
    (s.stored st).step cfg e = (s.step cfg e).map (·.stored st) := by
  unfold Sys.step
  have h0 : (s.stored st).crashed = s.crashed := rfl
  rw [h0]
  split
  · rfl
  · cases e with
    | accept => rfl
    | proc => exact absurd rfl he
    | conn c e =>
      dsimp only
      split
      · have h1 : (s.stored st).conns = s.conns := rfl
        rw [h1]
        cases s.conns[c]? with
        | none => rfl
        | some k =>
          dsimp only
          cases k.step cfg e <;> rfl
      · rfl
    | flush c =>
      dsimp only
      have h1 : (s.stored st).conns = s.conns := rfl
      have h2 : (s.stored st).reqCh = s.reqCh := rfl
      rw [h1, h2]
      cases s.conns[c]? with
      | none => rfl
      | some k =>
        dsimp only
        cases k.outbox with
        | nil => rfl
        | cons o os =>
          cases o with
          | panic => rfl
          | req r =>
            dsimp only
            split
            · cases k.step cfg .flushed <;> rfl
            · rfl
    | push =>
      dsimp only
      have h1 : (s.stored st).conns = s.conns := rfl
      have h2 : (s.stored st).todo = s.todo := rfl
      rw [h1, h2]
      cases s.todo with
      | nil => rfl
      | cons d t =>
        cases d with
        | queue r =>
          dsimp only
          cases s.conns[r.conn]? with
          | none => rfl
          | some k =>
            dsimp only
            cases k.step cfg (.pushSub r.idx) <;> rfl
        | topic d r m =>
          dsimp only
          cases s.conns[r.conn]? with
          | none => rfl
          | some k =>
            dsimp only
            split
            · rfl
            · cases k.step cfg (.pushTopic { m with frame := { m.frame with header := m.frame.header.set Hdr.subscription (deref k.heap r.idx).id } }) <;> rfl

theorem same_iff {content : σ → Bytes → List Msg} {x : SysOver σ} {s : Sys} :
    Spec.SameBut content x s ↔ ∃ st, s = x.sys.stored st ∧ ∀ n, AMap.list st n = content x.st n := by
  constructor
  · rintro ⟨h1, h2⟩
    refine ⟨s.store, ?_, h2⟩
    have : ({ ({ s with store := [] } : Sys) with store := s.store } : Sys) = { ({ x.sys with store := [] } : Sys) with store := s.store } := by rw [h1]
    exact this
  · rintro ⟨st, rfl, h2⟩
    exact ⟨rfl, h2⟩

theorem same_subscribe {q : QueueStorage σ} {content : σ → Bytes → List Msg} (hq : Spec.Keeps q content) {x : SysOver σ} {st : Store}
    (h : ∀ n, AMap.list st n = content x.st n) (d : Bytes) (r : SubRef) (he : (x.queueSubscribe q d r).errors = x.errors) :
    Spec.SameBut content (x.queueSubscribe q d r) ((x.sys.stored st).queueSubscribe d r) := by
  rw [same_iff]
  have hd1 := hq.dequeue x.st d
  have hf : (st.dequeue d).1 = (content x.st d).head? := by rw [dequeue_fst, h]
  have hl0 := fun n => list_dequeue st d n
  unfold SysOver.queueSubscribe at he
  unfold SysOver.queueSubscribe Sys.queueSubscribe
  have e1 : (x.sys.stored st).store = st := rfl
  rw [e1]
  rcases hd : st.dequeue d with ⟨a, b⟩
  rcases hd' : q.dequeue x.st d with ⟨a', b'⟩
  rw [hd] at hf hl0
  rw [hd'] at hd1 he
  simp only at hf hl0 hd1
  cases a' with
  | none => dsimp only at he; omega
  | some a' =>
    obtain ⟨h1, h2, h3⟩ := hd1 a' rfl
    have hl : ∀ n, AMap.list b n = content b' n := by
      intro n
      rw [hl0]
      split
      · rename_i e; subst e; rw [h2, h]
      · rename_i e; rw [h3 n e, h]
    rw [← hf] at h1
    subst h1
    cases a' with
    | none =>
      dsimp only
      by_cases hi : (x.sys.sub r).inList = true
      · rw [if_pos hi, if_pos (show ((x.sys.stored st).sub r).inList = true from hi)]
        exact ⟨b, rfl, hl⟩
      · rw [if_neg hi, if_neg (show ¬((x.sys.stored st).sub r).inList = true from hi)]
        exact ⟨b, rfl, hl⟩
    | some m => exact ⟨b, stored_sendQueueFrame x.sys b d r m, hl⟩

theorem same_put {q : QueueStorage σ} {content : σ → Bytes → List Msg} (hq : Spec.Keeps q content) {x : SysOver σ} {st : Store}
    (h : ∀ n, AMap.list st n = content x.st n) (front : Bool) (d : Bytes) (m : Msg) (he : (x.queuePut q front d m).errors = x.errors) :
    Spec.SameBut content (x.queuePut q front d m) ((x.sys.stored st).queuePut front d m) := by
  rw [same_iff]
  unfold SysOver.queuePut at he
  unfold SysOver.queuePut Sys.queuePut
  have e1 : (x.sys.stored st).queues = x.sys.queues := rfl
  rw [e1]
  cases hl : x.sys.queues.list d with
  | nil =>
    rw [hl] at he
    cases front with
    | false =>
      have hok : (q.enqueue x.st d m).1 = true := by
        cases ho : (q.enqueue x.st d m).1 with
        | true => rfl
        | false => simp [ho] at he
      obtain ⟨h2, h3⟩ := hq.enqueue x.st d m hok
      refine ⟨st.enqueue d m, rfl, fun n => ?_⟩
      rw [list_enqueue]
      dsimp only
      split
      · rename_i e; subst e; rw [h]; exact h2.symm
      · rename_i e; rw [h]; exact (h3 n e).symm
    | true =>
      have hok : (q.requeue x.st d m).1 = true := by
        cases ho : (q.requeue x.st d m).1 with
        | true => rfl
        | false => simp [ho] at he
      obtain ⟨h2, h3⟩ := hq.requeue x.st d m hok
      refine ⟨st.requeue d m, rfl, fun n => ?_⟩
      rw [list_requeue]
      dsimp only
      split
      · rename_i e; subst e; rw [h]; exact h2.symm
      · rename_i e; rw [h]; exact (h3 n e).symm
  | cons r rs =>
    exact ⟨st, stored_sendQueueFrame ({ x.sys.setSub r (fun b => { b with inList := false }) with
        queues := x.sys.queues.set d rs, qlog := x.sys.qlog ++ [(d, .put front m.tag)] } : Sys) st d r m, h⟩

theorem same_handle {q : QueueStorage σ} {content : σ → Bytes → List Msg} (hq : Spec.Keeps q content) {x : SysOver σ} {st : Store}
    (h : ∀ n, AMap.list st n = content x.st n) (r : Req) (he : (x.handle q r).errors = x.errors) :
    Spec.SameBut content (x.handle q r) ((x.sys.stored st).handle r) := by
  cases r with
  | subscribe r =>
    unfold SysOver.handle at he
    unfold SysOver.handle Sys.handle
    have e1 : (x.sys.stored st).sub r = x.sys.sub r := rfl
    dsimp only at he ⊢
    rw [e1]
    split
    · rename_i hd; rw [if_pos hd] at he; exact same_subscribe hq h _ r he
    · exact same_iff.2 ⟨st, rfl, h⟩
  | unsubscribe r =>
    unfold SysOver.handle Sys.handle
    have e1 : (x.sys.stored st).sub r = x.sys.sub r := rfl
    dsimp only
    rw [e1]
    split
    · unfold Sys.queueUnsubscribe
      have e2 : (x.sys.stored st).queues = x.sys.queues := rfl
      rw [e2]
      split
      · exact same_iff.2 ⟨st, rfl, h⟩
      · exact same_iff.2 ⟨st, rfl, h⟩
    · exact same_iff.2 ⟨st, rfl, h⟩
  | enqueue m =>
    unfold SysOver.handle at he
    unfold SysOver.handle Sys.handle
    dsimp only at he ⊢
    cases hc : m.frame.header.contains Hdr.destination with
    | none => exact same_iff.2 ⟨st, rfl, h⟩
    | some d =>
      rw [hc] at he
      dsimp only at he ⊢
      split
      · rename_i hd; rw [if_pos hd] at he; exact same_put hq h false d m he
      · exact same_iff.2 ⟨st, rfl, h⟩
  | requeue m =>
    cases m with
    | none => exact same_iff.2 ⟨st, rfl, h⟩
    | some m =>
      unfold SysOver.handle at he
      unfold SysOver.handle Sys.handle
      dsimp only at he ⊢
      cases hc : m.frame.header.contains Hdr.destination with
      | none => exact same_iff.2 ⟨st, rfl, h⟩
      | some d =>
        rw [hc] at he
        dsimp only at he ⊢
        split
        · rename_i hd; rw [if_pos hd] at he; exact same_put hq h true d m he
        · exact same_iff.2 ⟨st, rfl, h⟩
  | connected c => exact same_iff.2 ⟨st, rfl, h⟩
  | disconnected c => exact same_iff.2 ⟨st, rfl, h⟩

theorem step_eq (q : QueueStorage σ) (cfg : Config) (x : SysOver σ) (e : Sys.Ev) (he : e ≠ .proc) :
    x.step q cfg e = (x.sys.step cfg e).map (fun s => { x with sys := s }) := by
  cases e <;> first | rfl | exact absurd rfl he

/-- Errors are counted: the number of them does not go down, and stays the same if no operation fails. -/
theorem errors_handle (q : QueueStorage σ) (x : SysOver σ) (r : Req) :
    x.errors ≤ (x.handle q r).errors ∧ (Spec.NeverFails q → (x.handle q r).errors = x.errors) := by
  have hs : ∀ d r, x.errors ≤ (x.queueSubscribe q d r).errors ∧ (Spec.NeverFails q → (x.queueSubscribe q d r).errors = x.errors) := by
    intro d r
    unfold SysOver.queueSubscribe
    split
    · rename_i st hd
      exact ⟨Nat.le_succ _, fun hn => absurd (show (q.dequeue x.st d).1 = none by rw [hd]) (hn x.st d).2⟩
    · split <;> exact ⟨Nat.le_refl _, fun _ => rfl⟩
    · exact ⟨Nat.le_refl _, fun _ => rfl⟩
  have hp : ∀ f d m, x.errors ≤ (x.queuePut q f d m).errors ∧ (Spec.NeverFails q → (x.queuePut q f d m).errors = x.errors) := by
    intro f d m
    unfold SysOver.queuePut
    split
    · dsimp only
      cases f with
      | false =>
        refine ⟨by simp; split <;> omega, fun hn => ?_⟩
        exact if_pos ((hn x.st d).1 m).1
      | true =>
        refine ⟨by simp; split <;> omega, fun hn => ?_⟩
        exact if_pos ((hn x.st d).1 m).2
    · exact ⟨Nat.le_refl _, fun _ => rfl⟩
  have h0 : ∀ y : SysOver σ, y.errors = x.errors → x.errors ≤ y.errors ∧ (Spec.NeverFails q → y.errors = x.errors) :=
    fun y hy => ⟨Nat.le_of_eq hy.symm, fun _ => hy⟩
  cases r with
  | subscribe r =>
    unfold SysOver.handle
    dsimp only
    split
    · exact hs _ _
    · exact h0 _ rfl
  | unsubscribe r => exact h0 _ rfl
  | enqueue m =>
    unfold SysOver.handle
    dsimp only
    split
    · exact h0 _ rfl
    · split
      · exact hp _ _ _
      · exact h0 _ rfl
  | requeue m =>
    cases m with
    | none => exact h0 _ rfl
    | some m =>
      unfold SysOver.handle
      dsimp only
      split
      · exact h0 _ rfl
      · split
        · exact hp _ _ _
        · exact h0 _ rfl
  | connected c => exact h0 _ rfl
  | disconnected c => exact h0 _ rfl

theorem errors_step (q : QueueStorage σ) (cfg : Config) {x x' : SysOver σ} {e : Sys.Ev} (h : x.step q cfg e = some x') :
    x.errors ≤ x'.errors ∧ (Spec.NeverFails q → x'.errors = x.errors) := by
  by_cases he : e = .proc
  · subst he
    unfold SysOver.step at h
    dsimp only at h
    split at h
    · cases h
    · split at h
      · rename_i r rs _ _
        injection h with h
        subst h
        exact errors_handle q { x with sys := { x.sys with reqCh := rs } } r
      · cases h
  · rw [step_eq q cfg x e he] at h
    cases hs : x.sys.step cfg e with
    | none => rw [hs] at h; cases h
    | some s => rw [hs] at h; injection h with h; subst h; exact ⟨Nat.le_refl _, fun _ => rfl⟩

theorem errors_run (q : QueueStorage σ) (cfg : Config) (es : List Sys.Ev) {x x' : SysOver σ} (h : x.run q cfg es = some x') :
    x.errors ≤ x'.errors ∧ (Spec.NeverFails q → x'.errors = x.errors) := by
  induction es generalizing x with
  | nil => simp only [SysOver.run, Option.some.injEq] at h; subst h; exact ⟨Nat.le_refl _, fun _ => rfl⟩
  | cons e es ih =>
    unfold SysOver.run at h
    split at h
    · cases h
    · rename_i x1 h1
      obtain ⟨a, b⟩ := errors_step q cfg h1
      obtain ⟨c, d⟩ := ih h
      exact ⟨Nat.le_trans a c, fun hn => (d hn).trans (b hn)⟩

/-- One step of each: both can make it or neither, and if there was no error they are in the same state again. -/
theorem same_step {q : QueueStorage σ} {content : σ → Bytes → List Msg} (hq : Spec.Keeps q content) (cfg : Config) {x : SysOver σ} {s : Sys}
    (hx : Spec.SameBut content x s) (e : Sys.Ev) :
    (x.step q cfg e = none ∧ s.step cfg e = none) ∨
    ∃ x' s', x.step q cfg e = some x' ∧ s.step cfg e = some s' ∧ (x'.errors = x.errors → Spec.SameBut content x' s') := by
  obtain ⟨st, rfl, h⟩ := same_iff.1 hx
  clear hx
  by_cases he : e = .proc
  · subst he
    unfold SysOver.step Sys.step
    have e0 : (x.sys.stored st).crashed = x.sys.crashed := rfl
    have e1 : (x.sys.stored st).todo = x.sys.todo := rfl
    have e2 : (x.sys.stored st).reqCh = x.sys.reqCh := rfl
    dsimp only
    rw [e0, e1, e2]
    by_cases hc : x.sys.crashed = true
    · rw [if_pos hc, if_pos hc]; exact .inl ⟨rfl, rfl⟩
    · rw [if_neg hc, if_neg hc]
      cases x.sys.todo with
      | cons d t => exact .inl ⟨rfl, rfl⟩
      | nil =>
        cases x.sys.reqCh with
        | nil => exact .inl ⟨rfl, rfl⟩
        | cons r rs =>
          exact .inr ⟨_, _, rfl, rfl, fun hn => same_handle (x := { x with sys := { x.sys with reqCh := rs, todo := [] } }) hq h r hn⟩
  · rw [stored_step cfg x.sys st e he, step_eq q cfg x e he]
    cases x.sys.step cfg e with
    | none => exact .inl ⟨rfl, rfl⟩
    | some s' => exact .inr ⟨_, _, rfl, rfl, fun _ => same_iff.2 ⟨st, rfl, h⟩⟩

theorem same_run {q : QueueStorage σ} {content : σ → Bytes → List Msg} (hq : Spec.Keeps q content) (cfg : Config) (es : List Sys.Ev) {x : SysOver σ} {s : Sys}
    (h : Spec.SameBut content x s) :
    (∀ x', x.run q cfg es = some x' → x'.errors = x.errors → ∃ s', s.run cfg es = some s' ∧ Spec.SameBut content x' s') ∧
    (Spec.NeverFails q → ∀ s', s.run cfg es = some s' → ∃ x', x.run q cfg es = some x' ∧ Spec.SameBut content x' s') := by
  induction es generalizing x s with
  | nil =>
    refine ⟨fun x' hx _ => ?_, fun _ s' hs => ?_⟩
    · simp only [SysOver.run, Option.some.injEq] at hx; subst hx; exact ⟨s, rfl, h⟩
    · simp only [Sys.run, Option.some.injEq] at hs; subst hs; exact ⟨x, rfl, h⟩
  | cons e es ih =>
    unfold SysOver.run Sys.run
    rcases same_step hq cfg h e with ⟨h1, h2⟩ | ⟨x1, s1, h1, h2, h3⟩
    · rw [h1, h2]
      exact ⟨fun _ hx => (by cases hx), fun _ _ hs => (by cases hs)⟩
    · rw [h1, h2]
      obtain ⟨m1, m2⟩ := errors_step q cfg h1
      refine ⟨fun x' hx he => ?_, fun hn s' hs => ?_⟩
      · have := (errors_run q cfg es hx).1
        exact (ih (h3 (by omega))).1 x' hx (by omega)
      · exact (ih (h3 (m2 hn))).2 hn s' hs

/-- **C77** (part). Take any storage that keeps the messages of each queue in order. As long as it has returned no error, the server is in a state it can be in with the queues in memory, after the same events: connections,
subscriptions, requests, what is written. If the storage never fails, it has all those executions. So every property proved of the server holds with it. Missing: storages that fail, or that need `Start` (below). -/
theorem C77_same_partial (q : QueueStorage σ) (content : σ → Bytes → List Msg) (hq : Spec.Keeps q content) (cfg : Config) (es : List Sys.Ev) :
    (∀ x, (SysOver.init q).run q cfg es = some x → x.errors = 0 → ∃ s, Sys.init.run cfg es = some s ∧ Spec.SameBut content x s) ∧
    (Spec.NeverFails q → ∀ s, Sys.init.run cfg es = some s → ∃ x, (SysOver.init q).run q cfg es = some x ∧ x.errors = 0 ∧ Spec.SameBut content x s) := by
  have h0 : Spec.SameBut content (SysOver.init q) Sys.init := ⟨rfl, fun n => (hq.new n).symm⟩
  refine ⟨fun x hx he => (same_run hq cfg es h0).1 x hx he, fun hn s hs => ?_⟩
  obtain ⟨x, hx, h⟩ := (same_run hq cfg es h0).2 hn s hs
  exact ⟨x, hx, (errors_run q cfg es hx).2 hn, h⟩

/-- **C77.** `MemoryQueueStorage` is such a storage, and never fails. -/
theorem C77_memory : Spec.Keeps memoryStorage (fun st n => AMap.list st n) ∧ Spec.NeverFails memoryStorage := by
  refine ⟨⟨fun _ => rfl, fun st n m _ => ?_, fun st n m _ => ?_, fun st n r hr => ?_⟩, fun _ _ => ⟨fun _ => ⟨rfl, rfl⟩, nofun⟩⟩
  · exact ⟨(list_enqueue st n m n).trans (if_pos rfl), fun n' h => (list_enqueue st n m n').trans (if_neg h)⟩
  · exact ⟨(list_requeue st n m n).trans (if_pos rfl), fun n' h => (list_requeue st n m n').trans (if_neg h)⟩
  · injection hr with hr
    exact ⟨hr ▸ dequeue_fst st n, (list_dequeue st n n).trans (if_pos rfl), fun n' h => (list_dequeue st n n').trans (if_neg h)⟩

namespace StorageEx

/-- A storage that keeps all queues in one list, newest message last, with the name of its queue (as a table of a data base would). -/
def table : QueueStorage (List (Bytes × Msg)) where
  new := []
  enqueue st n m := (true, st ++ [(n, m)])
  requeue st n m := (true, (n, m) :: st)
  dequeue st n := (some ((st.find? (fun p => p.1 = n)).map (·.2)), st.eraseP (fun p => p.1 = n))
  start st := st
  stop st := st

/-- The messages of a queue in it. -/
def rows (st : List (Bytes × Msg)) (n : Bytes) : List Msg := (st.filter (fun p => p.1 = n)).map (·.2)

theorem keeps_table : Spec.Keeps table rows where
  new _ := rfl
  enqueue st n m _ := by
    refine ⟨by simp [table, rows], fun n' h => ?_⟩
    have : ¬n = n' := fun e => h e.symm
    simp [table, rows, this]
  requeue st n m _ := by
    refine ⟨by simp [table, rows], fun n' h => ?_⟩
    have : ¬n = n' := fun e => h e.symm
    simp [table, rows, this]
  dequeue st n r hr := by
    simp only [table, Option.some.injEq] at hr ⊢
    subst hr
    induction st with
    | nil => exact ⟨rfl, rfl, fun _ _ => rfl⟩
    | cons p st ih =>
      obtain ⟨i1, i2, i3⟩ := ih
      by_cases hp : p.1 = n
      · refine ⟨by simp [rows, hp], by simp [rows, hp], fun n' h => ?_⟩
        have : ¬n = n' := fun e => h e.symm
        simp [rows, hp, this]
      · refine ⟨?_, ?_, fun n' h => ?_⟩
        · simp [rows, hp]
        · simpa [rows, hp] using i2
        · have := i3 n' h
          by_cases hp' : p.1 = n'
          · simp [rows, hp', h] at this ⊢
            exact this
          · simpa [rows, hp, hp'] using this

theorem table_never : Spec.NeverFails table := fun _ _ => ⟨fun _ => ⟨rfl, rfl⟩, nofun⟩

/-- A message that asks for a receipt. -/
def sendWithReceipt : Frame := ⟨b!"SEND", [(b!"destination", b!"/queue/a"), (b!"receipt", b!"7")], [1]⟩

/-- The receipt. -/
def receipt7 : Frame := ⟨b!"RECEIPT", [(b!"receipt-id", b!"7")], []⟩

/-- The frames written to a connection, without CONNECTED. -/
def wrote (s : Sys) (c : Nat) : List Frame := ((s.conn c).out.filterMap (·.frame)).filter (fun f => f.command != b!"CONNECTED")

/-- Client 1 sends a message to a queue, then client 0 subscribes to the queue. -/
def sendThenSub : List Sys.Ev := connectRun 0 ++ connectRun 1 ++ frameRun 1 sendWithReceipt ++ frameRun 0 (queueSub b!"s" b!"auto")

/-- Client 0 subscribes, then client 1 sends. -/
def subThenSend : List Sys.Ev := connectRun 0 ++ connectRun 1 ++ frameRun 0 (queueSub b!"s" b!"auto") ++ frameRun 1 sendWithReceipt

/-- The message gets to client 0. -/
def carry : List Sys.Ev := [.push, .conn 0 (.sub true), .flush 0, .proc]

-- with the storage in a table, as with the one in memory
example : ((SysOver.init table).run table sampleCfg (sendThenSub ++ carry)).map (fun x => ((wrote x.sys 0).map (·.body), wrote x.sys 1, x.st)) =
    some ([[1]], [receipt7], []) := by decide +kernel

/-- A storage without room: `Enqueue` and `Requeue` fail. -/
def full : QueueStorage Store := { memoryStorage with enqueue := fun s _ _ => (false, s), requeue := fun s _ _ => (false, s) }

/-- A storage whose first `Dequeue` fails. -/
def hiccup : QueueStorage (Bool × Store) where
  new := (false, [])
  enqueue s n m := (true, (s.1, s.2.enqueue n m))
  requeue s n m := (true, (s.1, s.2.requeue n m))
  dequeue s n := if s.1 then (some (s.2.dequeue n).1, (true, (s.2.dequeue n).2)) else (none, (true, s.2))
  start s := s
  stop s := s

/-- A storage that has to be opened by `Start`, as the comment in `server/queue/storage.go:27-29` allows; all operations fail until then. -/
def opened : QueueStorage (Option Store) where
  new := none
  enqueue s n m := match s with | none => (false, none) | some s => (true, some (s.enqueue n m))
  requeue s n m := match s with | none => (false, none) | some s => (true, some (s.requeue n m))
  dequeue s n := match s with | none => (none, none) | some s => (some (s.dequeue n).1, some (s.dequeue n).2)
  start _ := some []
  stop _ := none

theorem full_some : ((SysOver.init full).run full sampleCfg sendThenSub).isSome = true := by decide +kernel

theorem hiccup_some : ((SysOver.init hiccup).run hiccup sampleCfg subThenSend).isSome = true := by decide +kernel

end StorageEx
open StorageEx

/-- **C77** fails (1): if the storage refuses a message, the sender has its receipt nevertheless, and the message is gone. (With the queues in memory the subscriber gets it: example above.) -/
theorem C77_refused_false : ∃ x, (SysOver.init full).run full sampleCfg sendThenSub = some x ∧ x.sys.crashed = false ∧
    wrote x.sys 1 = [receipt7] ∧ x.sys.reqCh = [] ∧ x.sys.todo = [] ∧ x.st = [] ∧
    x.sys.queues.list b!"/queue/a" = [⟨0, 0⟩] ∧ wrote x.sys 0 = [] := by
  refine ⟨((SysOver.init full).run full sampleCfg sendThenSub).get full_some, (Option.some_get _).symm, ?_⟩
  decide +kernel

/-- **C77** fails (2): if `Dequeue` fails when a client subscribes, the subscription is not entered, and nobody is told: the messages of the queue stay where they are, though the client has subscribed and the storage works. -/
theorem C77_subscribe_false : ∃ x, (SysOver.init hiccup).run hiccup sampleCfg subThenSend = some x ∧ x.sys.crashed = false ∧
    (x.sys.conn 0).subs = [(b!"s", 0)] ∧ wrote x.sys 0 = [] ∧ wrote x.sys 1 = [receipt7] ∧ x.sys.reqCh = [] ∧ x.sys.todo = [] ∧
    (AMap.list x.st.2 b!"/queue/a").map (·.frame.body) = [[1]] := by
  refine ⟨((SysOver.init hiccup).run hiccup sampleCfg subThenSend).get hiccup_some, (Option.some_get _).symm, ?_⟩
  decide +kernel

/-- **C77** fails (3): the server never calls `Start`. A storage that waits for it is never opened, whatever happens. -/
theorem C77_start_false (cfg : Config) (es : List Sys.Ev) (x : SysOver (Option Store)) (h : (SysOver.init opened).run opened cfg es = some x) : x.st = none := by
  have key : ∀ (es : List Sys.Ev) (y : SysOver (Option Store)), y.st = none → ∀ x, y.run opened cfg es = some x → x.st = none := by
    intro es
    induction es with
    | nil => intro y hy x h; simp only [SysOver.run, Option.some.injEq] at h; subst h; exact hy
    | cons e es ih =>
      intro y hy x h
      unfold SysOver.run at h
      split at h
      · cases h
      · rename_i z hz
        refine ih z ?_ x h
        by_cases he : e = .proc
        · subst he
          unfold SysOver.step at hz
          dsimp only at hz
          split at hz
          · cases hz
          · split at hz
            · rename_i r rs _ _
              injection hz with hz
              subst hz
              have hd : ∀ (w : SysOver (Option Store)) d r, w.st = none → (w.queueSubscribe opened d r).st = none := by
                intro w d r hw
                simp only [SysOver.queueSubscribe, opened, hw]
              have hp : ∀ (w : SysOver (Option Store)) f d m, w.st = none → (w.queuePut opened f d m).st = none := by
                intro w f d m hw
                unfold SysOver.queuePut
                split
                · cases f <;> simp [opened, hw]
                · exact hw
              cases r with
              | subscribe r =>
                unfold SysOver.handle
                dsimp only
                split
                · exact hd _ _ _ hy
                · exact hy
              | enqueue m =>
                unfold SysOver.handle
                dsimp only
                split
                · exact hy
                · split
                  · exact hp _ _ _ _ hy
                  · exact hy
              | requeue m =>
                cases m with
                | none => exact hy
                | some m =>
                  unfold SysOver.handle
                  dsimp only
                  split
                  · exact hy
                  · split
                    · exact hp _ _ _ _ hy
                    · exact hy
              | unsubscribe r => exact hy
              | connected c => exact hy
              | disconnected c => exact hy
            · cases hz
        · have hx : y.step opened cfg e = (y.sys.step cfg e).map (fun s => { y with sys := s }) := by
            cases e <;> first | rfl | exact absurd rfl he
          rw [hx] at hz
          cases hs : y.sys.step cfg e with
          | none => rw [hs] at hz; cases hz
          | some s => rw [hs] at hz; injection hz with hz; subst hz; exact hy
  exact key es _ rfl x h

-- so the message is lost, and its sender has a receipt
example : ((SysOver.init opened).run opened sampleCfg sendThenSub).map (fun x => (wrote x.sys 0, wrote x.sys 1)) = some ([], [receipt7]) := by decide +kernel
-- started, it would have worked
example : (({ st := opened.start opened.new } : SysOver (Option Store)).run opened sampleCfg (sendThenSub ++ carry)).map (fun x => (wrote x.sys 0).map (·.body)) = some [[1]] := by
  decide +kernel

end Stomp.Server
