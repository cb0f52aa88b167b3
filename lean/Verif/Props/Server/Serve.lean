import Verif.Spec.Serve
import Verif.Props.Server.AnyStorage
/-!
# Property C94: the server starts, accepts connections and stops as documented

True of starting and accepting. But the storage is neither started nor stopped, and `Serve` never returns, not even when the listener has failed for good.
-/
namespace Stomp.Server
open Stomp
variable {lis σ ε : Type}

/-- **C94**. `ListenAndServe` listens on the address given, or on the default one; if that fails it returns the error, otherwise it serves the listener. -/
theorem C94_address (q : QueueStorage σ) (addr : Bytes) (listen : Bytes → Except ε lis) :
    (∀ e, listen (Spec.address addr) = .error e → Service.listenAndServe q addr listen = .error e) ∧
    (∀ l, listen (Spec.address addr) = .ok l → Service.listenAndServe q addr listen = .ok (Service.serve q l)) := by
  have h : (if addr.length = 0 then defaultAddr else addr) = Spec.address addr := by
    cases addr with
    | nil => rfl
    | cons a l => rfl
  unfold Service.listenAndServe
  dsimp only
  rw [h]
  exact ⟨fun e he => by rw [he], fun l hl => by rw [hl]⟩

theorem over_run_append (q : QueueStorage σ) (cfg : Config) (a b : List Sys.Ev) (x : SysOver σ) :
    SysOver.run q cfg x (a ++ b) = (SysOver.run q cfg x a).bind fun y => SysOver.run q cfg y b := by
  induction a generalizing x with
  | nil => rfl
  | cons e a ih =>
    simp only [List.cons_append, SysOver.run]
    cases x.step q cfg e with
    | none => rfl
    | some y => exact ih y

theorem service_run_append (q : QueueStorage σ) (cfg : Config) (a b : List Service.Ev) (s : Service lis σ) :
    Service.run q cfg s (a ++ b) = (Service.run q cfg s a).bind fun t => Service.run q cfg t b := by
  induction a generalizing s with
  | nil => rfl
  | cons e a ih =>
    simp only [List.cons_append, Service.run]
    cases s.step q cfg e with
    | none => rfl
    | some y => exact ih y

/-- Induction over the steps of a run. -/
theorem service_induction {q : QueueStorage σ} {cfg : Config} {s0 : Service lis σ} {P : List Service.Ev → Service lis σ → Prop} (h0 : P [] s0)
    (hs : ∀ es s e s', Service.run q cfg s0 es = some s → P es s → s.step q cfg e = some s' → P (es ++ [e]) s') :
    ∀ es s, Service.run q cfg s0 es = some s → P es s := by
  have key : ∀ (b a : List Service.Ev) (s t : Service lis σ), Service.run q cfg s0 a = some s → P a s → Service.run q cfg s b = some t → P (a ++ b) t := by
    intro b
    induction b with
    | nil => intro a s t _ hp hr; cases hr; rw [List.append_nil]; exact hp
    | cons e b ih =>
      intro a s t ha hp hr
      simp only [Service.run] at hr
      cases hst : s.step q cfg e with
      | none => rw [hst] at hr; cases hr
      | some s' =>
        rw [hst] at hr
        have := ih (a ++ [e]) s' t (by rw [service_run_append, ha]; simp [Service.run, hst]) (hs a s e s' ha hp hst) hr
        rwa [List.append_assoc] at this
  intro es s h
  exact key es [] s0 s rfl h0 h

/-- The steps of a call of `Serve`. -/
inductive ServiceStep (q : QueueStorage σ) (cfg : Config) (s : Service lis σ) : Service.Ev → Service lis σ → Prop
  | conn (t : Int) (x : SysOver σ) (hl : s.loop = some t) (hx : s.over.step q cfg .accept = some x) :
      ServiceStep q cfg s (.accept .conn) { s with over := x, loop := some 0 }
  | temporary (t : Int) (hl : s.loop = some t) : ServiceStep q cfg s (.accept .temporary) { s with loop := some (listenStep t .temporary).1 }
  | permanent (t : Int) (hl : s.loop = some t) : ServiceStep q cfg s (.accept .permanent) { s with loop := none }
  | sys (e : Sys.Ev) (x : SysOver σ) (he : e ≠ .accept) (hx : s.over.step q cfg e = some x) : ServiceStep q cfg s (.sys e) { s with over := x }

theorem service_step {q : QueueStorage σ} {cfg : Config} {s s' : Service lis σ} {e : Service.Ev} (h : s.step q cfg e = some s') : ServiceStep q cfg s e s' := by
  cases e with
  | accept r =>
    simp only [Service.step] at h
    split at h
    · cases h
    · cases hl : s.loop with
      | none => rw [hl] at h; cases h
      | some t =>
        rw [hl] at h
        cases r with
        | conn =>
          simp only [listenStep, Option.map_eq_some_iff] at h
          obtain ⟨x, hx, rfl⟩ := h
          exact .conn t x hl hx
        | temporary =>
          simp only [listenStep, Option.some.injEq] at h
          subst h
          exact .temporary t hl
        | permanent =>
          simp only [listenStep, Option.some.injEq] at h
          subst h
          exact .permanent t hl
  | sys e =>
    by_cases he : e = .accept
    · subst he; cases h
    · have h' : (s.over.step q cfg e).map (fun x => { s with over := x }) = some s' := by
        cases e <;> first | exact h | exact absurd rfl he
      obtain ⟨x, hx, rfl⟩ := Option.map_eq_some_iff.1 h'
      exact .sys e x he hx

theorem outcomes_snoc (es : List Service.Ev) (e : Service.Ev) : Spec.outcomes (es ++ [e]) = Spec.outcomes es ++ Spec.outcomes [e] := by
  unfold Spec.outcomes; rw [List.filterMap_append]

theorem seen_snoc (es : List Service.Ev) (e : Service.Ev) : Spec.seen (es ++ [e]) = Spec.seen es ++ Spec.seen [e] := by
  unfold Spec.seen; rw [List.filterMap_append]

/-- **C94**. Every connection that is accepted is served: what happens in the server is one of the executions the other properties are about, with a connection for each of those accepted. -/
theorem C94_served (q : QueueStorage σ) (cfg : Config) (l : lis) (es : List Service.Ev) (s : Service lis σ) (h : Service.run q cfg (Service.serve q l) es = some s) :
    SysOver.run q cfg (SysOver.init q) (Spec.seen es) = some s.over ∧ s.listener = l := by
  refine service_induction (P := fun es s => SysOver.run q cfg (SysOver.init q) (Spec.seen es) = some s.over ∧ s.listener = l) ⟨rfl, rfl⟩ ?_ es s h
  intro es s e s' _ ⟨h1, h2⟩ hs
  rw [seen_snoc, over_run_append, h1]
  cases service_step hs with
  | conn t x hl hx => exact ⟨by simp [Spec.seen, SysOver.run, hx], h2⟩
  | temporary t hl => exact ⟨rfl, h2⟩
  | permanent t hl => exact ⟨rfl, h2⟩
  | sys e x he hx => exact ⟨by simp [Spec.seen, SysOver.run, hx], h2⟩

theorem setSub_length (s : Sys) (r : SubRef) (f : Sub → Sub) : (s.setSub r f).conns.length = s.conns.length := by
  simp [Sys.setSub]

theorem sendQueueFrame_length (s : Sys) (d : Bytes) (r : SubRef) (m : Msg) : (s.sendQueueFrame d r m).conns.length = s.conns.length := by
  unfold Sys.sendQueueFrame
  split
  · rfl
  · exact setSub_length _ _ _

theorem queueSubscribe_length (q : QueueStorage σ) (x : SysOver σ) (d : Bytes) (r : SubRef) : (x.queueSubscribe q d r).sys.conns.length = x.sys.conns.length := by
  unfold SysOver.queueSubscribe
  split
  · rfl
  · split
    · rfl
    · exact setSub_length _ _ _
  · exact sendQueueFrame_length _ _ _ _

theorem queuePut_length (q : QueueStorage σ) (x : SysOver σ) (f : Bool) (d : Bytes) (m : Msg) : (x.queuePut q f d m).sys.conns.length = x.sys.conns.length := by
  unfold SysOver.queuePut
  split
  · rfl
  · exact (sendQueueFrame_length _ _ _ _).trans (setSub_length _ _ _)

theorem handle_length (q : QueueStorage σ) (x : SysOver σ) (r : Req) : (x.handle q r).sys.conns.length = x.sys.conns.length := by
  cases r with
  | subscribe r =>
    simp only [SysOver.handle]
    split
    · exact queueSubscribe_length _ _ _ _
    · rfl
  | unsubscribe r =>
    simp only [SysOver.handle, Sys.handle]
    split
    · unfold Sys.queueUnsubscribe
      split
      · exact setSub_length _ _ _
      · rfl
    · rfl
  | enqueue m =>
    simp only [SysOver.handle]
    split
    · rfl
    · split
      · exact queuePut_length _ _ _ _ _
      · rfl
  | requeue m =>
    cases m with
    | none => rfl
    | some m =>
      simp only [SysOver.handle]
      split
      · rfl
      · split
        · exact queuePut_length _ _ _ _ _
        · rfl
  | connected c => rfl
  | disconnected c => rfl

theorem over_step_length {q : QueueStorage σ} {cfg : Config} {x x' : SysOver σ} {e : Sys.Ev} (h : x.step q cfg e = some x') :
    x'.sys.conns.length = x.sys.conns.length + if e = .accept then 1 else 0 := by
  have lift : ∀ {e}, (x.sys.step cfg e).map (fun s => { x with sys := s }) = some x' → ∃ s, x.sys.step cfg e = some s ∧ x'.sys = s := by
    intro e h
    obtain ⟨s, hs, rfl⟩ := Option.map_eq_some_iff.1 h
    exact ⟨s, hs, rfl⟩
  cases e with
  | proc =>
    simp only [SysOver.step] at h
    rw [if_neg (by simp)]
    split at h
    · cases h
    · split at h
      · cases h
        exact handle_length _ _ _
      · cases h
  | accept =>
    obtain ⟨s, hs, hx⟩ := lift h
    rw [hx, if_pos rfl]
    simp only [Sys.step] at hs
    split at hs
    · cases hs
    · cases hs; simp
  | conn c e =>
    obtain ⟨s, hs, hx⟩ := lift h
    rw [hx, if_neg (by simp)]
    simp only [Sys.step] at hs
    repeat' split at hs
    all_goals (try cases hs)
    simp
  | flush c =>
    obtain ⟨s, hs, hx⟩ := lift h
    rw [hx, if_neg (by simp)]
    simp only [Sys.step] at hs
    repeat' split at hs
    all_goals (try cases hs)
    all_goals simp
  | push =>
    obtain ⟨s, hs, hx⟩ := lift h
    rw [hx, if_neg (by simp)]
    simp only [Sys.step] at hs
    repeat' split at hs
    all_goals (try cases hs)
    all_goals simp

/-- **C94**. There are as many connections as have been accepted. -/
theorem C94_count (q : QueueStorage σ) (cfg : Config) (l : lis) (es : List Service.Ev) (s : Service lis σ) (h : Service.run q cfg (Service.serve q l) es = some s) :
    s.over.sys.conns.length = (Spec.outcomes es).count .conn := by
  refine service_induction (P := fun es s => s.over.sys.conns.length = (Spec.outcomes es).count .conn) rfl ?_ es s h
  intro es s e s' _ h1 hs
  rw [outcomes_snoc, List.count_append, ← h1]
  cases service_step hs with
  | conn t x hl hx => exact over_step_length hx
  | temporary t hl => rfl
  | permanent t hl => rfl
  | sys e x he hx =>
    have := over_step_length hx
    rw [if_neg he] at this
    exact this

theorem failures_snoc (rs : List AcceptRes) (r : AcceptRes) : Spec.failures (rs ++ [r]) = if r = .temporary then Spec.failures rs + 1 else 0 := by
  unfold Spec.failures
  rw [List.reverse_append]
  cases r <;> simp

/-- **C94**. The loop that accepts connections runs until `Accept` fails for good. By then it waits the longer the more failures there were in a row. -/
theorem C94_loop (q : QueueStorage σ) (cfg : Config) (l : lis) (es : List Service.Ev) (s : Service lis σ) (h : Service.run q cfg (Service.serve q l) es = some s) :
    s.loop = if .permanent ∈ Spec.outcomes es then none
      else some (if Spec.failures (Spec.outcomes es) = 0 then 0 else Spec.backoff (Spec.failures (Spec.outcomes es) - 1)) := by
  refine service_induction (P := fun es s => s.loop = if .permanent ∈ Spec.outcomes es then none
      else some (if Spec.failures (Spec.outcomes es) = 0 then 0 else Spec.backoff (Spec.failures (Spec.outcomes es) - 1))) rfl ?_ es s h
  intro es s e s' _ h1 hs
  have run : ∀ t, s.loop = some t → .permanent ∉ Spec.outcomes es ∧
      t = if Spec.failures (Spec.outcomes es) = 0 then 0 else Spec.backoff (Spec.failures (Spec.outcomes es) - 1) := by
    intro t ht
    rw [ht] at h1
    split at h1
    · cases h1
    · rename_i hn
      injection h1 with h1
      exact ⟨hn, h1⟩
  rw [outcomes_snoc]
  cases service_step hs with
  | conn t x hl hx =>
    obtain ⟨hn, _⟩ := run t hl
    have ho : Spec.outcomes [Service.Ev.accept .conn] = [.conn] := rfl
    rw [ho, failures_snoc, if_neg (by simp [hn])]
    rfl
  | permanent t hl =>
    have ho : Spec.outcomes [Service.Ev.accept .permanent] = [.permanent] := rfl
    rw [ho, if_pos (by simp)]
  | temporary t hl =>
    obtain ⟨hn, ht⟩ := run t hl
    have ho : Spec.outcomes [Service.Ev.accept .temporary] = [.temporary] := rfl
    rw [ho, failures_snoc, if_neg (by simp [hn]), if_pos rfl, if_neg (Nat.succ_ne_zero _), Nat.add_sub_cancel]
    show some _ = some _
    congr 1
    generalize Spec.failures (Spec.outcomes es) = k at ht
    cases k with
    | zero => rw [if_pos rfl] at ht; subst ht; rfl
    | succ k =>
      rw [if_neg (Nat.succ_ne_zero k), Nat.add_sub_cancel] at ht
      subst ht
      exact backoff_succ k
  | sys e x he hx =>
    have ho : Spec.outcomes [Service.Ev.sys e] = [] := rfl
    rw [ho, List.append_nil]
    exact h1

/-- **C94**. A failure of `Accept`, temporary or not, changes nothing for those who are connected; and whatever `Accept` has returned, the server goes on with them. -/
theorem C94_undisturbed (q : QueueStorage σ) (cfg : Config) (s : Service lis σ) :
    (∀ r s', r ≠ .conn → s.step q cfg (.accept r) = some s' → s'.over = s.over) ∧
    (∀ e x, e ≠ .accept → s.over.step q cfg e = some x → ∃ s', s.step q cfg (.sys e) = some s' ∧ s'.over = x ∧ s'.loop = s.loop) := by
  refine ⟨fun r s' hr h => ?_, fun e x he h => ?_⟩
  · cases service_step h with
    | conn => exact absurd rfl hr
    | temporary => rfl
    | permanent => rfl
  · refine ⟨{ s with over := x }, ?_, rfl, rfl⟩
    have : s.step q cfg (.sys e) = (s.over.step q cfg e).map fun x => { s with over := x } := by
      cases e <;> first | rfl | exact absurd rfl he
    rw [this, h]; rfl

/-- **C94**. After it has failed for good nobody is accepted any more. -/
theorem C94_no_more_partial (q : QueueStorage σ) (cfg : Config) (l : lis) (es es' : List Service.Ev) (s s' : Service lis σ)
    (h : Service.run q cfg (Service.serve q l) es = some s) (hp : .permanent ∈ Spec.outcomes es) (h' : Service.run q cfg s es' = some s') :
    Spec.outcomes es' = [] ∧ s'.over.sys.conns.length = s.over.sys.conns.length := by
  have hl : s.loop = none := by rw [C94_loop q cfg l es s h, if_pos hp]
  have key := service_induction (q := q) (cfg := cfg) (s0 := s) (P := fun es t => Spec.outcomes es = [] ∧ t.loop = none) ⟨rfl, hl⟩ (by
    intro es t e t' _ ⟨h1, h2⟩ hs
    rw [outcomes_snoc, h1]
    cases service_step hs with
    | conn _ _ hl => rw [hl] at h2; cases h2
    | temporary _ hl => rw [hl] at h2; cases h2
    | permanent _ hl => rw [hl] at h2; cases h2
    | sys e x he hx => exact ⟨rfl, h2⟩) es' s' h'
  refine ⟨key.1, ?_⟩
  have h2 := C94_count q cfg l (es ++ es') s' (by rw [service_run_append, h]; exact h')
  rw [C94_count q cfg l es s h, h2]
  unfold Spec.outcomes at key ⊢
  rw [List.filterMap_append, key.1, List.append_nil]

/-- What may be in the record of a storage. -/
def Unstarted (l : List Spec.Called) : Prop := .start ∉ l ∧ .stop ∉ l

theorem unstarted_snoc {l : List Spec.Called} {c : Spec.Called} (h : Unstarted l) (h1 : c ≠ .start) (h2 : c ≠ .stop) : Unstarted (l ++ [c]) :=
  ⟨by simp [h.1, h1.symm], by simp [h.2, h2.symm]⟩

theorem unstarted_handle (q : QueueStorage σ) (x : SysOver (σ × List Spec.Called)) (r : Req) (h : Unstarted x.st.2) :
    Unstarted (x.handle (Spec.recording q) r).st.2 := by
  have hput : ∀ f d m, Unstarted (x.queuePut (Spec.recording q) f d m).st.2 := by
    intro f d m
    unfold SysOver.queuePut
    split
    · cases f <;> exact unstarted_snoc h (by simp) (by simp)
    · exact h
  cases r with
  | subscribe r =>
    simp only [SysOver.handle]
    split
    · unfold SysOver.queueSubscribe
      have h1 : Unstarted ((Spec.recording q).dequeue x.st (x.sys.sub r).dest).2.2 := unstarted_snoc h (by simp) (by simp)
      split
      · rename_i st hd; rw [hd] at h1; exact h1
      · rename_i st hd; rw [hd] at h1
        split <;> exact h1
      · rename_i m st hd; rw [hd] at h1; exact h1
    · exact h
  | unsubscribe r => exact h
  | enqueue m =>
    simp only [SysOver.handle]
    split
    · exact h
    · split
      · exact hput _ _ _
      · exact h
  | requeue m =>
    cases m with
    | none => exact h
    | some m =>
      simp only [SysOver.handle]
      split
      · exact h
      · split
        · exact hput _ _ _
        · exact h
  | connected c => exact h
  | disconnected c => exact h

theorem unstarted_step {q : QueueStorage σ} {cfg : Config} {x x' : SysOver (σ × List Spec.Called)} {e : Sys.Ev} (h : x.step (Spec.recording q) cfg e = some x')
    (hu : Unstarted x.st.2) : Unstarted x'.st.2 := by
  have lift : ∀ {e}, (x.sys.step cfg e).map (fun s => { x with sys := s }) = some x' → Unstarted x'.st.2 := by
    intro e h
    obtain ⟨s, hs, rfl⟩ := Option.map_eq_some_iff.1 h
    exact hu
  cases e with
  | proc =>
    simp only [SysOver.step] at h
    split at h
    · cases h
    · split at h
      · cases h
        exact unstarted_handle q _ _ hu
      · cases h
  | accept => exact lift h
  | conn c e => exact lift h
  | flush c => exact lift h
  | push => exact lift h

/-- **C94** is false: whatever the storage, neither its `Start` nor its `Stop` is ever called. -/
theorem C94_false_storage (q : QueueStorage σ) (cfg : Config) (l : lis) (es : List Service.Ev) (s : Service lis (σ × List Spec.Called))
    (h : Service.run (Spec.recording q) cfg (Service.serve (Spec.recording q) l) es = some s) : .start ∉ s.over.st.2 ∧ .stop ∉ s.over.st.2 := by
  refine service_induction (P := fun _ s => Unstarted s.over.st.2) ⟨by simp [Service.serve, SysOver.init, Spec.recording], by simp [Service.serve, SysOver.init, Spec.recording]⟩ ?_ es s h
  intro es s e s' _ h1 hs
  cases service_step hs with
  | conn t x hl hx => exact unstarted_step hx h1
  | temporary t hl => exact h1
  | permanent t hl => exact h1
  | sys e x he hx => exact unstarted_step hx h1

/-- Nothing can happen any more if the listener has failed for good and every connection has ended. -/
theorem service_over {q : QueueStorage σ} {cfg : Config} {s : Service lis σ} (hl : s.loop = none) (ht : s.over.sys.todo = []) (hr : s.over.sys.reqCh = [])
    (hk : ∀ k ∈ s.over.sys.conns, k.stage = .closed ∧ k.outbox = [] ∧ k.readDone = true) : Spec.Final q cfg s := by
  have lift : ∀ {e : Sys.Ev}, s.over.sys.step cfg e = none → e ≠ .proc → e ≠ .accept → s.step q cfg (.sys e) = none := by
    intro e h h1 h2
    cases e <;> first | exact absurd rfl h1 | exact absurd rfl h2 | (simp only [Service.step, SysOver.step, h]; rfl)
  intro e
  cases e with
  | accept r => simp [Service.step, hl]
  | sys e =>
    cases e with
    | accept => rfl
    | proc => simp [Service.step, SysOver.step, ht, hr]
    | push => exact lift (by simp [Sys.step, ht]) nofun nofun
    | flush c =>
      refine lift ?_ nofun nofun
      simp only [Sys.step]
      split
      · rfl
      · split
        · rfl
        · rename_i k hc
          rw [(hk k (List.mem_of_getElem? hc)).2.1]
    | conn c e =>
      refine lift ?_ nofun nofun
      simp only [Sys.step]
      split
      · rfl
      · split
        · split
          · rfl
          · rename_i hi _ k hc
            obtain ⟨h1, h2, h3⟩ := hk k (List.mem_of_getElem? hc)
            have : k.step cfg e = none := by
              cases e <;> simp only [Sys.internal, Bool.false_eq_true] at hi <;> simp [Conn.step, Conn.atSelect, Conn.cleanStep, h1, h2, h3]
            rw [this]
        · rfl

theorem service_serving {q : QueueStorage σ} {cfg : Config} {s s' : Service lis σ} {e : Service.Ev} (h : s.step q cfg e = some s') : s'.serving = s.serving := by
  cases service_step h <;> rfl

namespace ServeEx
open StorageEx

/-- A client connects after `Accept` has failed once; then `Accept` fails for good; the client sends a message and goes. -/
def day : List Service.Ev :=
  [.accept .temporary, .accept .conn] ++ (connectRun 0).tail.map .sys ++ [.accept .temporary, .accept .temporary, .accept .permanent] ++ (frameRun 0 sendWithReceipt).map .sys ++
  ([.conn 0 .readErr, .conn 0 .readClosed, .conn 0 .clean, .conn 0 (.cleanUnsub []), .conn 0 .clean, .conn 0 .clean, .conn 0 .clean, .conn 0 .clean, .flush 0, .proc,
    .conn 0 .clean, .conn 0 .clean] : List Sys.Ev).map .sys

theorem day_some : (Service.run memoryStorage sampleCfg (Service.serve memoryStorage ()) day).isSome = true := by decide +kernel

end ServeEx
open ServeEx StorageEx

/-- **C94** is false: `Serve` never returns. When the listener has failed for good and every client has gone, nothing happens any more, and `Serve` still waits for requests; no caller gets to know. -/
theorem C94_false_returns : (∀ (q : QueueStorage σ) (cfg : Config) (l : lis) es s, Service.run q cfg (Service.serve q l) es = some s → s.serving = true) ∧
    ∃ es s, Service.run memoryStorage sampleCfg (Service.serve memoryStorage ()) es = some s ∧ .permanent ∈ Spec.outcomes es ∧ s.over.sys.crashed = false ∧
      s.over.sys.conns.length = 1 ∧ wrote s.over.sys 0 = [receipt7] ∧ Spec.Final memoryStorage sampleCfg s ∧ s.serving = true := by
  refine ⟨fun q cfg l es s h => ?_, ?_⟩
  · exact service_induction (P := fun _ s => s.serving = true) rfl (fun es s e s' _ h1 hs => (service_serving hs).trans h1) es s h
  · refine ⟨day, (Service.run memoryStorage sampleCfg (Service.serve memoryStorage ()) day).get day_some, (Option.some_get _).symm, by decide, by decide +kernel, by decide +kernel,
      by decide +kernel, service_over (by decide +kernel) (by decide +kernel) (by decide +kernel) ?_, by decide +kernel⟩
    have h : ((Service.run memoryStorage sampleCfg (Service.serve memoryStorage ()) day).get day_some).over.sys.conns.map (fun k => decide (k.stage = .closed ∧ k.outbox = [] ∧ k.readDone = true)) = [true] := by
      decide +kernel
    intro k hk
    have := List.mem_map_of_mem (f := fun k : Conn => decide (k.stage = .closed ∧ k.outbox = [] ∧ k.readDone = true)) hk
    rw [h, List.mem_singleton] at this
    exact of_decide_eq_true this

-- C94_served, C94_count, C94_loop, C94_no_more_partial: one connection; the loop has ended; the message is stored though the listener had failed before it came.
example : (Spec.outcomes day, Spec.failures (Spec.outcomes (day.take 8))) = ([.temporary, .conn, .temporary, .temporary, .permanent], 2) := by decide
example : (Service.run memoryStorage sampleCfg (Service.serve memoryStorage ()) day).map (fun s => (s.loop, s.over.sys.conns.length, s.over.errors)) = some (none, 1, 0) := by decide +kernel
example : (Service.run memoryStorage sampleCfg (Service.serve memoryStorage ()) day).map (fun s => s.over.st.map (fun x => x.2.length)) = some [1] := by decide +kernel
example : (Service.run memoryStorage sampleCfg (Service.serve memoryStorage ()) (day.take 8)).map (fun s => s.loop) = some (some 10000000) := by decide +kernel
-- C94_undisturbed: what the client sends after the failure is answered.
example : ((Service.run memoryStorage sampleCfg (Service.serve memoryStorage ()) (day.take 9)).map (fun s => wrote s.over.sys 0),
    (Service.run memoryStorage sampleCfg (Service.serve memoryStorage ()) (day.take 13)).map (fun s => wrote s.over.sys 0)) = (some [], some [receipt7]) := by decide +kernel
-- C94_false_storage: the storage is used but has not been started.
example : (Service.run (Spec.recording memoryStorage) sampleCfg (Service.serve (Spec.recording memoryStorage) ()) day).map (fun s => s.over.st.2) = some [.enqueue] := by decide +kernel
-- C94_address: a port that is taken, and one that is free.
example : (Service.listenAndServe (lis := Bytes) memoryStorage [] (fun a => if a = b!":61613" then .error b!"in use" else .ok a) |>.toOption.map (·.listener)) = none ∧
    (Service.listenAndServe (ε := Bytes) memoryStorage b!":7" (fun a => if a = b!":61613" then .error b!"in use" else .ok a) |>.toOption.map (·.listener)) = some b!":7" := by decide

end Stomp.Server
