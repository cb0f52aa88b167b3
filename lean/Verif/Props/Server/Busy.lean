import Verif.Proofs.Server.Busy
import Verif.Props.Server.Deadlock
/-!
# Property C74: what the server does by itself comes to an end
-/
namespace Stomp.Server
open Stomp

/-- Each step the server makes by itself, it makes towards the end. -/
theorem own_step {cfg : Config} {es : List Sys.Ev} {s s' : Sys} {e : Sys.Ev} (h : Sys.init.run cfg es = some s) (ho : Spec.Own e) (hs : s.step cfg e = some s') :
    s'.crashed = true ∨ s.Less s' := by
  have hc : s.crashed = false := by
    cases hc : s.crashed with
    | false => rfl
    | true => unfold Sys.step at hs; rw [if_pos hc] at hs; cases hs
  have hi := (sys_induction (P := fun _ => True) trivial (fun _ _ _ _ _ _ => trivial) es s h hc).1
  exact (sys_step hi.refs hs).2.imp id (fun h => sys_less hi ho h)

theorem sys_run_snoc {cfg : Config} {es : List Sys.Ev} {s0 s s' : Sys} {e : Sys.Ev} (h : s0.run cfg es = some s) (hs : s.step cfg e = some s') :
    s0.run cfg (es ++ [e]) = some s' := by
  induction es generalizing s0 with
  | nil =>
    simp only [Sys.run, Option.some.injEq] at h; subst h
    simp only [List.nil_append, Sys.run, hs]
  | cons x es ih =>
    simp only [Sys.run, List.cons_append] at h ⊢
    split at h
    · cases h
    · rename_i s1 h1; exact ih h

/-- **C74** (1). From no state of any execution can the server go on for ever by itself: when nothing comes from outside any more (no connection, no frame, no end of a connection, no heart-beat timer), every execution ends
after finitely many steps, whatever the scheduler chooses and whichever writes fail. -/
theorem C74_ends (cfg : Config) (es : List Sys.Ev) (f : Nat → Sys) (h0 : Sys.init.run cfg es = some (f 0)) :
    ¬∀ n, ∃ e, Spec.Own e ∧ (f n).step cfg e = some (f (n + 1)) := by
  intro hf
  have hr : ∀ n, ∃ es, Sys.init.run cfg es = some (f n) := by
    intro n
    induction n with
    | zero => exact ⟨es, h0⟩
    | succ n ih =>
      obtain ⟨es, h⟩ := ih
      obtain ⟨e, _, hs⟩ := hf n
      exact ⟨_, sys_run_snoc h hs⟩
  have hl : ∀ n, (f n).Less (f (n + 1)) := by
    intro n
    obtain ⟨es, h⟩ := hr n
    obtain ⟨e, ho, hs⟩ := hf n
    rcases own_step h ho hs with hc | hl
    · obtain ⟨e', _, hs'⟩ := hf (n + 1)
      unfold Sys.step at hs'
      rw [if_pos hc] at hs'; cases hs'
    · exact hl
  have : ∀ s : Sys, ∀ n, f n ≠ s := by
    intro s
    induction s using less_wf.induction with
    | _ s ih => intro n hn; exact ih (f (n + 1)) (hn ▸ hl n) (n + 1) rfl
  exact this (f 0) 0 rfl

/-- **C74** (2). Where it stops, the server has nothing left to do: no request, nothing to hand over, and each connection waits for its client or has ended. Or it has crashed (`C42`), or the processor waits for a connection that
waits for it or has ended (`C47_false`, `C47_gone_false`). -/
theorem C74_rest (cfg : Config) (es : List Sys.Ev) (s : Sys) (h : Sys.init.run cfg es = some s) (hs : Spec.Still cfg s) :
    s.crashed = true ∨ (∃ c, Spec.ProcessorWaitsFor s c ∧ (Spec.WaitsForProcessor s c ∨ Spec.Gone s c)) ∨ Spec.Idle s := by
  cases hc : s.crashed with
  | true => exact Or.inl rfl
  | false =>
    right
    obtain ⟨p1, p2, p3, p4⟩ := C47_progress_partial cfg es s h hc
    have no : ∀ {e s'}, Spec.Own e → s.step cfg e = some s' → False := fun ho he => by rw [hs _ ho] at he; cases he
    by_cases ht : s.todo = []
    · right
      have hr : s.reqCh = [] := Classical.byContradiction fun hr => by
        obtain ⟨s', h'⟩ := p1 ht hr
        exact no (e := .proc) trivial h'
      refine ⟨hr, ht, fun k hm => ?_⟩
      obtain ⟨c, hk⟩ := List.getElem?_of_mem hm
      have ho : k.outbox = [] := Classical.byContradiction fun ho => by
        rcases p4 c k hk ho with ⟨s', h'⟩ | hl
        · exact no (e := .flush c) trivial h'
        · rw [hr] at hl; simp at hl
      refine ⟨ho, ?_⟩
      have can : ∀ {e : Conn.Ev} {k'}, Sys.internal e = true → Spec.Own (.conn c e) → k.step cfg e = some k' → False := by
        intro e k' h1 h2 h3
        obtain ⟨s', h'⟩ := conn_enabled hc hk h1 h3
        exact no h2 h'
      have clean : ∀ {k'}, k.cleanStep = some k' → False := by
        intro k' hcs
        exact can (e := .clean) rfl trivial (by unfold Conn.step; dsimp only; rw [if_pos (by rw [ho]; rfl)]; exact hcs)
      cases hst : k.stage with
      | run =>
        left
        have ha : k.atSelect = true := by unfold Conn.atSelect; rw [hst, ho]; rfl
        have hq : k.inq = [] := by
          cases hq : k.inq with
          | nil => rfl
          | cons x w => exact (can (e := .frame true true) rfl trivial (by unfold Conn.step; dsimp only; rw [if_pos ha, hq])).elim
        refine ⟨rfl, hq, ?_, ?_, ?_⟩
        · cases hd : k.readDone with
          | false => rfl
          | true => exact (can (e := .readClosed) rfl trivial (by unfold Conn.step; dsimp only; rw [ha, hq, hd]; rfl)).elim
        · cases hq : k.subCh with
          | nil => rfl
          | cons x w => exact (can (e := .sub true) rfl trivial (by unfold Conn.step; dsimp only; rw [if_pos ha, hq])).elim
        · cases hq : k.writeCh with
          | nil => rfl
          | cons x w => exact (can (e := .wr true) rfl trivial (by unfold Conn.step; dsimp only; rw [if_pos ha, hq])).elim
      | unsub =>
        exact (can (e := .cleanUnsub (k.subs.map (·.2))) rfl trivial (by
          unfold Conn.step; dsimp only
          rw [if_pos (by rw [ho, hst]; simp [List.isPerm_iff])])).elim
      | closed => exact Or.inr rfl
      | discard1 => exact (clean (by unfold Conn.cleanStep; rw [hst])).elim
      | acklist => exact (clean (by unfold Conn.cleanStep; rw [hst])).elim
      | discard2 => exact (clean (by unfold Conn.cleanStep; rw [hst])).elim
      | drain1 => exact (clean (by unfold Conn.cleanStep; rw [hst])).elim
      | announce => exact (clean (by unfold Conn.cleanStep; rw [hst])).elim
      | discard3 => exact (clean (by unfold Conn.cleanStep; rw [hst])).elim
      | drain2 => exact (clean (by unfold Conn.cleanStep; rw [hst])).elim
    · left
      rcases p2 ht with ⟨s', h'⟩ | ⟨c, hw⟩
      · exact (no (e := .push) trivial h').elim
      · rcases p3 c hw with ⟨e, s', hm, h'⟩ | h3
        · refine (no ?_ h').elim
          unfold Spec.Moves at hm
          split at hm <;> first | trivial | exact hm.elim
        · exact ⟨c, hw, h3⟩

/-- **C74** (2, converse). A server with nothing to do does nothing by itself. -/
theorem C74_idle (cfg : Config) (s : Sys) (h : Spec.Idle s) : Spec.Still cfg s := by
  obtain ⟨hr, ht, hk⟩ := h
  intro e ho
  unfold Sys.step
  split
  · rfl
  · cases e with
    | accept => exact absurd ho id
    | flush c =>
      dsimp only
      split
      · rfl
      · rename_i k hc
        rw [(hk k (List.mem_of_getElem? hc)).1]
    | proc => dsimp only; rw [hr, ht]
    | push => dsimp only; rw [ht]
    | conn c e =>
      dsimp only
      split
      · rename_i hi
        split
        · rfl
        · rename_i k hc
          have : k.step cfg e = none := by
            obtain ⟨h1, h2⟩ := hk k (List.mem_of_getElem? hc)
            unfold Conn.step
            cases e with
            | recv => exact absurd ho id
            | readErr => exact absurd ho id
            | timer => exact absurd ho id
            | flushed => cases hi
            | setFrame => cases hi
            | setInList => cases hi
            | pushSub => cases hi
            | pushTopic => cases hi
            | frame => rcases h2 with ⟨_, h2, _⟩ | h2 <;> dsimp only <;> simp [Conn.atSelect, h2]
            | readClosed => rcases h2 with ⟨_, _, h2, _⟩ | h2 <;> dsimp only <;> simp [Conn.atSelect, h2]
            | wr => rcases h2 with ⟨_, _, _, _, h2⟩ | h2 <;> dsimp only <;> simp [Conn.atSelect, h2]
            | sub => rcases h2 with ⟨_, _, _, h2, _⟩ | h2 <;> dsimp only <;> simp [Conn.atSelect, h2]
            | clean => rcases h2 with ⟨h2, _⟩ | h2 <;> dsimp only <;> simp [Conn.cleanStep, h1, h2]
            | cleanUnsub => rcases h2 with ⟨h2, _⟩ | h2 <;> dsimp only <;> simp [h1, h2]
          rw [this]
      · rfl

/-- Whether a step is possible does not depend on the network. -/
theorem smooth_step {cfg : Config} {s s' : Sys} {e : Sys.Ev} (ho : Spec.Own e) (h : s.step cfg e = some s') :
    ∃ e' s'', Spec.Own e' ∧ Spec.Smooth e' ∧ s.step cfg e' = some s'' := by
  cases e with
  | accept => exact absurd ho id
  | flush c => exact ⟨_, _, ho, trivial, h⟩
  | proc => exact ⟨_, _, ho, trivial, h⟩
  | push => exact ⟨_, _, ho, trivial, h⟩
  | conn c e =>
    have hc : s.crashed = false := by
      cases hc : s.crashed with
      | false => rfl
      | true => unfold Sys.step at h; rw [if_pos hc] at h; cases h
    have hk : ∃ k k', s.conns[c]? = some k ∧ k.step cfg e = some k' := by
      unfold Sys.step at h
      rw [if_neg (by rw [hc]; simp)] at h
      dsimp only at h
      split at h
      · split at h
        · cases h
        · rename_i k hk
          split at h
          · cases h
          · rename_i k' hk'; exact ⟨k, k', hk, hk'⟩
      · cases h
    obtain ⟨k, k', hk, hs⟩ := hk
    have done : ∀ {e' : Conn.Ev} {k''}, Sys.internal e' = true → Spec.Own (.conn c e') → Spec.Smooth (.conn c e') → k.step cfg e' = some k'' →
        ∃ e' s'', Spec.Own e' ∧ Spec.Smooth e' ∧ s.step cfg e' = some s'' := by
      intro e' k'' h1 h2 h3 h4
      obtain ⟨s'', h'⟩ := conn_enabled hc hk h1 h4
      exact ⟨_, s'', h2, h3, h'⟩
    cases e with
    | frame ok1 ok2 =>
      unfold Conn.step at hs; dsimp only at hs
      split at hs
      · rename_i ha
        split at hs
        · rename_i f q hq
          exact done (e' := .frame true true) rfl trivial ⟨rfl, rfl⟩ (by unfold Conn.step; dsimp only; rw [if_pos ha, hq])
        · cases hs
      · cases hs
    | wr ok =>
      unfold Conn.step at hs; dsimp only at hs
      split at hs
      · rename_i ha
        split at hs
        · rename_i f q hq
          exact done (e' := .wr true) rfl trivial rfl (by unfold Conn.step; dsimp only; rw [if_pos ha, hq])
        · cases hs
      · cases hs
    | sub ok =>
      unfold Conn.step at hs; dsimp only at hs
      split at hs
      · rename_i ha
        split at hs
        · rename_i f q hq
          exact done (e' := .sub true) rfl trivial rfl (by unfold Conn.step; dsimp only; rw [if_pos ha, hq])
        · cases hs
      · cases hs
    | _ => exact ⟨_, _, ho, trivial, h⟩

/-- **C74** (3). From every state of every execution the server comes to rest by itself, with every write succeeding: there is a finite continuation without anything from outside, after which it can do nothing
by itself; then it is idle, has crashed, or is stuck as in (2). -/
theorem C74_settles (cfg : Config) (es : List Sys.Ev) (s : Sys) (h : Sys.init.run cfg es = some s) :
    ∃ es' s', (∀ e ∈ es', Spec.Own e ∧ Spec.Smooth e) ∧ s.run cfg es' = some s' ∧ Spec.Still cfg s' ∧
      (s'.crashed = true ∨ (∃ c, Spec.ProcessorWaitsFor s' c ∧ (Spec.WaitsForProcessor s' c ∨ Spec.Gone s' c)) ∨ Spec.Idle s') := by
  induction s using less_wf.induction generalizing es with
  | _ s ih =>
    by_cases hst : Spec.Still cfg s
    · exact ⟨[], s, fun e he => absurd he List.not_mem_nil, rfl, hst, C74_rest cfg es s h hst⟩
    · have : ∃ e s1, Spec.Own e ∧ s.step cfg e = some s1 := Classical.byContradiction fun hn => hst fun e ho => by
        cases he : s.step cfg e with
        | none => rfl
        | some s1 => exact absurd ⟨e, s1, ho, he⟩ hn
      obtain ⟨_, _, ho, he⟩ := this
      obtain ⟨e, s1, ho, hsm, hs⟩ := smooth_step ho he
      rcases own_step h ho hs with hc | hl
      · refine ⟨[e], s1, ?_, ?_, ?_, Or.inl hc⟩
        · intro x hx; rw [List.mem_singleton.1 hx]; exact ⟨ho, hsm⟩
        · simp only [Sys.run, hs]
        · intro x _; unfold Sys.step; rw [if_pos hc]
      · obtain ⟨es', s', h1, h2, h3⟩ := ih s1 hl _ (sys_run_snoc h hs)
        refine ⟨e :: es', s', ?_, ?_, h3⟩
        · intro x hx
          rcases List.mem_cons.1 hx with rfl | hx
          · exact ⟨ho, hsm⟩
          · exact h1 x hx
        · simp only [Sys.run, hs]; exact h2

/-! ## Examples -/

instance (k : Conn) : Decidable (Spec.ConnIdle k) := by unfold Spec.ConnIdle; infer_instance
instance (s : Sys) : Decidable (Spec.Idle s) := by unfold Spec.Idle; infer_instance

namespace BusyEx

/-- A client subscribes to a topic and sends a message to it; the server has not handled the message yet. -/
def start : List Sys.Ev := connectRun 0 ++ frameRun 0 topicSub ++ [.conn 0 (.recv topicSend)]

/-- What the server does then. -/
def rest : List Sys.Ev := [.conn 0 (.frame true true), .flush 0, .proc, .push, .conn 0 (.wr true)]

-- C74_ends, C74_settles: a state in which there is something to do; the five steps are steps of the server itself.
example : ∃ s, Sys.init.run sampleCfg start = some s ∧ ¬Spec.Idle s ∧ s.crashed = false ∧ (∃ s', s.step sampleCfg (.conn 0 (.frame true true)) = some s') :=
  ⟨_, rfl, by decide +kernel, by decide +kernel, _, rfl⟩
example : ∀ e ∈ rest, Spec.Own e ∧ Spec.Smooth e := by
  intro e he
  simp only [rest, List.mem_cons, List.not_mem_nil, or_false] at he
  rcases he with rfl | rfl | rfl | rfl | rfl <;> simp [Spec.Own, Spec.Smooth]

-- C74_rest, C74_idle: after them there is nothing to do; the message is written.
example : ∃ s, Sys.init.run sampleCfg (start ++ rest) = some s ∧ Spec.Idle s ∧ s.crashed = false ∧ (s.conns.map (·.out.length)) = [2] :=
  ⟨_, rfl, by decide +kernel, by decide +kernel, by decide +kernel⟩
example : ∃ s, Sys.init.run sampleCfg (start ++ rest) = some s ∧ Spec.Still sampleCfg s :=
  ⟨_, rfl, C74_idle _ _ (by decide +kernel)⟩

end BusyEx

end Stomp.Server
