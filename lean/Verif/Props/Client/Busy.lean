import Verif.Proofs.Client.Busy
import Verif.Proofs.Client.Mid
import Verif.Props.Client.Failure
import Verif.Props.Client.Order
/-!
# Property C75: what the client does by itself comes to an end
-/
namespace Stomp.Client
open Stomp

namespace Spec

/-- Where `processLoop` can be when nothing happens: it waits for the network and for callers; it has returned; it wants to hand a frame to a caller that has given up (`C26`); it wants to return and the lock is held by a caller (`C27_false_waiting`). -/
inductive LoopRest (s : Sys) : Prop
  | waits (h : s.loop = .select) (hr : s.readCh = []) (hd : s.readDone = false) (hw : s.writeCh = []) (hc : s.writeClosed = false)
  | returned (h : s.loop = .done)
  | left {f : Frame} {m t : Nat} {th : Thread} (h : Sending s f m) (hm : s.chans[m]? = some ⟨.caller t, false⟩) (ht : s.threads[t]? = some th) (hl : Left th)
  | locked {t : Nat} {th : Thread} (h : Ending s) (hm : s.mutex = some t) (ht : s.threads[t]? = some th) (hp : (∃ r, th.pc = .push r) ∨ ∃ m, th.pc = .wait m)

end Spec

theorem client_run_snoc {cfg : Cfg} {es : List Ev} {s0 s s' : Sys} {e : Ev} (h : s0.run cfg es = some s) (hs : s.step cfg e = some s') :
    s0.run cfg (es ++ [e]) = some s' := by
  induction es generalizing s0 with
  | nil =>
    simp only [Sys.run, Option.some.injEq] at h; subst h
    simp only [List.nil_append, Sys.run, hs, Option.bind_some]
  | cons x es ih =>
    simp only [Sys.run, List.cons_append, Option.bind_eq_some_iff] at h ⊢
    obtain ⟨s1, h1, h2⟩ := h
    exact ⟨s1, h1, ih h2⟩

theorem client_less_wf : WellFounded (fun s' s : Sys => s.Less s') := by
  refine Subrelation.wf (r := InvImage (Prod.Lex (· < ·) (Prod.Lex (· < ·) (· < ·))) (fun s : Sys => (s.callers, s.loop.phase, s.pending))) ?_ (InvImage.wf _ ?_)
  · intro s' s h
    unfold InvImage
    have le : ∀ {β : Type} {r : β → β → Prop} {a' a : Nat} {x y : β}, a' ≤ a → r x y → Prod.Lex (· < ·) r (a', x) (a, y) := by
      intro β r a' a x y h1 h2
      rcases Nat.lt_or_eq_of_le h1 with h1 | rfl
      · exact .left _ _ h1
      · exact .right _ h2
    cases h with
    | callers h => exact .left _ _ h
    | phase ha h => exact le ha (.left _ _ h)
    | pending ha hb h => exact le ha (le hb h)
  · have w : WellFounded (fun a b : Nat => a < b) := Nat.lt_wfRel.wf
    exact (Prod.lex ⟨_, w⟩ (Prod.lex ⟨_, w⟩ ⟨_, w⟩)).wf

/-- Each step the client makes by itself, it makes towards the end. -/
theorem client_own_step {cfg : Cfg} {n : Nat} {es : List Ev} {s s' : Sys} {e : Ev} (h : (Sys.init n).run cfg es = some s) (ho : Spec.Own e)
    (hs : s.step cfg e = some s') : s.Less s' := by
  have hi := uinv_run (uinv_init n) h
  obtain ⟨hc, hst⟩ := ostep_cases ho hs
  exact own_less hi (woken_run (uinv_init n) (woken_init n) h) hc hst

/-- **C75** (1). From no state of any execution can the client go on for ever by itself: when there are no further calls and nothing more is read, every execution ends after finitely many steps, whatever the scheduler chooses,
whichever timers fire, whichever writes fail. In particular nobody is woken again and again, and no goroutine of the library turns round without waiting for something. -/
theorem C75_ends (cfg : Cfg) (n : Nat) (es : List Ev) (f : Nat → Sys) (h0 : (Sys.init n).run cfg es = some (f 0)) :
    ¬∀ k, ∃ e, Spec.Own e ∧ (f k).step cfg e = some (f (k + 1)) := by
  intro hf
  have hr : ∀ k, ∃ es, (Sys.init n).run cfg es = some (f k) := by
    intro k
    induction k with
    | zero => exact ⟨es, h0⟩
    | succ k ih =>
      obtain ⟨es, h⟩ := ih
      obtain ⟨e, _, hs⟩ := hf k
      exact ⟨_, client_run_snoc h hs⟩
  have hl : ∀ k, (f k).Less (f (k + 1)) := by
    intro k
    obtain ⟨es, h⟩ := hr k
    obtain ⟨e, ho, hs⟩ := hf k
    exact client_own_step h ho hs
  have : ∀ s : Sys, ∀ k, f k ≠ s := by
    intro s
    induction s using client_less_wf.induction with
    | _ s ih => intro k hk; exact ih (f (k + 1)) (hk ▸ hl k) (k + 1) rfl
  exact this (f 0) 0 rfl

theorem prompt_own {e : Ev} (h : Spec.Prompt e) : Spec.Own e := by
  cases e <;> first | exact h | exact h.elim

/-- **C75** (1, continued). From every state of every execution the client comes to a state in which it can do nothing more by itself, without any timer. -/
theorem C75_settles (cfg : Cfg) (n : Nat) (es : List Ev) (s : Sys) (h : (Sys.init n).run cfg es = some s) :
    ∃ es' s', (∀ e ∈ es', Spec.Prompt e) ∧ s.run cfg es' = some s' ∧ Spec.Still cfg s' := by
  induction s using client_less_wf.induction generalizing es with
  | _ s ih =>
    by_cases hs : Spec.Still cfg s
    · exact ⟨[], s, by simp, rfl, hs⟩
    · obtain ⟨e, he⟩ := Classical.not_forall.1 hs
      obtain ⟨hp, he⟩ := Classical.not_imp.1 he
      cases hst : s.step cfg e with
      | none => exact absurd hst he
      | some s1 =>
        obtain ⟨es', s', h1, h2, h3⟩ := ih s1 (client_own_step h (prompt_own hp) hst) (es ++ [e]) (client_run_snoc h hst)
        refine ⟨e :: es', s', ?_, ?_, h3⟩
        · intro x hx
          rcases List.mem_cons.1 hx with rfl | hx
          · exact hp
          · exact h1 x hx
        · simp only [Sys.run, hst, Option.bind_some]; exact h2

/-! ## Where it stops -/

theorem step_mid {cfg : Cfg} {s : Sys} {t : Nat} {th : Thread} {i : Nat} {o : List SubOpt} {b : Sub} (hc : s.crashed = none)
    (ht : s.threads[t]? = some th) (hcall : th.call = .unsubscribe i o) (hb : s.subs[i]? = some b) (hpc : th.pc.mid = true) :
    s.step cfg (.thread t) = s.unsub cfg t th i b := by
  unfold Sys.step
  rw [hc]
  simp only [Option.isSome_none, Bool.false_eq_true, if_false]
  unfold Sys.thread
  rw [ht]
  dsimp only
  cases h : th.pc <;> rw [h] at hpc <;> first | (dsimp only; rw [hcall]; dsimp only; rw [hb]) | cases hpc

/-- Inside `closeOnce.Do` nobody waits when there is room in `C`. -/
theorem close_inside {b : Sub} {p : ClosePc} (hp : p.inside = true) (hb : b.buf = []) : closeStep b p ≠ .blocked := by
  cases p <;> simp [closeStep, ClosePc.inside, hb] at * <;> split <;> simp

theorem unsub_close {cfg : Cfg} {s : Sys} {t : Nat} {th : Thread} {i : Nat} {b : Sub} {p : ClosePc} (hpc : th.pc = .closing p) (h : closeStep b p ≠ .blocked) :
    ∃ s', s.unsub cfg t th i b = some s' := by
  unfold Sys.unsub
  rw [hpc]
  dsimp only
  cases hx : closeStep b p with
  | blocked => exact absurd hx h
  | panic => exact ⟨_, rfl⟩
  | next => exact ⟨_, rfl⟩
  | fin => exact ⟨_, rfl⟩

section
variable {cfg : Cfg} {n : Nat} {es : List Ev} {s : Sys}

theorem rest_sub (h : (Sys.init n).run cfg es = some s) (hc : s.crashed = none) (hs : Spec.Still cfg s) {i : Nat} {b : Sub} (hb : s.subs[i]? = some b) : Spec.SubRest s b := by
  have no : ∀ {e s'}, Spec.Prompt e → s.step cfg e = some s' → False := fun ho he => by rw [hs _ ho] at he; cases he
  have hi := uinv_run (uinv_init n) h
  have hbuf : b.buf = [] := by
    cases hx : b.buf with
    | nil => rfl
    | cons m rest =>
      exact (no (e := .take i) trivial (s' := s.setSub i { b with buf := rest }) (by simp only [Sys.step, hc, Option.isSome_none, Bool.false_eq_true, if_false, hb, hx])).elim
  refine ⟨hbuf, ?_⟩
  have step : ∀ {s'}, s.subStep i = some s' → False := fun he => no (e := .sub i) trivial (by simp only [Sys.step, hc, Option.isSome_none, Bool.false_eq_true, if_false]; exact he)
  cases hr : b.rl with
  | recv =>
    refine .inl ⟨rfl, ?_⟩
    cases hcl : s.chanClosed b.chan with
    | false => rfl
    | true => exact (step (by unfold Sys.subStep; rw [hb]; dsimp only; rw [hr]; dsimp only; rw [if_pos hcl])).elim
  | put m =>
    by_cases hcc : b.cClosed = true
    · exact (step (by unfold Sys.subStep; rw [hb]; dsimp only; rw [hr]; dsimp only; rw [if_pos hcc])).elim
    · exact (step (by unfold Sys.subStep; rw [hb]; dsimp only; rw [hr]; dsimp only; rw [if_neg hcc, if_pos (by rw [hbuf]; simp)])).elim
  | check m => exact (step (by unfold Sys.subStep; rw [hb]; dsimp only; rw [hr])).elim
  | done => exact .inr rfl
  | closing p =>
    have hst : closeStep b p ≠ .blocked → False := by
      intro hn
      cases hx : closeStep b p with
      | blocked => exact hn hx
      | panic => exact step (by unfold Sys.subStep; rw [hb]; dsimp only; rw [hr]; dsimp only; rw [hx])
      | next => exact step (by unfold Sys.subStep; rw [hb]; dsimp only; rw [hr]; dsimp only; rw [hx])
      | fin => exact step (by unfold Sys.subStep; rw [hb]; dsimp only; rw [hr]; dsimp only; rw [hx])
    by_cases hin : p.inside = true
    · exact (hst (close_inside hin hbuf)).elim
    · -- at `closeOnce.Do` while another goroutine is inside
      obtain ⟨m, rfl⟩ : ∃ m, p = .enter m := by cases p <;> simp [ClosePc.inside] at hin <;> exact ⟨_, rfl⟩
      have hrun : b.once = .running := by
        cases ho : b.once with
        | running => rfl
        | idle => exact (hst (by unfold closeStep; dsimp only; rw [ho]; cases m <;> simp)).elim
        | done => exact (hst (by unfold closeStep; dsimp only; rw [ho]; simp)).elim
      have hat : b.rl.at? = none := by rw [hr]; rfl
      exfalso
      by_cases hw : ∃ t q k, s.won t = some (i, q, k)
      · obtain ⟨t, q, k, hw⟩ := hw
        have ho : OnceOk b (wonAt (some (q, k))) := by
          rcases (hi.held t i q k b hw hb).once with ⟨_, ho⟩ | ⟨h1, ho⟩
          · exact ho
          · rw [h1]; rw [hat] at ho; exact ho
        unfold OnceOk at ho
        rw [hrun] at ho
        cases hq : wonAt (some (q, k)) with
        | none => rw [hq] at ho; exact ho
        | some p =>
          obtain ⟨hq1, hin⟩ : q = .closing p ∧ p.inside = true := by
            unfold wonAt at hq
            split at hq
            · rename_i p' _ heq
              cases heq
              split at hq
              · cases hq; exact ⟨rfl, by assumption⟩
              · cases hq
            · cases hq
          unfold Sys.won at hw
          cases hth : s.threads[t]? with
          | none => rw [hth] at hw; cases hw
          | some th =>
            rw [hth] at hw
            simp only [Option.bind_some, Thread.won] at hw
            split at hw
            · rename_i j o hcall
              split at hw
              · cases hw
              · simp only [Option.some.injEq, Prod.mk.injEq] at hw
                obtain ⟨rfl, hw, _⟩ := hw
                rw [hq1] at hw
                obtain ⟨s', hs'⟩ := unsub_close (cfg := cfg) (s := s) (t := t) (i := j) hw (close_inside hin hbuf)
                exact no (e := .thread t) trivial ((step_mid hc hth hcall hb (by rw [hw]; rfl)).trans hs')
            · cases hw
      · have ho := (hi.free i b hb (fun t p k e => hw ⟨t, p, k, e⟩)).once
        rw [hat] at ho
        have ho : OnceOk b none := by rcases ho with ⟨_, ho⟩ | ⟨_, ho⟩ <;> exact ho
        unfold OnceOk at ho
        rw [hrun] at ho
        exact ho

theorem rest_loop (h : (Sys.init n).run cfg es = some s) (hc : s.crashed = none) (hs : Spec.Still cfg s)
    (hd : ∀ t r, .accepted t r ∈ s.trace → r.frame.command = Cmd.subscribe → r.frame.header.contains Hdr.receipt = none) : Spec.LoopRest s := by
  have no : ∀ {e s'}, Spec.Prompt e → s.step cfg e = some s' → False := fun ho he => by rw [hs _ ho] at he; cases he
  have nput : ∀ {i : Nat} {b : Sub} {x : CMsg}, s.subs[i]? = some b → b.rl = .put x → False := by
    intro i b x hb hx
    rcases (rest_sub h hc hs hb).2 with ⟨e, _⟩ | e <;> rw [hx] at e <;> cases e
  by_cases hl : s.loop = .select
  · obtain ⟨h1, h2⟩ := C26_select_partial (cfg := cfg) hc hl
    have h1 : ¬(s.readCh ≠ [] ∨ s.readDone = true) := fun x => by
      obtain ⟨o, s', hx⟩ := h1 x; exact no (e := .loopRead o) trivial hx
    have h2 : ¬(s.writeCh ≠ [] ∨ s.writeClosed = true) := fun x => by
      obtain ⟨o, s', hx⟩ := h2 x; exact no (e := .loopWrite (!s.netClosed) o) trivial hx
    simp only [not_or, Classical.not_not, Bool.not_eq_true] at h1 h2
    exact .waits hl h1.1 h1.2 h2.1 h2.2
  by_cases he : Spec.Ending s
  · rcases C27_progress_partial h hc he hd with h1 | ⟨s', h1⟩ | ⟨s', h1⟩ | ⟨f, m, t, th, h1, h2, h3, h4⟩ | ⟨f, m, i, b, x, h1, h2, h3, h4⟩ | ⟨t, th, h1, h2, h3⟩
    · exact .returned h1
    · exact (no (e := .deliver true) trivial h1).elim
    · exact (no (e := .finish) trivial h1).elim
    · exact .left h1 h2 h3 h4
    · exact (nput h3 h4).elim
    · exact .locked he h1 h2 h3
  · have : ∃ f m, Spec.Sending s f m := by
      rw [ending_iff] at he
      unfold Spec.Sending
      cases hx : s.loop <;> simp [hx, LoopPc.ended] at he hl ⊢
    obtain ⟨f, m, h1⟩ := this
    rcases C26_send_partial h hc h1 hd with ⟨s', h2⟩ | ⟨t, th, h2, h3, h4⟩ | ⟨i, b, x, h2, h3, h4⟩
    · exact (no (e := .deliver true) trivial h2).elim
    · exact .left h1 h2 h3 h4
    · exact (nput h3 h4).elim

theorem rest_call (h : (Sys.init n).run cfg es = some s) (hc : s.crashed = none) (hs : Spec.Still cfg s) {t : Nat} {th : Thread}
    (ht : s.threads[t]? = some th) : Spec.CallRest cfg s th := by
  have no : ∀ {e s'}, Spec.Prompt e → s.step cfg e = some s' → False := fun ho he => by rw [hs _ ho] at he; cases he
  have hi := uinv_run (uinv_init n) h
  have ho := (origin_run h).callers t th ht
  have hdom := hi.dom t th ht
  have hth : s.step cfg (.thread t) = s.thread cfg t := by simp only [Sys.step, hc, Option.isSome_none, Bool.false_eq_true, if_false]
  have hstep : s.thread cfg t = none := by rw [← hth]; exact hs _ trivial
  have held : s.mutex.isSome = true → ∃ u, s.mutex = some u := fun e => by cases hm : s.mutex with
    | none => rw [hm] at e; cases e
    | some u => exact ⟨u, rfl⟩
  cases hpc : th.pc with
  | ret r => exact .returned hpc
  | start =>
    cases hm : s.mutex with
    | some u => exact .lock (.inl hpc) hm
    | none =>
      exfalso
      unfold Sys.thread at hstep
      rw [ht] at hstep
      dsimp only at hstep
      rw [hpc] at hstep
      dsimp only at hstep
      cases hcall : th.call with
      | unsubscribe i o =>
        obtain ⟨b, hb⟩ := hdom.sub i o hcall
        rw [hcall] at hstep
        simp only [Sys.begin, hb] at hstep
        split at hstep
        · split at hstep <;> cases hstep
        · cases hstep
      | frame f =>
        rw [hcall] at hstep
        simp only [Sys.begin, Sys.frameEnter, hm, Option.isSome_none, Bool.false_eq_true, if_false] at hstep
        repeat' split at hstep
        all_goals cases hstep
      | _ =>
        rw [hcall] at hstep
        simp only [Sys.begin, hm, Option.isSome_none, Bool.false_eq_true, if_false] at hstep
        repeat' split at hstep
        all_goals cases hstep
  | lock f =>
    cases hm : s.mutex with
    | some u => exact .lock (.inr ⟨f, hpc⟩) hm
    | none =>
      exfalso
      unfold Sys.thread at hstep
      rw [ht] at hstep
      dsimp only at hstep
      rw [hpc] at hstep
      simp only [Sys.frameEnter, hm, Option.isSome_none, Bool.false_eq_true, if_false] at hstep
      repeat' split at hstep
      all_goals cases hstep
  | push r =>
    by_cases hf : cfg.writeCap ≤ s.writeCh.length
    · exact .full hpc hf
    · exfalso
      have hr := (ho.push r hpc).1
      unfold Sys.thread at hstep
      rw [ht] at hstep
      dsimp only at hstep
      rw [hpc] at hstep
      simp only [Sys.push] at hstep
      split at hstep
      · cases hstep
      rw [if_pos (by omega)] at hstep
      unfold ReqOf at hr
      cases hcall : th.call with
      | subscribe d a o =>
        rw [hcall] at hr hstep
        obtain ⟨m, _, _, _, _, _, h1, _⟩ := hr
        rw [h1] at hstep
        cases hstep
      | disconnect =>
        rw [hcall] at hr hstep
        rcases hr with ⟨h1, ⟨h2, h3⟩ | ⟨m, c, h2, _⟩⟩
        · obtain ⟨x, h1⟩ := h1
          rw [h1] at h3
          cases h3
        · rw [h2] at hstep; cases hstep
      | mustDisconnect =>
        rw [hcall] at hr hstep
        exact hr.1
      | _ =>
        rw [hcall] at hr hstep
        cases hch : r.chan <;> rw [hch] at hstep <;> cases hstep
  | wait m =>
    refine .answer hpc ?_
    cases hcl : s.chanClosed m with
    | false => rfl
    | true =>
      exfalso
      unfold Sys.thread at hstep
      rw [ht] at hstep
      dsimp only at hstep
      rw [hpc] at hstep
      simp only [Sys.waitClosed, hcl, if_true] at hstep
      split at hstep <;> cases hstep
  | _ =>
    have hmid : th.pc.mid = true := by rw [hpc]; rfl
    obtain ⟨i, o, hcall⟩ := sound_run (sound_init n) h t th ht (.inl hmid)
    obtain ⟨b, hb⟩ := hdom.sub i o hcall
    have hun : s.unsub cfg t th i b = none := by rw [← step_mid (cfg := cfg) hc ht hcall hb hmid]; exact hs _ trivial
    have hwon : s.won t = some (i, th.pc, th.helper) := by
      simp only [Sys.won, ht, Option.bind_some, Thread.won, hcall, hpc]
      simp
    have hok := hi.held t i _ _ b hwon hb
    obtain ⟨hbuf, hrl⟩ := rest_sub h hc hs hb
    have hlock := hok.lock
    have hhelp : s.helper t = none := by
      have := hs (.helper t) trivial
      rwa [step_helper hc] at this
    unfold Sys.unsub at hun
    rw [hpc] at hun hlock
    simp only at hun
    first
    | (-- asleep
       split at hun
       · cases hun
       · rename_i hk
         exact .broadcast hcall hb (.inl hpc) (Nat.le_of_not_lt hk))
    | (-- select
       unfold Sys.helper at hhelp
       rw [ht] at hhelp
       simp only [hcall, hb] at hhelp
       cases hh : th.helper with
       | none => exact (hok.started _ _ rfl (by rw [hpc]; rfl) hh).elim
       | done => rw [hh] at hun; simp at hun
       | start => rw [hh] at hhelp; simp only at hhelp; split at hhelp <;> cases hhelp
       | asleep k =>
         rw [hh] at hhelp; simp only at hhelp
         split at hhelp
         · cases hhelp
         · rename_i hk
           exact .broadcast hcall hb (.inr ⟨hpc, hh⟩) (Nat.le_of_not_lt hk)
       | relock =>
         rw [hh] at hlock hhelp
         have : b.locked = false := hlock
         simp [this] at hhelp)
    | (-- the others can go on
       exfalso
       have hlock' : b.locked = false := hlock
       rw [hlock'] at hun
       simp at hun
       done)
    | (exfalso
       repeat' split at hun
       all_goals first
         | (cases hun; done)
         | (rename_i hx; rw [hbuf] at hx; exact hx (by decide))
         | (-- `closeChannel`
            rename_i hx
            have hn : ∀ p, th.pc = .closing p → closeStep b p ≠ .blocked := by
              intro p hp
              by_cases hin : p.inside = true
              · exact close_inside hin hbuf
              · have hat : b.rl.at? = none := by rcases hrl with ⟨e, _⟩ | e <;> rw [e] <;> rfl
                have hw : wonAt (some (th.pc, th.helper)) = none := by rw [hp]; unfold wonAt; simp only [hin, Bool.false_eq_true, if_false]
                have ho : OnceOk b none := by
                  rcases hok.once with ⟨_, e⟩ | ⟨_, e⟩
                  · rwa [hw] at e
                  · rwa [hat] at e
                intro hbl
                unfold OnceOk at ho
                cases p <;> simp [ClosePc.inside] at hin
                unfold closeStep at hbl
                dsimp only at hbl
                cases hon : b.once <;> rw [hon] at ho hbl
                · rename_i m; cases m <;> simp at hbl
                · exact ho
                · simp at hbl
            exact hn _ hpc hx))

end

/-- **C75** (2). Where the client stops by itself. Each subscription's `readLoop` waits for a frame or has returned, and the program has got all that was on `C`. Each call has returned, or waits for the lock, for room in `writeCh`, for the answer to its request, or, in `Unsubscribe`, for a broadcast.
`processLoop` waits for the network and for callers, or has returned, or has met with one of the two faults of `C26` and `C27`. For programs that ask for no receipt in SUBSCRIBE, as in `C26_send_partial`. -/
theorem C75_rest (cfg : Cfg) (n : Nat) (es : List Ev) (s : Sys) (h : (Sys.init n).run cfg es = some s) (hc : s.crashed = none) (hs : Spec.Still cfg s)
    (hd : ∀ t r, .accepted t r ∈ s.trace → r.frame.command = Cmd.subscribe → r.frame.header.contains Hdr.receipt = none) :
    (∀ (i : Nat) (b : Sub), s.subs[i]? = some b → Spec.SubRest s b) ∧
    (∀ (t : Nat) (th : Thread), s.threads[t]? = some th → Spec.CallRest cfg s th) ∧
    Spec.LoopRest s :=
  ⟨fun _ _ hb => rest_sub h hc hs hb, fun _ _ ht => rest_call h hc hs ht, rest_loop h hc hs hd⟩

/-- **C75** (3). Where the client stops with `processLoop` at its `select`, all requests ever accepted have been written, and all frames read have been dealt with. No call waits for another of the program's calls but one that itself waits for its answer. -/
theorem C75_served (cfg : Cfg) (n : Nat) (es : List Ev) (s : Sys) (h : (Sys.init n).run cfg es = some s) (hc : s.crashed = none) (hs : Spec.Still cfg s)
    (hl : s.loop = .select) (hw : 0 < cfg.writeCap) :
    Spec.written s = (Spec.handedOver s).filterMap (fun r => Spec.wire r.frame) ∧ s.readCh = [] ∧
    ∀ (t : Nat) (th : Thread), s.threads[t]? = some th →
      (∃ r, th.pc = .ret r) ∨
      (∃ m, th.pc = .wait m ∧ s.chanClosed m = false) ∨
      (∃ u thu m, s.mutex = some u ∧ s.threads[u]? = some thu ∧ thu.pc = .wait m ∧ s.chanClosed m = false) ∨
      (∃ (i k : Nat) (o : List SubOpt) (b : Sub), th.call = .unsubscribe i o ∧ s.subs[i]? = some b ∧ b.notified ≤ k ∧
        (th.pc = .asleep k ∨ (th.pc = .select ∧ th.helper = .asleep k))) := by
  have no : ∀ {e s'}, Spec.Prompt e → s.step cfg e = some s' → False := fun ho he => by rw [hs _ ho] at he; cases he
  obtain ⟨h1, h2⟩ := C26_select_partial (cfg := cfg) hc hl
  have h1 : ¬(s.readCh ≠ [] ∨ s.readDone = true) := fun x => by
    obtain ⟨o, s', hx⟩ := h1 x; exact no (e := .loopRead o) trivial hx
  have h2 : ¬(s.writeCh ≠ [] ∨ s.writeClosed = true) := fun x => by
    obtain ⟨o, s', hx⟩ := h2 x; exact no (e := .loopWrite (!s.netClosed) o) trivial hx
  simp only [not_or, Classical.not_not, Bool.not_eq_true] at h1 h2
  refine ⟨?_, h1.1, ?_⟩
  · obtain ⟨out, h3, h4⟩ := C21_all h (by rw [hl]; intro f l e; cases e) (by rw [hl]; intro e; cases e)
    rw [h2.1, List.append_nil] at h3
    rw [h3, h4]
  intro t th ht
  cases rest_call h hc hs ht with
  | returned hp => exact .inl ⟨_, hp⟩
  | answer hp hcl => exact .inr (.inl ⟨_, hp, hcl⟩)
  | full hp hf => rw [h2.1] at hf; simp at hf; omega
  | broadcast hcall hb hp hk => exact .inr (.inr (.inr ⟨_, _, _, _, hcall, hb, hk, hp⟩))
  | @lock u hp hm =>
    obtain ⟨thu, hu, hh⟩ := (lock_run (lock_init n) h).held u hm
    refine .inr (.inr (.inl ?_))
    cases rest_call h hc hs hu with
    | answer hp hcl => exact ⟨u, thu, _, hm, hu, hp, hcl⟩
    | full hp hf => rw [h2.1] at hf; simp at hf; omega
    | returned hp => simp [Thread.holds, hp] at hh
    | lock hp => rcases hp with e | ⟨f, e⟩ <;> simp [Thread.holds, e] at hh
    | broadcast hcall _ hp => rcases hp with e | ⟨e, _⟩ <;> simp [Thread.holds, e] at hh

/-! ## Examples -/

namespace Ex

/-- `Send` has given up, a subscription waits for messages, another call waits for its receipt. -/
def endGaveUp : Sys := ((Sys.init 0).run cfgReceipt gaveUp).getD (Sys.init 0)
theorem gaveUp_run : (Sys.init 0).run cfgReceipt gaveUp = some endGaveUp := by decide +kernel

theorem gaveUp_still : Spec.Still cfgReceipt endGaveUp := by
  intro e he
  have h0 : endGaveUp.crashed = none ∧ endGaveUp.loop = .select ∧ endGaveUp.readCh = [] ∧ endGaveUp.readDone = false ∧
    endGaveUp.writeCh = [] ∧ endGaveUp.writeClosed = false := by decide +kernel
  have ht : endGaveUp.threads.length = 3 := by decide +kernel
  have hb : endGaveUp.subs.length = 1 := by decide +kernel
  obtain ⟨hc, hl, hr, hd, hw, hx⟩ := h0
  cases e with
  | thread t =>
    match t with
    | 0 | 1 | 2 => decide +kernel
    | t + 3 => simp [Sys.step, hc, Sys.thread, List.getElem?_eq_none (l := endGaveUp.threads) (i := t + 3) (by omega)]
  | helper t =>
    match t with
    | 0 | 1 | 2 => decide +kernel
    | t + 3 => simp [Sys.step, hc, Sys.helper, List.getElem?_eq_none (l := endGaveUp.threads) (i := t + 3) (by omega)]
  | sub i =>
    match i with
    | 0 => decide +kernel
    | i + 1 => simp [Sys.step, hc, Sys.subStep, List.getElem?_eq_none (l := endGaveUp.subs) (i := i + 1) (by omega)]
  | take i =>
    match i with
    | 0 => decide +kernel
    | i + 1 => simp [Sys.step, hc, List.getElem?_eq_none (l := endGaveUp.subs) (i := i + 1) (by omega)]
  | loopRead o => simp [Sys.step, hc, hl, Sys.loopRead, hr, hd]
  | loopWrite k o => simp [Sys.step, hc, hl, Sys.loopWrite, hw, hx]
  | deliver k => simp [Sys.step, hc, hl, Sys.deliver]
  | finish => simp [Sys.step, hc, hl, Sys.finish]
  | _ => exact he.elim

/-- Everything the client has to do by itself after two frames have come in, in some order. -/
def afterNet : List Ev := [.loopRead [], .deliver true, .loopRead [], .deliver true, .sub 0, .take 0]

end Ex

-- The hypotheses of `C75_rest` and `C75_served` in `Ex.endGaveUp`, and what is there: one call waits for its answer.
example : Ex.endGaveUp.crashed = none ∧ Ex.endGaveUp.loop = .select ∧ Ex.endGaveUp.threads.map (·.pc) = [.ret .receiptTimeout, .ret .ok, .wait 2] := by
  decide +kernel
example : (Ex.endGaveUp.trace.all fun o => match o with
    | .accepted _ r => !decide (r.frame.command = Cmd.subscribe) || (r.frame.header.contains Hdr.receipt).isNone
    | _ => true) = true := by decide +kernel
example : (Spec.written Ex.endGaveUp).map (·.command) = [Cmd.send, Cmd.subscribe, Cmd.send] := by decide +kernel
-- From a state in which there is something to do: what the client does by itself is an execution of its own steps, each of them possible.
example : ((Sys.init 0).run Ex.cfgReceipt (Ex.gaveUp ++ [.net (some (Ex.receiptFrame b!"3")), .net (some (Ex.message b!"2" b!"a"))] ++ Ex.afterNet)).map
    (fun s => (s.crashed, s.loop, s.readCh.length, s.threads.map (·.pc), s.subs.map (·.got.length))) =
    some (none, .select, 0, [.ret .receiptTimeout, .ret .ok, .ret .ok], [1]) := by decide +kernel
example : ∀ e ∈ Ex.afterNet, Spec.Prompt e := by
  intro e he
  simp only [Ex.afterNet, List.mem_cons, List.not_mem_nil, or_false] at he
  rcases he with rfl | rfl | rfl | rfl | rfl | rfl <;> trivial

end Stomp.Client
