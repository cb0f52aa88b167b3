import Verif.Spec.Bodies
import Verif.Proofs.Client.Serve
import Verif.Proofs.Client.NoRead
import Verif.Proofs.Client.Told
import Verif.Proofs.Client.Library
/-! # The frames on the wire and the arrays of the program -/
namespace Stomp.Client
open Stomp

/-! ## What a step adds to the log -/

/-- The new part of the log, as far as `writeCh` and the wire are concerned. -/
inductive LogStep (s : Sys) (l : List Obs) : Prop
  | quiet (h : l.all Obs.quiet = true)
  | put (t : Nat) (r : Req) (th : Thread) (q : List Obs) (e : l = .accepted t r :: q) (hq : q.all Obs.quiet = true)
      (ht : s.threads[t]? = some th) (hpc : th.pc = .push r)
  | took (r : Req) (rest : List Req) (q : List Obs) (e : l = .taken r :: q) (hq : q.all Obs.quiet = true) (hw : s.writeCh = r :: rest)
  | wrote (r : Req) (rest : List Req) (f : Frame) (e : l = [.taken r, .sent f]) (hw : s.writeCh = r :: rest)
      (hf : Spec.wire r.frame = some f)

theorem frameDone_log (s : Sys) (t : Nat) (c : Call) (r : Res) : ∃ l, (s.frameDone t c r).trace = s.trace ++ l ∧ l.all Obs.quiet = true := by
  obtain ⟨pc, _, _, _, _, ⟨_, _, htr⟩ | ⟨_, _, htr⟩⟩ := frameDone_spec s t c r
  · exact ⟨_, htr, rfl⟩
  · exact ⟨[], by simpa using htr, rfl⟩

theorem handOver_log {s s' : Sys} {n : Nat} {f : Frame} {b : Bool} (h : s.handOver n f b = some s') :
    ∃ l, s'.trace = s.trace ++ l ∧ l.all Obs.quiet = true := by
  cases handOver_cases h with
  | send => exact ⟨_, rfl, rfl⟩
  | discOk => exact ⟨_, rfl, rfl⟩
  | discErr => exact ⟨_, rfl, rfl⟩
  | frame => exact frameDone_log ..
  | sub => exact ⟨[], (List.append_nil _).symm, rfl⟩

theorem logStep_step {cfg : Cfg} {s s' : Sys} (h : Step cfg s s') : ∃ l, s'.trace = s.trace ++ l ∧ LogStep s l := by
  have quiet : ∀ {s1 : Sys}, (∃ l, s1.trace = s.trace ++ l ∧ l.all Obs.quiet = true) → ∃ l, s1.trace = s.trace ++ l ∧ LogStep s l :=
    fun ⟨l, e, hq⟩ => ⟨l, e, .quiet hq⟩
  cases h with
  | @frameClosed t th => exact quiet (frameDone_log s.closeNet t th.call .closedUnexpectedly)
  | pushWait ht hpc => exact ⟨_, rfl, .put _ _ _ [] rfl rfl ht hpc⟩
  | @pushRet t th r d c b o ht hpc =>
    exact ⟨[.accepted t r, .ret t .ok], List.append_assoc _ [Obs.accepted t r] [Obs.ret t .ok], .put _ _ _ _ rfl rfl ht hpc⟩
  | @pushSub t th r n d a o ht hpc =>
    have := handOut_spec { s with writeCh := s.writeCh ++ [r], trace := s.trace ++ [.accepted t r] } n
    refine ⟨[.accepted t r, .ret t .ok], ?_, .put _ _ _ _ rfl rfl ht hpc⟩
    exact (congrArg (· ++ [Obs.ret t .ok]) this.2.1).trans (by simp)
  | pushFrameWait ht hpc => exact ⟨_, rfl, .put _ _ _ [] rfl rfl ht hpc⟩
  | @pushFrameRet t th r ht hpc =>
    obtain ⟨l, e, hq⟩ := frameDone_log (Sys.unlock { s with writeCh := s.writeCh ++ [r], trace := s.trace ++ [.accepted t r] }) t th.call .ok
    refine ⟨.accepted t r :: l, ?_, .put _ _ _ _ rfl hq ht hpc⟩
    rw [e]
    simp [Sys.unlock]
  | waitClosed => exact quiet (frameDone_log ..)
  | frameTimeout => exact quiet (frameDone_log ..)
  | unsub ht hcall hb hpc h =>
    obtain ⟨hcore, ⟨_, h2, _⟩ | ⟨_, pc, hp, _, _, ⟨_, h2⟩ | ⟨r, _, h2⟩⟩⟩ := unsub_spec h
    · exact quiet ⟨[], by simpa using h2, rfl⟩
    · exact quiet ⟨[], by simpa using h2, rfl⟩
    · exact quiet ⟨_, h2, rfl⟩
  | helper ht hcall hb h =>
    obtain ⟨hcore, h2, _⟩ := helper_spec h
    exact quiet ⟨[], by simpa using h2, rfl⟩
  | sub h =>
    obtain ⟨hcore, h2, _⟩ := subStep_spec h
    exact quiet ⟨[], by simpa using h2, rfl⟩
  | @takeQuiet r rest hl hw ho => exact ⟨_, takeReq_trace s r rest, .took r rest [] rfl rfl hw⟩
  | @takeSent r rest f hl hw ho =>
    rw [handleWrite_wire] at ho
    refine ⟨[.taken r, .sent f], ?_, .wrote r rest f rfl hw ho⟩
    simp only [Sys.log, takeReq_trace, List.append_assoc, List.cons_append, List.nil_append]
  | @takeFail r rest f order hl hw ho hp =>
    refine ⟨[.taken r, .failed f], ?_, .took r rest [.failed f] rfl rfl hw⟩
    simp only [Sys.log, takeReq_trace, List.append_assoc, List.cons_append, List.nil_append]
  | giveReceipt hl hc h1 =>
    obtain ⟨l, e, hq⟩ := handOver_log h1
    exact quiet ⟨l, by rw [closeChan_trace]; exact e, hq⟩
  | giveMessage hl hc h1 =>
    obtain ⟨l, e, hq⟩ := handOver_log h1
    exact quiet ⟨l, e, hq⟩
  | giveErr hl hc h1 =>
    obtain ⟨l, e, hq⟩ := handOver_log h1
    exact quiet ⟨l, by rw [closeChan_trace]; exact e, hq⟩
  | giveFail hl hc h1 =>
    obtain ⟨l, e, hq⟩ := handOver_log h1
    exact quiet ⟨l, e, hq⟩
  | _ =>
    first
      | exact quiet ⟨[], (List.append_nil _).symm, rfl⟩
      | exact quiet ⟨_, rfl, rfl⟩

/-! ## Which callers have still to hand over their frame -/

/-- The call has not handed over its frame. -/
def Thread.early (th : Thread) : Prop := th.pc = .start ∨ (∃ f, th.pc = .lock f) ∨ ∃ r, th.pc = .push r

theorem early_past {th : Thread} (h : th.pc.past = true) : ¬ th.early := by
  rintro (h1 | ⟨f, h1⟩ | ⟨r, h1⟩) <;> rw [h1] at h <;> cases h

/-- A caller that has still to hand over its frame had so before, or is new. -/
theorem early_step {cfg : Cfg} {s s' : Sys} (h : Step cfg s s') (hlt : s'.threads.length = s.threads.length) {t : Nat} {th' : Thread}
    (ht' : s'.threads[t]? = some th') (he : th'.early) : ∃ th, s.threads[t]? = some th ∧ th.call = th'.call ∧ th.early := by
  have mod : ∀ {i : Nat} {g : Thread → Thread}, s'.threads = s.threads.modify i g → (∀ b, (g b).call = b.call) →
      (∀ th, s.threads[i]? = some th → (g th).early → th.early) → ∃ th, s.threads[t]? = some th ∧ th.call = th'.call ∧ th.early := by
    intro i g e hc hg
    rw [e, List.getElem?_modify] at ht'
    cases hx : s.threads[t]? with
    | none => rw [hx] at ht'; simp at ht'
    | some th =>
      rw [hx] at ht'
      by_cases hi : i = t
      · subst hi
        simp only [if_true, Option.map_eq_map, Option.map_some, Option.some.injEq] at ht'
        subst ht'
        exact ⟨th, rfl, (hc th).symm, hg th hx he⟩
      · simp only [hi, if_false, Option.map_eq_map, Option.map_some, Option.some.injEq] at ht'
        subst ht'
        exact ⟨th, rfl, rfl, he⟩
  have acq : ∀ {th : Thread} {f : Frame} {last : Nat}, Acquire s th f last → th.early := by
    intro th f last ha
    cases ha with
    | send h => exact .inl h
    | frame h => exact .inl h
    | lock h => exact .inr (.inl ⟨_, h⟩)
    | disconnect h => exact .inl h
  cases eff_step h with
  | same h1 => rw [h1] at ht'; exact ⟨th', ht', rfl, he⟩
  | call c hl h1 => rw [h1] at hlt; simp at hlt
  | past ht h1 hg hp =>
    refine mod h1 hg fun th hx hy => ?_
    rw [ht] at hx; cases hx
    exact absurd hy (early_past hp)
  | helper h1 hg => exact mod h1 (fun b => (hg b).1) fun th hx hy => by unfold Thread.early at hy ⊢; rw [(hg th).2] at hy; exact hy
  | acquire ht hm ha hr h1 => exact mod h1 (fun _ => rfl) fun th hx _ => by rw [ht] at hx; cases hx; exact acq ha
  | acquireBare ht hm ha hr h1 => exact mod h1 (fun _ => rfl) fun th hx _ => by rw [ht] at hx; cases hx; exact acq ha
  | subscribe ht hm hpc hcall hf h1 => exact mod h1 (fun _ => rfl) fun th hx _ => by rw [ht] at hx; cases hx; exact .inl hpc
  | lock ht hpc hcall hb hf h1 => exact mod h1 (fun _ => rfl) fun th hx _ => by rw [ht] at hx; cases hx; exact .inl hpc
  | accept ht hpc h1 => exact mod h1 (fun _ => rfl) fun th hx _ => by rw [ht] at hx; cases hx; exact .inr (.inr ⟨_, hpc⟩)

/-! ## The body of a frame is that of its call -/

theorem applySendOpts_body {last last' : Nat} {f g : Frame} {o : List SendOpt}
    (h : applySendOpts last f o = some (last', g)) : g.body = f.body := by
  induction o generalizing last f with
  | nil => cases h; rfl
  | cons a o ih =>
    unfold applySendOpts at h
    split at h
    · cases h
    rename_i last1 f1 h1
    rw [ih h]
    unfold applySendOpt at h1
    repeat' split at h1
    all_goals first
      | contradiction
      | (cases h1; rfl)

theorem createSendFrame_body {last last' : Nat} {d c b : Bytes} {o : List SendOpt} {f : Frame}
    (h : createSendFrame last d c b o = some (last', f)) : f.body = b := by
  unfold createSendFrame at h
  rw [applySendOpts_body h]
  dsimp only
  try (split <;> rfl)

theorem wire_body {f g : Frame} (h : Spec.wire f = some g) : g.body = f.body := by
  unfold Spec.wire at h
  repeat' split at h
  all_goals first
    | contradiction
    | (cases h; rfl)

theorem reqOf_body {s : Sys} {t : Nat} {call : Call} {r : Req} {b : Bytes} (h : ReqOf s t call r) (hb : call.body = some b) :
    r.frame.body = b := by
  cases call with
  | send d c b' o =>
    cases hb
    obtain ⟨⟨last, last', hf⟩, _⟩ := h
    exact createSendFrame_body hf
  | frame f =>
    obtain ⟨⟨hf, _⟩, _⟩ := h
    rw [hf]
    simp only [Call.body] at hb
    split at hb
    · cases hb; rfl
    · cases hb
  | _ => cases hb

/-! ## The invariant -/

/-- The calls that put the requests on `writeCh` there. -/
def queued (s : Sys) : List Nat := ((acceptedIn s.trace).drop (takenIn s.trace).length).map (·.1)

structure BodyInv (x : BSys) : Prop where
  full : FullInv x.sys
  lens : x.uses.length = x.sys.threads.length
  owners : x.owners = queued x.sys
  given : ∀ (t k : Nat) (th : Thread), x.uses[t]? = some (some k) → x.sys.threads[t]? = some th →
    ∃ b a, th.call.body = some b ∧ x.bufs[k]? = some a ∧ a.length = b.length

theorem acceptedIn_append' (a b : List Obs) : acceptedIn (a ++ b) = acceptedIn a ++ acceptedIn b := List.filterMap_append

theorem quiet_lists {l : List Obs} (h : l.all Obs.quiet = true) : acceptedIn l = [] ∧ takenIn l = [] ∧ sentIn l = [] := by
  induction l with
  | nil => exact ⟨rfl, rfl, rfl⟩
  | cons o l ih =>
    simp only [List.all_cons, Bool.and_eq_true] at h
    obtain ⟨a, b, c⟩ := ih h.2
    cases o <;> simp_all [Obs.quiet, acceptedIn, takenIn, sentIn]

theorem observe_quiet {x : BSys} {l : List Obs} (h : l.all Obs.quiet = true) : l.foldl BSys.observe x = x := by
  induction l generalizing x with
  | nil => rfl
  | cons o l ih =>
    simp only [List.all_cons, Bool.and_eq_true] at h
    rw [List.foldl_cons, show x.observe o = x by cases o <;> first | rfl | cases h.1]
    exact ih h.2

theorem queued_quiet {s s' : Sys} {l : List Obs} (e : s'.trace = s.trace ++ l) (h : l.all Obs.quiet = true) : queued s' = queued s := by
  obtain ⟨a, b, _⟩ := quiet_lists h
  unfold queued
  rw [e, acceptedIn_append', takenIn_append, a, b, List.append_nil, List.append_nil]

/-- The requests on `writeCh` are the accepted ones that were not taken. -/
theorem accepted_rest {s : Sys} (ho : OrderInv s) :
    ((acceptedIn s.trace).drop (takenIn s.trace).length).map (·.2) = s.writeCh ∧ (takenIn s.trace).length ≤ (acceptedIn s.trace).length := by
  have h := ho.queue
  rw [handedIn_acc] at h
  have hl := congrArg List.length h
  rw [List.length_map, List.length_append] at hl
  refine ⟨?_, by omega⟩
  rw [List.map_drop, h, List.drop_left]

theorem queued_mem {s : Sys} {t : Nat} (h : t ∈ queued s) : ∃ r, (t, r) ∈ acceptedIn s.trace := by
  obtain ⟨⟨t', r⟩, hm, rfl⟩ := List.mem_map.1 h
  exact ⟨r, List.mem_of_mem_drop hm⟩

/-- The head of `writeCh` and the call that put it there. -/
theorem queued_head {s : Sys} (hi : FullInv s) {r : Req} {rest : List Req} (hw : s.writeCh = r :: rest) :
    ∃ t q, queued s = t :: q ∧ (t, r) ∈ acceptedIn s.trace ∧
      q = ((acceptedIn s.trace).drop ((takenIn s.trace).length + 1)).map (·.1) ∧ (takenIn s.trace).length < (acceptedIn s.trace).length := by
  obtain ⟨h1, h2⟩ := accepted_rest hi.all.order
  rw [hw] at h1
  unfold queued
  cases hx : (acceptedIn s.trace).drop (takenIn s.trace).length with
  | nil => rw [hx] at h1; cases h1
  | cons a q =>
    rw [hx] at h1
    simp only [List.map_cons, List.cons.injEq] at h1
    refine ⟨a.1, q.map (·.1), rfl, ?_, ?_, ?_⟩
    · rw [← h1.1]
      exact List.mem_of_mem_drop (i := (takenIn s.trace).length) (by rw [hx]; exact List.mem_cons_self ..)
    · rw [← List.drop_drop, hx]; rfl
    · have := congrArg List.length hx
      simp at this
      omega

/-- What a step of the client does to the rest. -/
theorem observe_step {cfg : Cfg} {x : BSys} {s' : Sys} {e : Ev} (hi : BodyInv x) (h : x.sys.step cfg e = some s') :
    ∃ l, s'.trace = x.sys.trace ++ l ∧ (l.foldl BSys.observe { x with sys := s' }).sys = s' ∧
      (l.foldl BSys.observe { x with sys := s' }).uses = x.uses ∧ (l.foldl BSys.observe { x with sys := s' }).bufs = x.bufs ∧
      (l.foldl BSys.observe { x with sys := s' }).owners = queued s' ∧
      (∀ t ∈ queued s', t ∈ queued x.sys ∨ ∃ th, x.sys.threads[t]? = some th ∧ th.early) ∧
      (((l.foldl BSys.observe { x with sys := s' }).wire = x.wire ∧ Spec.written s' = Spec.written x.sys) ∨
        ∃ t r f, t ∈ queued x.sys ∧ (t, r) ∈ acceptedIn x.sys.trace ∧ Spec.wire r.frame = some f ∧
          (l.foldl BSys.observe { x with sys := s' }).wire = x.wire ++ [{ x with now := some t }.load f] ∧
          Spec.written s' = Spec.written x.sys ++ [f]) := by
  have hsent : ∀ s : Sys, Spec.written s = sentIn s.trace := fun _ => rfl
  obtain ⟨l, e', hf⟩ := logStep_step (step_cases h).2
  refine ⟨l, e', ?_⟩
  cases hf with
  | quiet hq =>
    rw [observe_quiet hq, queued_quiet e' hq]
    refine ⟨rfl, rfl, rfl, hi.owners, fun t h => .inl h, .inl ⟨rfl, ?_⟩⟩
    rw [hsent, hsent, e', sentIn_append, (quiet_lists hq).2.2, List.append_nil]
  | put t r th q e1 hq ht hpc =>
    subst e1
    have hqd : queued s' = queued x.sys ++ [t] := by
      unfold queued
      have ha : acceptedIn s'.trace = acceptedIn x.sys.trace ++ [(t, r)] := by
        rw [e', acceptedIn_append']
        show _ ++ (t, r) :: acceptedIn q = _
        rw [(quiet_lists hq).1]
      have hb : takenIn s'.trace = takenIn x.sys.trace := by
        rw [e', takenIn_append]
        show _ ++ takenIn q = _
        rw [(quiet_lists hq).2.1, List.append_nil]
      rw [ha, hb, List.drop_append_of_le_length (accepted_rest hi.full.all.order).2, List.map_append]
      rfl
    rw [List.foldl_cons, observe_quiet hq, hqd]
    refine ⟨rfl, rfl, rfl, ?_, fun t' h => ?_, .inl ⟨rfl, ?_⟩⟩
    · show x.owners ++ [t] = _
      rw [hi.owners]
    · rcases List.mem_append.1 h with h | h
      · exact .inl h
      · rw [List.mem_singleton.1 h]
        exact .inr ⟨th, ht, .inr (.inr ⟨r, hpc⟩)⟩
    · rw [hsent, hsent, e', sentIn_append]
      show _ ++ sentIn q = _
      rw [(quiet_lists hq).2.2, List.append_nil]
  | took r rest q e1 hq hw =>
    subst e1
    obtain ⟨t, q', h1, h2, h3, h4⟩ := queued_head hi.full hw
    have hqd : queued s' = q' := by
      unfold queued
      have ha : acceptedIn s'.trace = acceptedIn x.sys.trace := by
        rw [e', acceptedIn_append']
        show _ ++ acceptedIn q = _
        rw [(quiet_lists hq).1, List.append_nil]
      have hb : takenIn s'.trace = takenIn x.sys.trace ++ [r] := by
        rw [e', takenIn_append]
        show _ ++ r :: takenIn q = _
        rw [(quiet_lists hq).2.1]
      rw [ha, hb, List.length_append, h3]
      rfl
    rw [List.foldl_cons, observe_quiet hq, hqd]
    refine ⟨rfl, rfl, rfl, ?_, fun t' h => .inl ?_, .inl ⟨rfl, ?_⟩⟩
    · show x.owners.tail = _
      rw [hi.owners, h1]; rfl
    · rw [h1]; exact List.mem_cons_of_mem _ h
    · rw [hsent, hsent, e', sentIn_append]
      show _ ++ sentIn q = _
      rw [(quiet_lists hq).2.2, List.append_nil]
  | wrote r rest f e1 hw hf =>
    subst e1
    obtain ⟨t, q', h1, h2, h3, h4⟩ := queued_head hi.full hw
    have hqd : queued s' = q' := by
      unfold queued
      have ha : acceptedIn s'.trace = acceptedIn x.sys.trace := by
        rw [e', acceptedIn_append']
        exact List.append_nil _
      have hb : takenIn s'.trace = takenIn x.sys.trace ++ [r] := by
        rw [e', takenIn_append]; rfl
      rw [ha, hb, List.length_append, h3]
      rfl
    rw [hqd]
    refine ⟨rfl, rfl, rfl, ?_, fun t' h => .inl ?_, .inr ⟨t, r, f, ?_, h2, hf, ?_, ?_⟩⟩
    · show x.owners.tail = _
      rw [hi.owners, h1]; rfl
    · rw [h1]; exact List.mem_cons_of_mem _ h
    · rw [h1]; exact List.mem_cons_self ..
    · show x.wire ++ [BSys.load { x with sys := s', owners := x.owners.tail, now := x.owners.head? } f] = _
      rw [hi.owners, h1]
      rfl
    · rw [hsent, hsent, e', sentIn_append]; rfl

/-- The arrays of the bodies that have still to be read are as they were at the call. -/
structure KeptInv (x : BSys) : Prop where
  kept : ∀ (t k : Nat) (th : Thread), x.uses[t]? = some (some k) → x.sys.threads[t]? = some th → Spec.Unwritten x t →
    th.call.body.isSome = true ∧ x.bufs[k]? = th.call.body
  wire : x.wire = Spec.written x.sys

theorem body_sys {cfg : Cfg} {x : BSys} {s' : Sys} {e : Ev} (hi : BodyInv x) (h : x.sys.step cfg e = some s') (hc : ∀ c, e ≠ .call c) :
    BodyInv ((s'.trace.drop x.sys.trace.length).foldl BSys.observe { x with sys := s' }) := by
  obtain ⟨l, e', h1, h2, h3, h4, _⟩ := observe_step hi h
  rw [e', List.drop_left]
  constructor
  · rw [h1]; exact full_step hi.full h
  · rw [h1, h2, len_step h hc]; exact hi.lens
  · rw [h1]; exact h4
  · intro t k th hu ht
    rw [h2] at hu
    rw [h3]
    rw [h1] at ht
    have hlt : t < x.sys.threads.length := by rw [← len_step h hc]; exact (List.getElem?_eq_some_iff.1 ht).1
    have h0 : x.sys.threads[t]? = some x.sys.threads[t] := List.getElem?_eq_getElem hlt
    obtain ⟨th', g1, g2⟩ := (ext_step (step_cases h).2).threads t _ h0
    rw [ht] at g1
    cases g1
    rw [g2]
    exact hi.given t k _ hu h0

theorem call_step {cfg : Cfg} {x x' : BSys} {c : Call} {buf : Option Nat} (h : x.step cfg (.call c buf) = some x') :
    x.holds c buf = true ∧ ∃ s', x.sys.step cfg (.call c) = some s' ∧
      s' = { x.sys with threads := x.sys.threads ++ [{ call := c, pc := .start, helper := .none }] } ∧ x' = { x with sys := s', uses := x.uses ++ [buf] } := by
  simp only [BSys.step] at h
  split at h
  · rename_i hb
    obtain ⟨s', hs, rfl⟩ := Option.map_eq_some_iff.1 h
    refine ⟨hb, s', hs, ?_, rfl⟩
    simp only [Sys.step] at hs
    repeat' split at hs
    all_goals first
      | contradiction
      | (cases hs; rfl)
  · cases h

theorem body_step {cfg : Cfg} {x x' : BSys} {e : BEv} (hi : BodyInv x) (h : x.step cfg e = some x') : BodyInv x' := by
  cases e with
  | call c buf =>
    obtain ⟨hbuf, s', hs, hs', rfl⟩ := call_step h
    constructor
    · exact full_step hi.full hs
    · subst hs'
      show (x.uses ++ [buf]).length = (x.sys.threads ++ _).length
      rw [List.length_append, List.length_append, hi.lens]; rfl
    · subst hs'
      exact hi.owners
    · subst hs'
      intro t k th hu ht
      dsimp only at hu ht ⊢
      by_cases hlt : t < x.sys.threads.length
      · rw [List.getElem?_append_left hlt] at ht
        rw [List.getElem?_append_left (by rw [hi.lens]; exact hlt)] at hu
        exact hi.given t k th hu ht
      · have ht1 : t = x.sys.threads.length := by
          have := (List.getElem?_eq_some_iff.1 ht).1
          rw [List.length_append] at this
          simp only [List.length_cons, List.length_nil] at this
          omega
        subst ht1
        rw [← hi.lens] at hu
        rw [List.getElem?_concat_length] at hu ht
        cases hu
        cases ht
        simp only [BSys.holds, Bool.and_eq_true, beq_iff_eq] at hbuf
        obtain ⟨b, hb⟩ := Option.isSome_iff_exists.1 hbuf.1
        exact ⟨b, b, hb, by rw [← hbuf.2, hb], rfl⟩
  | write k b =>
    simp only [BSys.step] at h
    repeat' split at h
    all_goals first
      | contradiction
      | cases h
    rename_i a ha hlen
    refine ⟨hi.full, hi.lens, hi.owners, ?_⟩
    intro t k' th hu ht
    obtain ⟨b', a', h1, h2, h3⟩ := hi.given t k' th hu ht
    dsimp only
    by_cases hk : k = k'
    · subst hk
      rw [ha] at h2
      cases h2
      exact ⟨b', b, h1, List.getElem?_set_self (List.getElem?_eq_some_iff.1 ha).1, by rw [← hlen]; exact h3⟩
    · exact ⟨b', a', h1, by rw [List.getElem?_set_ne hk]; exact h2, h3⟩
  | sys e =>
    cases e with
    | call c => cases h
    | _ =>
      obtain ⟨s', hs, rfl⟩ := Option.map_eq_some_iff.1 h
      exact body_sys hi hs (fun c hc => by cases hc)

theorem kept_sys {cfg : Cfg} {x : BSys} {s' : Sys} {e : Ev} (hi : BodyInv x) (hk : KeptInv x) (h : x.sys.step cfg e = some s') (hc : ∀ c, e ≠ .call c) :
    KeptInv ((s'.trace.drop x.sys.trace.length).foldl BSys.observe { x with sys := s' }) := by
  obtain ⟨l, e', h1, h2, h3, h4, h5, h6⟩ := observe_step hi h
  rw [e', List.drop_left]
  have hlen := len_step h hc
  have hext := ext_step (step_cases h).2
  constructor
  · intro t k th hu ht hw
    rw [h2] at hu
    rw [h3]
    rw [h1] at ht
    have hlt : t < x.sys.threads.length := by rw [← hlen]; exact (List.getElem?_eq_some_iff.1 ht).1
    have h0 : x.sys.threads[t]? = some x.sys.threads[t] := List.getElem?_eq_getElem hlt
    obtain ⟨th', g1, g2⟩ := hext.threads t _ h0
    rw [ht] at g1
    cases g1
    rw [g2]
    refine hk.kept t k _ hu h0 ?_
    rcases hw with hw | ⟨th', hth, hearly⟩
    · rw [h4] at hw
      rcases h5 t hw with hw | ⟨th', hth', he⟩
      · left; rw [hi.owners]; exact hw
      · exact .inr ⟨th', hth', he⟩
    · rw [h1] at hth
      obtain ⟨th0, k1, k2, k3⟩ := early_step (step_cases h).2 hlen hth hearly
      exact .inr ⟨th0, k1, k3⟩
  · rw [h1]
    rcases h6 with ⟨g1, g2⟩ | ⟨t, r, f, g1, g2, g3, g4, g5⟩
    · rw [g1, g2]; exact hk.wire
    · rw [g4, g5, hk.wire]
      congr 2
      obtain ⟨th, ht, hreq⟩ := hi.full.all.origin.acc t r g2
      unfold BSys.load
      dsimp only
      split
      · rename_i k hu
        obtain ⟨hb1, hb2⟩ := hk.kept t k th hu ht (.inl (by rw [hi.owners]; exact g1))
        obtain ⟨b, hb⟩ := Option.isSome_iff_exists.1 hb1
        rw [hb2, hb]
        have := (wire_body g3).trans (reqOf_body hreq hb)
        simp only [Option.getD_some]
        rw [← this]
      · rfl

theorem kept_step {cfg : Cfg} {x x' : BSys} {e : BEv} (hi : BodyInv x) (hk : KeptInv x)
    (hcare : ∀ k b, e = .write k b → ∀ t : Nat, x.uses[t]? = some (some k) → ¬ Spec.Unwritten x t) (h : x.step cfg e = some x') : KeptInv x' := by
  cases e with
  | call c buf =>
    obtain ⟨hbuf, s', hs, hs', rfl⟩ := call_step h
    subst hs'
    refine ⟨?_, hk.wire⟩
    intro t k th hu ht hw
    dsimp only at hu ht ⊢
    by_cases hlt : t < x.sys.threads.length
    · rw [List.getElem?_append_left hlt] at ht
      rw [List.getElem?_append_left (by rw [hi.lens]; exact hlt)] at hu
      refine hk.kept t k th hu ht ?_
      rcases hw with hw | ⟨th', hth, he⟩
      · exact .inl hw
      · dsimp only at hth
        rw [List.getElem?_append_left hlt] at hth
        exact .inr ⟨th', hth, he⟩
    · have ht1 : t = x.sys.threads.length := by
        have := (List.getElem?_eq_some_iff.1 ht).1
        rw [List.length_append] at this
        simp only [List.length_cons, List.length_nil] at this
        omega
      subst ht1
      rw [← hi.lens] at hu
      rw [List.getElem?_concat_length] at hu ht
      cases hu
      cases ht
      simp only [BSys.holds, Bool.and_eq_true, beq_iff_eq] at hbuf
      exact ⟨hbuf.1, hbuf.2.symm⟩
  | write k b =>
    simp only [BSys.step] at h
    repeat' split at h
    all_goals first
      | contradiction
      | cases h
    refine ⟨?_, hk.wire⟩
    intro t k' th hu ht hw
    have hne : k ≠ k' := by
      intro e
      subst e
      exact hcare k b rfl t hu hw
    dsimp only
    rw [List.getElem?_set_ne hne]
    exact hk.kept t k' th hu ht hw
  | sys e =>
    cases e with
    | call c => cases h
    | _ =>
      obtain ⟨s', hs, rfl⟩ := Option.map_eq_some_iff.1 h
      exact kept_sys hi hk hs (fun c hc => by cases hc)

theorem body_init (n : Nat) (bufs : List Bytes) : BodyInv (BSys.init n bufs) :=
  ⟨full_run (cfg := ⟨1, 1, true, true, true, true, true, true⟩) (n := n) (es := []) rfl, rfl, rfl, fun t k th hu => by simp [BSys.init] at hu⟩

theorem kept_init (n : Nat) (bufs : List Bytes) : KeptInv (BSys.init n bufs) :=
  ⟨fun t k th hu => by simp [BSys.init] at hu, rfl⟩

theorem body_run {cfg : Cfg} {x x' : BSys} {es : List BEv} (hi : BodyInv x) (h : x.run cfg es = some x') : BodyInv x' := by
  induction es generalizing x with
  | nil => cases h; exact hi
  | cons e es ih =>
    obtain ⟨x1, h1, h2⟩ := Option.bind_eq_some_iff.1 h
    exact ih (body_step hi h1) h2

theorem kept_run {cfg : Cfg} {x x' : BSys} {es : List BEv} (hi : BodyInv x) (hk : KeptInv x)
    (hc : Spec.Careful (fun x t => ¬ Spec.Unwritten x t) cfg x es) (h : x.run cfg es = some x') : KeptInv x' := by
  induction es generalizing x with
  | nil => cases h; exact hk
  | cons e es ih =>
    obtain ⟨x1, h1, h2⟩ := Option.bind_eq_some_iff.1 h
    exact ih (body_step hi h1) (kept_step hi hk hc.1 h1) (hc.2 _ h1) h2

/-- Careless or not: nothing but the bytes of the body can change. -/
theorem shape_run {cfg : Cfg} {x x' : BSys} {es : List BEv} (hi : BodyInv x)
    (hk : x.wire.map Spec.shape = (Spec.written x.sys).map Spec.shape) (h : x.run cfg es = some x') :
    x'.wire.map Spec.shape = (Spec.written x'.sys).map Spec.shape := by
  induction es generalizing x with
  | nil => cases h; exact hk
  | cons e es ih =>
    obtain ⟨x1, h1, h2⟩ := Option.bind_eq_some_iff.1 h
    refine ih (body_step hi h1) ?_ h2
    have sysCase : ∀ {e : Ev} {s' : Sys}, x.sys.step cfg e = some s' →
        (((s'.trace.drop x.sys.trace.length).foldl BSys.observe { x with sys := s' }).wire).map Spec.shape =
          (Spec.written ((s'.trace.drop x.sys.trace.length).foldl BSys.observe { x with sys := s' }).sys).map Spec.shape := by
      intro e s' hs
      obtain ⟨l, e', h1, h2, h3, h4, h5, h6⟩ := observe_step hi hs
      rw [e', List.drop_left, h1]
      rcases h6 with ⟨g1, g2⟩ | ⟨t, r, f, g1, g2, g3, g4, g5⟩
      · rw [g1, g2]; exact hk
      · rw [g4, g5, List.map_append, List.map_append, hk]
        congr 1
        obtain ⟨th, ht, hreq⟩ := hi.full.all.origin.acc t r g2
        unfold BSys.load
        dsimp only
        split
        · rename_i k hu
          obtain ⟨b, a, k1, k2, k3⟩ := hi.given t k th hu ht
          have := (wire_body g3).trans (reqOf_body hreq k1)
          simp only [List.map_cons, List.map_nil, Spec.shape, k2, Option.getD_some, k3, this]
        · rfl
    cases e with
    | call c buf =>
      obtain ⟨_, s', hs, hs', rfl⟩ := call_step h1
      subst hs'
      exact hk
    | write k b =>
      simp only [BSys.step] at h1
      repeat' split at h1
      all_goals first
        | contradiction
        | (cases h1; exact hk)
    | sys e =>
      cases e with
      | call c => cases h1
      | _ =>
        obtain ⟨s', hs, rfl⟩ := Option.map_eq_some_iff.1 h1
        exact sysCase hs

theorem acc_unique {l : List (Nat × Req)} (h : (l.map (·.1)).Nodup) {t : Nat} {r r' : Req} (h1 : (t, r) ∈ l) (h2 : (t, r') ∈ l) : r = r' := by
  induction l with
  | nil => cases h1
  | cons a l ih =>
    rw [List.map_cons, List.nodup_cons] at h
    rcases List.mem_cons.1 h1 with e1 | h1 <;> rcases List.mem_cons.1 h2 with e2 | h2
    · rw [← e2] at e1; cases e1; rfl
    · exact absurd (List.mem_map.2 ⟨_, h2, by rw [← e1]⟩) h.1
    · exact absurd (List.mem_map.2 ⟨_, h1, by rw [← e2]⟩) h.1
    · exact ih h.2 h1 h2

/-- A call that has asked for a receipt and returned nil has had its body read. -/
theorem confirmed_written {x : BSys} (hi : BodyInv x) {t : Nat} (h : Spec.Confirmed x t) {k : Nat} (hk : x.uses[t]? = some (some k)) :
    ¬ Spec.Unwritten x t := by
  obtain ⟨call, r, ⟨th, ht, hcall, hpc⟩, hacc, hr⟩ := h
  have hbody : th.call.body.isSome = true := by
    obtain ⟨b, _, hb, _⟩ := hi.given t k th hk ht
    rw [hb]; rfl
  have hm : (t, r) ∈ acceptedIn x.sys.trace := List.mem_filterMap.2 ⟨_, hacc, rfl⟩
  rintro (hw | ⟨th', hth', he⟩)
  · rw [hi.owners] at hw
    obtain ⟨⟨t', r'⟩, hm', rfl⟩ := List.mem_map.1 hw
    have hr' : r' ∈ x.sys.writeCh := by
      rw [← (accepted_rest hi.full.all.order).1]
      exact List.mem_map.2 ⟨_, hm', rfl⟩
    have hm2 := List.mem_of_mem_drop hm'
    have hrr : r = r' := by
      have hnd := hi.full.all.origin.nodup
      exact acc_unique hnd hm hm2
    subst hrr
    obtain ⟨th', ht', hreq⟩ := hi.full.all.origin.acc t' r hm
    dsimp only at ht
    rw [ht] at ht'
    cases ht'
    have hcalls : ∀ d a o, th.call ≠ .subscribe d a o := by
      intro d a o e
      rw [e] at hbody
      cases hbody
    obtain ⟨_, ⟨_, k2⟩ | ⟨n, c, k1, k2, k3, _⟩⟩ := (reqOf_caller hcalls).1 hreq
    · rw [k2] at hr; cases hr
    · obtain ⟨ow, cl⟩ := c
      cases k3
      have hall : n ∈ x.sys.all := List.mem_append_right _ (List.mem_filterMap.2 ⟨r, hr', k1⟩)
      rcases hi.full.serve.caller n hall t' cl th k2 ht with h | h
      · rw [hpc] at h; cases h
      · unfold Thread.left at h
        cases hc : th.call <;> rw [hc] at h hbody <;> first | (cases hbody; done) | (simp only [hpc] at h; rcases h with h | ⟨f, h, _⟩ <;> cases h)
  · rw [ht] at hth'
    cases hth'
    exact absurd he (early_past (by rw [hpc]; rfl))

theorem careful_confirmed {cfg : Cfg} {x : BSys} {es : List BEv} (hi : BodyInv x) (h : Spec.Careful Spec.Confirmed cfg x es) :
    Spec.Careful (fun x t => ¬ Spec.Unwritten x t) cfg x es := by
  induction es generalizing x with
  | nil => trivial
  | cons e es ih =>
    exact ⟨fun k b he t hu => confirmed_written hi (h.1 k b he t hu) hu, fun x' hx => ih (body_step hi hx) (h.2 x' hx)⟩

end Stomp.Client
