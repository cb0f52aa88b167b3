import Verif.Proofs.Client.Reads
/-! # Only `readLoop` reads, and what is written was taken from `writeCh` -/
namespace Stomp.Client
open Stomp

/-- Nothing was read and no frame written in this step. -/
def NoRead (s s' : Sys) : Prop := ∃ l, s'.trace = s.trace ++ l ∧ readIn l = [] ∧ sentIn l = []

theorem noRead_same {s s' : Sys} (h : s'.trace = s.trace) : NoRead s s' := ⟨[], by rw [h, List.append_nil], rfl, rfl⟩

theorem noRead_one {s s' : Sys} {o : Obs} (h : s'.trace = s.trace ++ [o]) (ho : readIn [o] = [] ∧ sentIn [o] = []) : NoRead s s' := ⟨[o], h, ho⟩

theorem closeChan_trace (s : Sys) (n : Nat) : (s.closeChan n).trace = s.trace := by
  unfold Sys.closeChan
  split <;> rfl

theorem noRead_ret {s s0 : Sys} {t : Nat} {r : Res} (h : s0.trace = s.trace) : NoRead s (s0.ret t r) := ⟨[.ret t r], by
  show s0.trace ++ _ = _
  rw [h], rfl, rfl⟩

theorem noRead_frameDone {s s0 : Sys} {t : Nat} {c : Call} {r : Res} (h : s0.trace = s.trace) : NoRead s (s0.frameDone t c r) := by
  unfold Sys.frameDone
  repeat' split
  all_goals first
    | exact noRead_ret h
    | exact noRead_same h

theorem noRead_frameEnter {s s' : Sys} {t : Nat} {c : Call} {f : Frame} (h : s.frameEnter t c f = some s') : NoRead s s' := by
  unfold Sys.frameEnter at h
  repeat' split at h
  all_goals first
    | contradiction
    | (simp only [Option.some.injEq] at h; subst h)
  · exact noRead_frameDone rfl
  · exact noRead_same rfl
  · exact noRead_same rfl

theorem noRead_begin {s s' : Sys} {t : Nat} {c : Call} (h : s.begin t c = some s') : NoRead s s' := by
  unfold Sys.begin at h
  repeat' split at h
  all_goals first
    | contradiction
    | exact noRead_frameEnter h
    | (simp only [Option.some.injEq] at h; subst h)
  all_goals first
    | exact noRead_ret rfl
    | exact noRead_same rfl

theorem noRead_log {s s0 s' : Sys} {o : Obs} (ho : readIn [o] = [] ∧ sentIn [o] = []) (h0 : s0.trace = s.trace ++ [o]) (h : NoRead s0 s') : NoRead s s' := by
  obtain ⟨l, h1, h2, h3⟩ := h
  refine ⟨o :: l, ?_, ?_, ?_⟩
  · rw [h1, h0]; simp
  · have e : readIn (o :: l) = readIn [o] ++ readIn l := readIn_append [o] l
    rw [e, ho.1, h2]; rfl
  · have e : sentIn (o :: l) = sentIn [o] ++ sentIn l := sentIn_append [o] l
    rw [e, ho.2, h3]; rfl

theorem handOut_trace (s : Sys) (n : Nat) : (s.handOut n).trace = s.trace := by
  unfold Sys.handOut
  split <;> rfl

theorem noRead_push {cfg : Cfg} {s s' : Sys} {t : Nat} {c : Call} {r : Req} (h : s.push cfg t c r = some s') : NoRead s s' := by
  unfold Sys.push at h
  dsimp only at h
  repeat' split at h
  all_goals first
    | contradiction
    | (simp only [Option.some.injEq] at h; subst h)
  all_goals first
    | exact noRead_same rfl
    | exact noRead_one rfl ⟨rfl, rfl⟩
    | exact noRead_log (o := .accepted t r) (s0 := { s with trace := s.trace ++ [.accepted t r] }) ⟨rfl, rfl⟩ rfl (noRead_ret rfl)
    | exact noRead_log (o := .accepted t r) (s0 := { s with trace := s.trace ++ [.accepted t r] }) ⟨rfl, rfl⟩ rfl (noRead_frameDone rfl)
    | exact noRead_log (o := .accepted t r) (s0 := { s with trace := s.trace ++ [.accepted t r] }) ⟨rfl, rfl⟩ rfl (noRead_ret (handOut_trace _ _))

theorem noRead_waitClosed {s s' : Sys} {t : Nat} {c : Call} {n : Nat} (h : s.waitClosed t c n = some s') : NoRead s s' := by
  unfold Sys.waitClosed at h
  repeat' split at h
  all_goals first
    | contradiction
    | (simp only [Option.some.injEq] at h; subst h)
  all_goals first
    | exact noRead_same rfl
    | exact noRead_frameDone rfl

theorem noRead_unsub {cfg : Cfg} {s s' : Sys} {t : Nat} {th : Thread} {i : Nat} {b : Sub} (h : s.unsub cfg t th i b = some s') : NoRead s s' := by
  unfold Sys.unsub at h
  repeat' split at h
  all_goals first
    | contradiction
    | (simp only [Option.some.injEq] at h; subst h)
  all_goals first
    | exact noRead_same rfl
    | exact noRead_ret rfl

theorem noRead_thread {cfg : Cfg} {s s' : Sys} {t : Nat} (h : s.thread cfg t = some s') : NoRead s s' := by
  unfold Sys.thread at h
  repeat' split at h
  all_goals first
    | contradiction
    | exact noRead_begin h
    | exact noRead_frameEnter h
    | exact noRead_push h
    | exact noRead_waitClosed h
    | exact noRead_unsub h

theorem noRead_timeout {cfg : Cfg} {s s' : Sys} {t : Nat} (h : s.timeout cfg t = some s') : NoRead s s' := by
  unfold Sys.timeout at h
  repeat' split at h
  all_goals first
    | contradiction
    | (simp only [Option.some.injEq] at h; subst h)
  all_goals first
    | exact noRead_same rfl
    | exact noRead_ret rfl
    | exact noRead_frameDone rfl

theorem noRead_helper {s s' : Sys} {t : Nat} (h : s.helper t = some s') : NoRead s s' := by
  unfold Sys.helper at h
  repeat' split at h
  all_goals first
    | contradiction
    | (simp only [Option.some.injEq] at h; subst h)
  all_goals exact noRead_same rfl

theorem noRead_response {s : Sys} {t : Nat} {c : Call} {f : Frame} {k : Bool} : NoRead s (s.response t c f k) := by
  unfold Sys.response
  dsimp only
  split
  · exact noRead_ret rfl
  · by_cases hc : f.command = Cmd.receipt
    · rw [if_pos hc, if_pos rfl]; exact noRead_ret rfl
    · rw [if_neg hc, if_neg (by simp)]; exact noRead_ret rfl
  · exact noRead_frameDone rfl

theorem noRead_handOver {s s' : Sys} {n : Nat} {f : Frame} {k : Bool} (h : s.handOver n f k = some s') : NoRead s s' := by
  unfold Sys.handOver at h
  repeat' split at h
  all_goals first
    | contradiction
    | (simp only [Option.some.injEq] at h; subst h)
  · exact noRead_response
  · exact noRead_same rfl

theorem noRead_then {s s1 s' : Sys} (h : NoRead s s1) (he : s'.trace = s1.trace) : NoRead s s' := by
  obtain ⟨l, h1, h2⟩ := h
  exact ⟨l, he.trans h1, h2⟩

theorem noRead_deliver {s s' : Sys} {k : Bool} (h : s.deliver k = some s') : NoRead s s' := by
  unfold Sys.deliver at h
  repeat' split at h
  all_goals first
    | contradiction
    | (simp only [Option.some.injEq] at h; subst h; exact noRead_same rfl)
    | (obtain ⟨s1, h1, rfl⟩ := Option.map_eq_some_iff.1 h
       first
         | exact noRead_then (noRead_handOver h1) (closeChan_trace _ _)
         | exact noRead_then (noRead_handOver h1) rfl)

theorem noRead_finish {s s' : Sys} (h : s.finish = some s') : NoRead s s' := by
  unfold Sys.finish at h
  repeat' split at h
  all_goals first
    | contradiction
    | (simp only [Option.some.injEq] at h; subst h; exact noRead_same rfl)

theorem failWith_trace {s s' : Sys} {x : Bytes} {o : List Nat} (h : s.failWith x o = some s') : s'.trace = s.trace := by
  unfold Sys.failWith at h
  split at h
  · injection h with h; subst h; rfl
  · cases h

theorem noRead_loopRead {s s' : Sys} {o : List Nat} (h : s.loopRead o = some s') : NoRead s s' := by
  unfold Sys.loopRead at h
  dsimp only at h
  repeat' split at h
  all_goals first
    | contradiction
    | exact noRead_same (failWith_trace h)
    | exact noRead_one (failWith_trace h) ⟨rfl, rfl⟩
    | (simp only [Option.some.injEq] at h; subst h; exact noRead_one rfl ⟨rfl, rfl⟩)

theorem takeReq_trace (s : Sys) (r : Req) (rest : List Req) : (s.takeReq r rest).1.trace = s.trace ++ [.taken r] := by
  unfold Sys.takeReq
  dsimp only
  split
  · rw [closeChan_trace]
  · rfl

theorem takeReq_frame (s : Sys) (r : Req) (rest : List Req) : (s.takeReq r rest).2 = Spec.wire r.frame := by
  show (handleWrite s.channels r).2.2 = _
  exact handleWrite_wire _ _

theorem noRead_loopWrite {s s' : Sys} {k : Bool} {o : List Nat} (h : s.loopWrite k o = some s') :
    NoRead s s' ∨ ∃ r f, s'.trace = s.trace ++ [.taken r, .sent f] ∧ Spec.wire r.frame = some f := by
  unfold Sys.loopWrite at h
  split at h
  · split at h
    · exact .inl (noRead_same (failWith_trace h))
    · cases h
  · rename_i r rest _
    have ht := takeReq_trace s r rest
    have hw := takeReq_frame s r rest
    split at h
    · rename_i s1 h1
      rw [h1] at ht
      injection h with h; subst h
      exact .inl (noRead_one ht ⟨rfl, rfl⟩)
    · rename_i s1 f h1
      rw [h1] at ht hw
      split at h
      · split at h
        · cases h
        · injection h with h; subst h
          refine .inr ⟨r, f, ?_, hw.symm⟩
          show s1.trace ++ [.sent f] = _
          rw [ht]; simp
      · refine .inl (noRead_log ⟨rfl, rfl⟩ ht ?_)
        exact noRead_one (failWith_trace h) ⟨rfl, rfl⟩

theorem noRead_loopBeat {cfg : Cfg} {s s' : Sys} {k : Bool} {o : List Nat} (h : s.loopBeat cfg k o = some s') : NoRead s s' := by
  unfold Sys.loopBeat at h
  repeat' split at h
  all_goals first
    | contradiction
    | exact noRead_same (failWith_trace h)
    | (simp only [Option.some.injEq] at h; subst h; exact noRead_one rfl ⟨rfl, rfl⟩)

theorem noRead_subStep {s s' : Sys} {i : Nat} (h : s.subStep i = some s') : NoRead s s' := by
  unfold Sys.subStep at h
  repeat' split at h
  all_goals first
    | contradiction
    | (simp only [Option.some.injEq] at h; subst h; exact noRead_same rfl)

/-- A step of the client reads what `readLoop` reads in it, if anything, and writes what it takes from `writeCh`. -/
theorem read_or_not {cfg : Cfg} {s s' : Sys} {e : Ev} (h : s.step cfg e = some s') :
    (∃ x, e = .net x ∧ s'.trace = s.trace ++ [.read x]) ∨
    ((∀ x, e ≠ .net x) ∧ (NoRead s s' ∨ ∃ r f, s'.trace = s.trace ++ [.taken r, .sent f] ∧ Spec.wire r.frame = some f)) := by
  unfold Sys.step at h
  split at h
  · cases h
  cases e with
  | net x =>
    left
    dsimp only at h
    repeat' split at h
    all_goals first
      | contradiction
      | (simp only [Option.some.injEq] at h; subst h; exact ⟨x, rfl, rfl⟩)
  | thread t => exact .inr ⟨by simp, .inl (noRead_thread h)⟩
  | timeout t => exact .inr ⟨by simp, .inl (noRead_timeout h)⟩
  | helper t => exact .inr ⟨by simp, .inl (noRead_helper h)⟩
  | deliver k => exact .inr ⟨by simp, .inl (noRead_deliver h)⟩
  | finish => exact .inr ⟨by simp, .inl (noRead_finish h)⟩
  | sub i => exact .inr ⟨by simp, .inl (noRead_subStep h)⟩
  | loopRead o =>
    refine .inr ⟨by simp, .inl ?_⟩
    dsimp only at h
    split at h
    · exact noRead_loopRead h
    · cases h
  | loopWrite k o =>
    refine .inr ⟨by simp, ?_⟩
    dsimp only at h
    split at h
    · exact noRead_loopWrite h
    · cases h
  | loopBeat k o =>
    refine .inr ⟨by simp, .inl ?_⟩
    dsimp only at h
    split at h
    · exact noRead_loopBeat h
    · cases h
  | loopTimeout o =>
    refine .inr ⟨by simp, .inl ?_⟩
    dsimp only at h
    split at h
    · exact noRead_same (failWith_trace h)
    · cases h
  | call c =>
    refine .inr ⟨by simp, .inl ?_⟩
    dsimp only at h
    split at h
    · injection h with h; subst h; exact noRead_same rfl
    · cases h
  | netErr =>
    refine .inr ⟨by simp, .inl ?_⟩
    dsimp only at h
    split at h
    · cases h
    · injection h with h; subst h; exact noRead_same rfl
  | take i =>
    refine .inr ⟨by simp, .inl ?_⟩
    dsimp only at h
    repeat' split at h
    all_goals first
      | contradiction
      | (simp only [Option.some.injEq] at h; subst h; exact noRead_same rfl)
  | tick =>
    refine .inr ⟨by simp, .inl ?_⟩
    injection h with h; subst h; exact noRead_same rfl

/-- What was written was taken from `writeCh` before. -/
theorem sent_taken {cfg : Cfg} {n : Nat} {s : Sys} {es : List Ev} (h : (Sys.init n).run cfg es = some s) :
    ∀ (p q : List Obs) (f : Frame), s.trace = p ++ .sent f :: q → ∃ r, .taken r ∈ p ∧ Spec.wire r.frame = some f := by
  refine run_induction (P := fun s => ∀ (p q : List Obs) (f : Frame), s.trace = p ++ .sent f :: q → ∃ r, .taken r ∈ p ∧ Spec.wire r.frame = some f)
    (fun s e s' hp h => ?_) es _ _ (by intro p q f e; simp [Sys.init] at e) h
  have key : ∀ l, s'.trace = s.trace ++ l → (∀ a b f, l = a ++ .sent f :: b → ∃ r, .taken r ∈ a ∧ Spec.wire r.frame = some f) →
      ∀ (p q : List Obs) (f : Frame), s'.trace = p ++ .sent f :: q → ∃ r, .taken r ∈ p ∧ Spec.wire r.frame = some f := by
    intro l hl ha p q f e
    rw [hl] at e
    rcases List.append_eq_append_iff.1 e with ⟨z, h1, h2⟩ | ⟨z, h1, h2⟩
    · obtain ⟨r, hr, hw⟩ := ha z q f h2
      exact ⟨r, by rw [h1]; exact List.mem_append_right _ hr, hw⟩
    · cases z with
      | nil =>
        obtain ⟨r, hr, hw⟩ := ha [] q f h2.symm
        cases hr
      | cons x z =>
        rw [List.cons_append] at h2
        injection h2 with h2 h3
        subst h2
        exact hp p z f h1
  have none_ : ∀ {l : List Obs}, sentIn l = [] → ∀ a b f, l = a ++ .sent f :: b → ∃ r, Obs.taken r ∈ a ∧ Spec.wire r.frame = some f := by
    intro l hl a b f e
    rw [e, sentIn_append] at hl
    simp [sentIn] at hl
  rcases read_or_not h with ⟨x, _, ht⟩ | ⟨_, ⟨l, ht, _, hl⟩ | ⟨r, f, ht, hw⟩⟩
  · exact key _ ht (none_ rfl)
  · exact key _ ht (none_ hl)
  · refine key _ ht ?_
    intro a b g e
    match a, e with
    | [], e => simp at e
    | [x], e => simp at e; exact ⟨r, by simp [e.1], by rw [hw, e.2.1]⟩
    | [x, y], e => simp at e
    | x :: y :: z :: a, e => simp at e

end Stomp.Client
