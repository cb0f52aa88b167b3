import Verif.Proofs.Client.NoRead
import Verif.Proofs.Client.Busy
/-! # When nothing is read, and nothing written, not even a heart-beat -/
namespace Stomp.Client
open Stomp

/-- What goes over the wire: frames, and heart-beats (`none`). -/
def waveIn (l : List Obs) : List (Option Frame) := l.filterMap fun | .sent f => some (some f) | .beat => some none | _ => none

theorem waveIn_append (a b : List Obs) : waveIn (a ++ b) = waveIn a ++ waveIn b := List.filterMap_append

/-- Nothing was read and nothing written in this step. -/
def Voiceless (s s' : Sys) : Prop := ∃ l, s'.trace = s.trace ++ l ∧ readIn l = [] ∧ waveIn l = []

theorem voiceless_same {s s' : Sys} (h : s'.trace = s.trace) : Voiceless s s' := ⟨[], by rw [h, List.append_nil], rfl, rfl⟩

theorem voiceless_one {s s' : Sys} {o : Obs} (h : s'.trace = s.trace ++ [o]) (ho : readIn [o] = [] ∧ waveIn [o] = []) : Voiceless s s' := ⟨[o], h, ho⟩

theorem voiceless_ret {s s0 : Sys} {t : Nat} {r : Res} (h : s0.trace = s.trace) : Voiceless s (s0.ret t r) := ⟨[.ret t r], by
  show s0.trace ++ _ = _
  rw [h], rfl, rfl⟩

theorem voiceless_frameDone {s s0 : Sys} {t : Nat} {c : Call} {r : Res} (h : s0.trace = s.trace) : Voiceless s (s0.frameDone t c r) := by
  unfold Sys.frameDone
  repeat' split
  all_goals first
    | exact voiceless_ret h
    | exact voiceless_same h

theorem voiceless_frameEnter {s s' : Sys} {t : Nat} {c : Call} {f : Frame} (h : s.frameEnter t c f = some s') : Voiceless s s' := by
  unfold Sys.frameEnter at h
  repeat' split at h
  all_goals first
    | contradiction
    | (simp only [Option.some.injEq] at h; subst h)
  · exact voiceless_frameDone rfl
  · exact voiceless_same rfl
  · exact voiceless_same rfl

theorem voiceless_begin {s s' : Sys} {t : Nat} {c : Call} (h : s.begin t c = some s') : Voiceless s s' := by
  unfold Sys.begin at h
  repeat' split at h
  all_goals first
    | contradiction
    | exact voiceless_frameEnter h
    | (simp only [Option.some.injEq] at h; subst h)
  all_goals first
    | exact voiceless_ret rfl
    | exact voiceless_same rfl

theorem voiceless_log {s s0 s' : Sys} {o : Obs} (ho : readIn [o] = [] ∧ waveIn [o] = []) (h0 : s0.trace = s.trace ++ [o]) (h : Voiceless s0 s') : Voiceless s s' := by
  obtain ⟨l, h1, h2, h3⟩ := h
  refine ⟨o :: l, ?_, ?_, ?_⟩
  · rw [h1, h0]; simp
  · have e : readIn (o :: l) = readIn [o] ++ readIn l := readIn_append [o] l
    rw [e, ho.1, h2]; rfl
  · have e : waveIn (o :: l) = waveIn [o] ++ waveIn l := waveIn_append [o] l
    rw [e, ho.2, h3]; rfl

theorem voiceless_push {cfg : Cfg} {s s' : Sys} {t : Nat} {c : Call} {r : Req} (h : s.push cfg t c r = some s') : Voiceless s s' := by
  unfold Sys.push at h
  dsimp only at h
  repeat' split at h
  all_goals first
    | contradiction
    | (simp only [Option.some.injEq] at h; subst h)
  all_goals first
    | exact voiceless_same rfl
    | exact voiceless_one rfl ⟨rfl, rfl⟩
    | exact voiceless_log (o := .accepted t r) (s0 := { s with trace := s.trace ++ [.accepted t r] }) ⟨rfl, rfl⟩ rfl (voiceless_ret rfl)
    | exact voiceless_log (o := .accepted t r) (s0 := { s with trace := s.trace ++ [.accepted t r] }) ⟨rfl, rfl⟩ rfl (voiceless_frameDone rfl)
    | exact voiceless_log (o := .accepted t r) (s0 := { s with trace := s.trace ++ [.accepted t r] }) ⟨rfl, rfl⟩ rfl (voiceless_ret (handOut_trace _ _))

theorem voiceless_waitClosed {s s' : Sys} {t : Nat} {c : Call} {n : Nat} (h : s.waitClosed t c n = some s') : Voiceless s s' := by
  unfold Sys.waitClosed at h
  repeat' split at h
  all_goals first
    | contradiction
    | (simp only [Option.some.injEq] at h; subst h)
  all_goals first
    | exact voiceless_same rfl
    | exact voiceless_frameDone rfl

theorem voiceless_unsub {cfg : Cfg} {s s' : Sys} {t : Nat} {th : Thread} {i : Nat} {b : Sub} (h : s.unsub cfg t th i b = some s') : Voiceless s s' := by
  unfold Sys.unsub at h
  repeat' split at h
  all_goals first
    | contradiction
    | (simp only [Option.some.injEq] at h; subst h)
  all_goals first
    | exact voiceless_same rfl
    | exact voiceless_ret rfl

theorem voiceless_thread {cfg : Cfg} {s s' : Sys} {t : Nat} (h : s.thread cfg t = some s') : Voiceless s s' := by
  unfold Sys.thread at h
  repeat' split at h
  all_goals first
    | contradiction
    | exact voiceless_begin h
    | exact voiceless_frameEnter h
    | exact voiceless_push h
    | exact voiceless_waitClosed h
    | exact voiceless_unsub h

theorem voiceless_timeout {cfg : Cfg} {s s' : Sys} {t : Nat} (h : s.timeout cfg t = some s') : Voiceless s s' := by
  unfold Sys.timeout at h
  repeat' split at h
  all_goals first
    | contradiction
    | (simp only [Option.some.injEq] at h; subst h)
  all_goals first
    | exact voiceless_same rfl
    | exact voiceless_ret rfl
    | exact voiceless_frameDone rfl

theorem voiceless_helper {s s' : Sys} {t : Nat} (h : s.helper t = some s') : Voiceless s s' := by
  unfold Sys.helper at h
  repeat' split at h
  all_goals first
    | contradiction
    | (simp only [Option.some.injEq] at h; subst h)
  all_goals exact voiceless_same rfl

theorem voiceless_response {s : Sys} {t : Nat} {c : Call} {f : Frame} {k : Bool} : Voiceless s (s.response t c f k) := by
  unfold Sys.response
  dsimp only
  split
  · exact voiceless_ret rfl
  · by_cases hc : f.command = Cmd.receipt
    · rw [if_pos hc, if_pos rfl]; exact voiceless_ret rfl
    · rw [if_neg hc, if_neg (by simp)]; exact voiceless_ret rfl
  · exact voiceless_frameDone rfl

theorem voiceless_handOver {s s' : Sys} {n : Nat} {f : Frame} {k : Bool} (h : s.handOver n f k = some s') : Voiceless s s' := by
  unfold Sys.handOver at h
  repeat' split at h
  all_goals first
    | contradiction
    | (simp only [Option.some.injEq] at h; subst h)
  · exact voiceless_response
  · exact voiceless_same rfl

theorem voiceless_then {s s1 s' : Sys} (h : Voiceless s s1) (he : s'.trace = s1.trace) : Voiceless s s' := by
  obtain ⟨l, h1, h2⟩ := h
  exact ⟨l, he.trans h1, h2⟩

theorem voiceless_deliver {s s' : Sys} {k : Bool} (h : s.deliver k = some s') : Voiceless s s' := by
  unfold Sys.deliver at h
  repeat' split at h
  all_goals first
    | contradiction
    | (simp only [Option.some.injEq] at h; subst h; exact voiceless_same rfl)
    | (obtain ⟨s1, h1, rfl⟩ := Option.map_eq_some_iff.1 h
       first
         | exact voiceless_then (voiceless_handOver h1) (closeChan_trace _ _)
         | exact voiceless_then (voiceless_handOver h1) rfl)

theorem voiceless_finish {s s' : Sys} (h : s.finish = some s') : Voiceless s s' := by
  unfold Sys.finish at h
  repeat' split at h
  all_goals first
    | contradiction
    | (simp only [Option.some.injEq] at h; subst h; exact voiceless_same rfl)

theorem voiceless_loopRead {s s' : Sys} {o : List Nat} (h : s.loopRead o = some s') : Voiceless s s' := by
  unfold Sys.loopRead at h
  dsimp only at h
  repeat' split at h
  all_goals first
    | contradiction
    | exact voiceless_same (failWith_trace h)
    | exact voiceless_one (failWith_trace h) ⟨rfl, rfl⟩
    | (simp only [Option.some.injEq] at h; subst h; exact voiceless_one rfl ⟨rfl, rfl⟩)

theorem voiceless_subStep {s s' : Sys} {i : Nat} (h : s.subStep i = some s') : Voiceless s s' := by
  unfold Sys.subStep at h
  repeat' split at h
  all_goals first
    | contradiction
    | (simp only [Option.some.injEq] at h; subst h; exact voiceless_same rfl)


/-- What `processLoop` does when it has taken a request, is one request less to do. -/
theorem voiceless_loopWrite {s s' : Sys} {k : Bool} {o : List Nat} (hc : s.crashed = none) (h : s.loopWrite k o = some s') : Voiceless s s' ∨ s'.callers < s.callers := by
  unfold Sys.loopWrite at h
  split at h
  · split at h
    · exact .inl (voiceless_same (failWith_trace h))
    · cases h
  · rename_i r rest hwc
    right
    obtain ⟨_, _, h1, _, _, _, _, h2, h3, _⟩ := takeReq_spec s r rest
    have key : ∀ s1 : Sys, s1.threads = (s.takeReq r rest).1.threads → s1.subs = (s.takeReq r rest).1.subs → s1.writeCh = (s.takeReq r rest).1.writeCh → s1.callers < s.callers := by
      intro s1 e1 e2 e3
      exact callers_write hc (e1.trans h2) (closed_same (e2.trans h3)) (by rw [e3, h1, hwc]; simp)
    split at h
    · rename_i s1 hs1
      injection h with h; subst h
      exact key _ (by rw [hs1]) (by rw [hs1]) (by rw [hs1])
    · rename_i s1 f hs1
      split at h
      · split at h
        · cases h
        · injection h with h; subst h
          exact key _ (by rw [hs1]; rfl) (by rw [hs1]; rfl) (by rw [hs1]; rfl)
      · unfold Sys.failWith at h
        split at h
        · injection h with h; subst h
          exact key _ (by rw [hs1]; rfl) (by rw [hs1]; rfl) (by rw [hs1]; rfl)
        · cases h

/-- A step the client makes by itself writes nothing, or is a step of the callers. -/
theorem own_mute {cfg : Cfg} {s s' : Sys} {e : Ev} (ho : Spec.Own e) (h : s.step cfg e = some s') : Voiceless s s' ∨ s'.callers < s.callers := by
  unfold Sys.step at h
  split at h
  · cases h
  rename_i hc
  have hc : s.crashed = none := by cases hx : s.crashed with
    | none => rfl
    | some _ => rw [hx] at hc; exact absurd rfl hc
  cases e with
  | thread t => exact .inl (voiceless_thread h)
  | timeout t => exact .inl (voiceless_timeout h)
  | helper t => exact .inl (voiceless_helper h)
  | deliver k => exact .inl (voiceless_deliver h)
  | finish => exact .inl (voiceless_finish h)
  | sub i => exact .inl (voiceless_subStep h)
  | loopRead o =>
    dsimp only at h
    split at h
    · exact .inl (voiceless_loopRead h)
    · cases h
  | loopWrite k o =>
    dsimp only at h
    split at h
    · exact voiceless_loopWrite hc h
    · cases h
  | loopTimeout o =>
    dsimp only at h
    split at h
    · exact .inl (voiceless_same (failWith_trace h))
    · cases h
  | take i =>
    left
    dsimp only at h
    repeat' split at h
    all_goals first
      | contradiction
      | (simp only [Option.some.injEq] at h; subst h; exact voiceless_same rfl)
  | _ => exact ho.elim

end Stomp.Client
