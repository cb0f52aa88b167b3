import Verif.Model.Client.System
/-! # Whoever sets `closed` closes the network connection -/
namespace Stomp.Client
open Stomp

def NetShut (s : Sys) : Prop := s.closed = true → s.netClosed = true

theorem NetShut.closeChan {s : Sys} (h : NetShut s) (n : Nat) : NetShut (s.closeChan n) := by
  unfold Sys.closeChan; split <;> exact h

theorem NetShut.frameDone {s : Sys} (h : NetShut s) (t : Nat) (c : Call) (r : Res) : NetShut (s.frameDone t c r) := by
  unfold Sys.frameDone; repeat' split
  all_goals exact h

theorem NetShut.handOut {s : Sys} (h : NetShut s) (n : Nat) : NetShut (s.handOut n) := by
  unfold Sys.handOut; split <;> exact h

theorem NetShut.response {s : Sys} (h : NetShut s) (t : Nat) (c : Call) (f : Frame) (b : Bool) : NetShut (s.response t c f b) := by
  unfold Sys.response
  repeat' split
  all_goals first | exact h | exact fun _ => rfl | exact h.frameDone _ _ _

theorem NetShut.handOver {s s' : Sys} {n : Nat} {f : Frame} {b : Bool} (h : NetShut s) (hs : s.handOver n f b = some s') : NetShut s' := by
  unfold Sys.handOver at hs
  repeat' split at hs
  all_goals first | cases hs; done | (cases hs; exact h.response _ _ _ _) | (cases hs; exact h)

theorem NetShut.begin {s s' : Sys} {t : Nat} {c : Call} (h : NetShut s) (hs : s.begin t c = some s') : NetShut s' := by
  unfold Sys.begin Sys.frameEnter at hs
  repeat' split at hs
  all_goals first
    | cases hs; done
    | (cases hs; exact h)
    | (cases hs; exact fun _ => rfl)
    | (cases hs; exact NetShut.frameDone (s := s.closeNet) (fun _ => rfl) _ _ _)

theorem NetShut.failWith {s s' : Sys} {x : Bytes} {o : List Nat} (h : NetShut s) (hs : s.failWith x o = some s') : NetShut s' := by
  unfold Sys.failWith at hs
  split at hs
  · cases hs; exact h
  · cases hs

theorem NetShut.takeReq {s : Sys} (h : NetShut s) (r : Req) (rest : List Req) : NetShut (s.takeReq r rest).1 := by
  unfold Sys.takeReq
  dsimp only
  split
  · exact NetShut.closeChan (s := { s with writeCh := rest, channels := (handleWrite s.channels r).1, trace := s.trace ++ [.taken r] }) h _
  · exact h

theorem NetShut.step {cfg : Cfg} {s s' : Sys} {e : Ev} (h : NetShut s) (hs : s.step cfg e = some s') : NetShut s' := by
  unfold Sys.step at hs
  split at hs
  · cases hs
  cases e <;> dsimp only at hs
  case thread t =>
    unfold Sys.thread at hs
    split at hs
    · cases hs
    · split at hs
      · exact h.begin hs
      · unfold Sys.frameEnter at hs
        repeat' split at hs
        all_goals first
          | cases hs; done
          | (cases hs; exact h)
          | (cases hs; exact NetShut.frameDone (s := s.closeNet) (fun _ => rfl) _ _ _)
      · unfold Sys.push at hs
        dsimp only at hs
        repeat' split at hs
        all_goals first
          | cases hs; done
          | (cases hs; exact h)
          | (cases hs; refine NetShut.frameDone ?_ _ _ _; exact h)
          | (cases hs
             rename_i r _ _ _ _ n _ _ _
             exact NetShut.handOut (s := { s with writeCh := s.writeCh ++ [r], trace := s.trace ++ [.accepted t r] }) h n)
          | (cases hs
             unfold Sys.handOut
             split <;> exact h)
      · unfold Sys.waitClosed at hs
        repeat' split at hs
        all_goals first | cases hs; done | (cases hs; exact h) | (cases hs; exact h.frameDone _ _ _)
      · cases hs
      · split at hs
        · split at hs
          · cases hs
          · unfold Sys.unsub at hs
            repeat' split at hs
            all_goals first | cases hs; done | (cases hs; exact h)
        · cases hs
  case timeout t =>
    unfold Sys.timeout at hs
    repeat' split at hs
    all_goals first | cases hs; done | (cases hs; exact h) | (cases hs; exact fun _ => rfl) | (cases hs; exact h.frameDone _ _ _)
  case deliver b =>
    unfold Sys.deliver at hs
    repeat' split at hs
    all_goals first
      | cases hs; done
      | (cases hs; exact h)
      | (simp only [Option.map_eq_some_iff] at hs
         obtain ⟨s1, h1, rfl⟩ := hs
         have h2 := h.handOver h1
         first
           | exact h2
           | (refine NetShut.closeChan ?_ _; exact h2))
  case finish =>
    unfold Sys.finish at hs
    repeat' split at hs
    all_goals first | cases hs; done | (cases hs; exact h) | (cases hs; exact fun _ => rfl)
  case loopRead o =>
    unfold Sys.loopRead at hs
    dsimp only at hs
    repeat' split at hs
    all_goals first | cases hs; done | (cases hs; exact h) | (refine NetShut.failWith ?_ hs; exact h)
  case loopWrite b o =>
    unfold Sys.loopWrite at hs
    split at hs
    · split at hs
      · split at hs
        · exact h.failWith hs
        · cases hs
      · rename_i r rest _
        have hn := h.takeReq r rest
        split at hs
        · rename_i e; rw [e] at hn; cases hs; exact hn
        · rename_i e
          rw [e] at hn
          repeat' split at hs
          · cases hs
          · cases hs; exact hn
          · refine NetShut.failWith ?_ hs; exact hn
    · cases hs
  case loopBeat b o =>
    unfold Sys.loopBeat at hs
    repeat' split at hs
    all_goals first | cases hs; done | (cases hs; exact h) | exact h.failWith hs
  case loopTimeout o =>
    split at hs
    · exact h.failWith hs
    · cases hs
  case helper t =>
    unfold Sys.helper at hs
    repeat' split at hs
    all_goals first | cases hs; done | (cases hs; exact h)
  case sub i =>
    unfold Sys.subStep at hs
    repeat' split at hs
    all_goals first | cases hs; done | (cases hs; exact h)
  all_goals
    repeat' split at hs
    all_goals first | cases hs; done | (cases hs; exact h)

theorem netShut_run {cfg : Cfg} {n : Nat} {es : List Ev} {s : Sys} (h : (Sys.init n).run cfg es = some s) : NetShut s := by
  suffices ∀ (es : List Ev) (s0 : Sys), NetShut s0 → s0.run cfg es = some s → NetShut s from
    this es _ (fun e => by cases e) h
  intro es
  induction es with
  | nil => intro s0 h0 h; simp only [Sys.run, Option.some.injEq] at h; exact h ▸ h0
  | cons e es ih =>
    intro s0 h0 h
    simp only [Sys.run, Option.bind_eq_some_iff] at h
    obtain ⟨s1, h1, h2⟩ := h
    exact ih s1 (h0.step h1) h2

end Stomp.Client
