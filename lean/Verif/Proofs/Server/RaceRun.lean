import Verif.Proofs.Server.RaceStepPush
/-! # No run of the server has a race -/
namespace Stomp.Server
open Stomp

theorem race_knows {cfg : Config} {s s' : Sys} {w : Watch} {e : Sys.Ev} (hI : SInv cfg s) (hT : ∀ t, total s t = made s.conns t) (hL : Lens s w)
    (h : s.step cfg e = some s') : Knows s w e s' := by
  have hc := sys_crashed_step h
  unfold Sys.step at h
  rw [if_neg (by rw [hc]; simp)] at h
  cases e with
  | accept => intro a ha; cases ha
  | conn c e =>
    dsimp only at h
    split at h
    · rename_i hi
      split at h
      · cases h
      · rename_i k hk
        split at h
        · cases h
        · rename_i k' hk'
          injection h with h
          subst h
          exact conn_knows hI hL hk hi hk'
    · cases h
  | flush c =>
    dsimp only at h
    split at h
    · cases h
    · rename_i k hk
      exact flush_knows hI hT hk s'
  | proc =>
    dsimp only at h
    split at h
    · rename_i q rs ht hr
      exact proc_knows hI hT hL hr s'
    · cases h
  | push =>
    dsimp only at h
    split at h
    · cases h
    · rename_i r t ht
      intro a ha
      unfold accesses at ha
      dsimp only at ha
      rw [ht] at ha
      cases ha
    · rename_i d r m t ht
      exact pusht_knows hI hT hL ht s'

theorem race_step {cfg : Config} {s s' : Sys} {w : Watch} {e : Sys.Ev} (hI : SInv cfg s) (hT : ∀ t, total s t = made s.conns t) (hW : WInv s w)
    (h : SysStep cfg s e s') : WInv s' (w.step s e s') := by
  have hL := hW.lens
  have hp : e = .proc → WInv s' (w.step s e s') := by
    intro he
    subst he
    obtain ⟨q, rs, hps⟩ := proc_cases hI h
    refine hW.step (proc_lens hI hT hL hps) hps.made (proc_acc_made hI hT hL hps) ?_
    intro x
    cases x with
    | sub r => exact proc_moves_sub hI hT hL hps r
    | frame t => exact proc_moves_frame hI hT hL hps t
  cases h with
  | accept => exact hW.step (accept_lens hI hT hL) (accept_made hI hT hL) (fun a ha => by cases ha) (accept_moves hI hT hL)
  | conn c e k k' hk hi hs =>
    refine hW.step (conn_lens hI hT hL hk hi hs) (conn_made hI hT hL hk hi hs) (conn_acc_made hI hT hL hk hi hs) ?_
    intro x
    cases x with
    | sub r => exact conn_moves_sub hI hL hk hi hs r
    | frame t => exact conn_moves_frame hI hT hL hk hi hs t
  | flush c k r o hk ho hc =>
    refine hW.step (flush_lens hI hT hL hk ho) (flush_made hk) (flush_acc_made hI hT hL hk ho) ?_
    intro x
    cases x with
    | sub r => exact flush_moves_sub hI hT hL hk ho r
    | frame t => exact flush_moves_frame hI hT hL hk ho t
  | pushQueue r t k ht hk hc =>
    exact hW.step (pushq_lens hI hT hL ht hk) (pushq_made hI hT hL ht hk) (fun a ha => by rw [pushq_acc hI hT hL ht hk] at ha; cases ha)
      (pushq_moves hI hT hL ht hk)
  | pushTopic dest r m t k ht hk hf hc => exact pusht_moves hI hT hL ht hk rfl rfl rfl rfl rfl rfl hW
  | _ => exact hp rfl

theorem race_run {cfg : Config} (es : List Sys.Ev) (s0 s : Sys) (w0 w : Watch) (hI : SInv cfg s0) (hT : ∀ t, total s0 t = made s0.conns t) (hW : WInv s0 w0)
    (h0 : w0.race = false) (h : Watch.run cfg s0 w0 es = some (s, w)) : w.race = false := by
  induction es generalizing s0 w0 with
  | nil => simp only [Watch.run, Option.some.injEq, Prod.mk.injEq] at h; rw [← h.2]; exact h0
  | cons e es ih =>
    simp only [Watch.run] at h
    split at h
    · cases h
    · rename_i s1 hs1
      have hr := (race_knows hI hT hW.lens hs1).no_race hW h0
      rcases (sys_step hI.refs hs1).2 with hcr | hst
      · cases es with
        | nil => simp only [Watch.run, Option.some.injEq, Prod.mk.injEq] at h; rw [← h.2]; exact hr
        | cons e2 es2 =>
          simp only [Watch.run] at h
          split at h
          · cases h
          · rename_i s2 hs2
            have := sys_crashed_step hs2
            rw [hcr] at this; cases this
      · exact ih s1 _ (sinv_step hI hst) (fun t => total_step hI hT hst t) (race_step hI hT hW hst) hr h

theorem winv_init : WInv Sys.init {} := by
  refine ⟨⟨rfl, fun c k hk => by simp [Sys.init] at hk, fun c _ => rfl⟩, fun b hb => by simp at hb, fun x K _ b hb => by simp at hb⟩

end Stomp.Server
