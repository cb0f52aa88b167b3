import Verif.Proofs.Client.Due
import Verif.Proofs.Client.Reads
/-! # Only MESSAGE frames with its key reach a subscription, in the order in which they were taken -/
namespace Stomp.Client
open Stomp

/-- Frames taken from the network. -/
def tookFrames (tr : List Obs) : List Frame := (tookIn tr).filterMap id

theorem tookFrames_append (a b : List Obs) : tookFrames (a ++ b) = tookFrames a ++ tookFrames b := by
  simp [tookFrames, tookIn_append]

/-- `f` is for the subscription with channel `n`. -/
def ForSub (s : Sys) (n : Nat) (f : Frame) : Prop :=
  f.command = Cmd.message ∧ ∃ k, f.header.contains Hdr.subscription = some k ∧
    ∃ t r, .accepted t r ∈ s.trace ∧ r.chan = some n ∧ Spec.Registers r.frame k

theorem forSub_ext {s s' : Sys} (he : Ext s s') {n : Nat} {f : Frame} (h : ForSub s n f) : ForSub s' n f := by
  obtain ⟨h1, k, h2, t, r, h3, h4, h5⟩ := h
  obtain ⟨l, e⟩ := he.trace
  exact ⟨h1, k, h2, t, r, by rw [e]; exact List.mem_append_left _ h3, h4, h5⟩

structure Iso (s : Sys) (n : Nat) (o : List Frame) : Prop where
  sub : (o ++ pend s.loop n).Sublist (tookFrames s.trace)
  key : ∀ f ∈ o ++ pend s.loop n, ForSub s n f

theorem iso_step {s s' : Sys} {n : Nat} {o o' : List Frame} (he : Ext s s') (hr : RegInv s)
    (hf : Iso s n o) (h : LoopEff s s') (hsame : (∀ f, s.loop ≠ .message f n) ∨ s'.loop = s.loop → o' = o)
    (hgive : ∀ f, s.loop = .message f n → s'.loop = .select → o' = o ++ [f]) : Iso s' n o' := by
  have mono : (tookFrames s.trace).Sublist (tookFrames s'.trace) := by
    obtain ⟨l, e⟩ := he.trace
    rw [e, tookFrames_append]
    exact List.sublist_append_left _ _
  have step : o' ++ pend s'.loop n = o ++ pend s.loop n → Iso s' n o' := by
    intro e
    refine ⟨by rw [e]; exact hf.sub.trans mono, fun f hm => forSub_ext he (hf.key f ?_)⟩
    rw [e] at hm
    exact hm
  cases h with
  | quiet h1 h2 h3 h4 => exact step (by rw [hsame (.inr h1), h1])
  | stop h0 h1 h2 h3 h4 =>
    have hn0 : ∀ n, pend s.loop n = [] := by
      rcases h0 with h0 | h0
      · rw [h0]; exact fun _ => rfl
      · exact (LoopPc.stopped_not h0).2
    have hm : ∀ f, s.loop ≠ .message f n := by
      intro f hc
      have := hn0 n
      rw [hc] at this
      simp [pend] at this
    exact step (by rw [hsame (.inl hm), (LoopPc.stopped_not h1).2, hn0])
  | skip h0 h1 h2 h3 h4 => exact step (by rw [hsame (.inr h1), h1])
  | receipt h0 h1 h2 h3 hc hid hn => exact step (by rw [hsame (.inl (by rw [h0]; simp)), h1, h0]; rfl)
  | @message f id m h0 h1 h2 h3 hc hid hn =>
    have e := hsame (.inl (by rw [h0]; simp))
    by_cases hm : m = n
    · subst hm
      have ho := hf.sub
      rw [h0] at ho
      simp only [pend, List.append_nil] at ho
      have hp : pend s'.loop m = [f] := by rw [h1]; simp [pend]
      obtain ⟨t, r, g1, g2, g3, _⟩ := hr.reg _ _ hn
      refine ⟨?_, ?_⟩
      · rw [e, hp, h3, tookFrames_append]
        exact List.Sublist.append ho (List.Sublist.refl _)
      · intro g hg
        rw [e, hp] at hg
        rcases List.mem_append.1 hg with hg | hg
        · exact forSub_ext he (hf.key g (List.mem_append_left _ hg))
        · rw [List.mem_singleton] at hg
          subst hg
          exact forSub_ext he ⟨hc, id, hid, t, r, mem_acceptedIn g1, g2, g3⟩
    · exact step (by rw [e, h1, h0]; simp [pend, hm])
  | take h0 h1 hw h2 h3 h4 =>
    refine step ?_
    rw [hsame (.inl (by rw [h0]; simp)), h0]
    rcases h1 with h1 | ⟨f, q, h1⟩ <;> rw [h1] <;> rfl
  | gaveReceipt h0 h1 h2 h3 h4 => exact step (by rw [hsame (.inl (by rw [h0]; simp)), h0, h1]; rfl)
  | @gaveMessage f m l b s1 hg hs h0 h1 h2 h3 h4 =>
    refine step ?_
    rw [h1, h0]
    by_cases hm : m = n
    · subst hm
      rw [hgive f h0 h1]
      simp [pend]
    · rw [hsame (.inl (by rw [h0]; simp [hm]))]
      simp [pend, hm]

structure IsoInv (s : Sys) : Prop where
  all : FlowInv s
  iso : ∀ (i : Nat) (b : Sub), s.subs[i]? = some b → Iso s b.chan b.out

theorem iso_run {cfg : Cfg} {n : Nat} {s : Sys} {es : List Ev} (h : (Sys.init n).run cfg es = some s) : IsoInv s := by
  have key : ∀ es s, (Sys.init n).run cfg es = some s → ∀ (i : Nat) (b : Sub), s.subs[i]? = some b → Iso s b.chan b.out := by
    intro es s h
    have : AllInv s ∧ SubInv s ∧ ∀ (i : Nat) (b : Sub), s.subs[i]? = some b → Iso s b.chan b.out := by
      refine run_induction (P := fun s => AllInv s ∧ SubInv s ∧ ∀ (i : Nat) (b : Sub), s.subs[i]? = some b → Iso s b.chan b.out)
        (fun s e s' hp h => ?_) es _ _ ⟨all_run (es := []) (cfg := cfg) rfl, ?_, ?_⟩ h
      · obtain ⟨ha, hsub, hiso⟩ := hp
        have hs := (step_cases h).2
        refine ⟨⟨lock_step ha.lock h, order_step ha.order hs, origin_step ha.lock ha.origin (ext_step hs) (eff_step hs),
          reg_step ha.order ha.reg hs, done_step ha.origin ha.reg ha.done hs⟩, subInv_step hsub hs, ?_⟩
        intro i b' hb
        rcases out_step ha.origin hsub ha.reg hs hb with ⟨b, g1, g2, g3, g4, g5⟩ | ⟨g1, g2⟩
        · rw [g3]
          exact iso_step (ext_step hs) ha.reg (hiso i b g1) (loopEff_step hs) g4 g5
        · rw [g1, g2]
          have hnm : ∀ f, s.loop ≠ .message f s.chans.length := by
            intro f hl
            obtain ⟨_, _, id, _, t, r, k1, k2, _⟩ := ha.reg.message f _ hl
            exact absurd k2 (fresh_lt ha.origin k1)
          have hp : pend s.loop s.chans.length = [] := by
            unfold pend
            split
            · rename_i f m hl
              rw [if_neg]
              rintro rfl
              exact hnm f hl
            · rfl
          refine iso_step (o := []) (ext_step hs) ha.reg ⟨?_, ?_⟩ (loopEff_step hs) (fun _ => rfl) (fun f hl => absurd hl (hnm f))
          · rw [hp]; exact List.nil_sublist _
          · rw [hp]; intro f hf; cases hf
      · constructor <;> intro i b hb <;> simp [Sys.init] at hb
      · intro i b hb; simp [Sys.init] at hb
    exact this.2.2
  exact ⟨flow_run h, key es s h⟩

end Stomp.Client
