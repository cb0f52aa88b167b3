import Verif.Proofs.Server.Confirmed
/-! # Every RECEIPT answers a frame, panic or not -/
namespace Stomp.Server
open Stomp

theorem answered_frame {cfg : Config} {c c' c'' : Conn} {ok1 ok2 : Bool} {f f' : Frame} {q : List Frame} {r : Res} (hg : Gate cfg c) (h4 : Answered c.hist c.out)
    (hs : ({ c with inq := q, hist := c.hist ++ [f] } : Conn).stateFunc cfg ok1 f = (c', f', r)) (hf : Fin cfg c' ok2 f' r c'') : Answered c''.hist c''.out := by
  have grow : ∀ {out : List Wr}, (∀ w ∈ out, w ∈ c.out ∨ ∀ g, w.frame = some g → g.command ≠ b!"RECEIPT") → Answered (c.hist ++ [f]) out :=
    fun ho => h4.mono (fun _ h => List.mem_append_left _ h) ho
  have plus : ∀ {l : List Wr} {w : Wr}, (∀ g, w.frame = some g → g.command ≠ b!"RECEIPT") → ∀ w' ∈ l ++ [w], w' ∈ l ∨ ∀ g, w'.frame = some g → g.command ≠ b!"RECEIPT" := by
    intro l w hw w' hw'
    rcases List.mem_append.1 hw' with h | h
    · exact Or.inl h
    · rw [List.mem_singleton] at h; subst h; exact Or.inr hw
  rcases frame_cases hg hs hf with ⟨_, v, cx, cy, _, ⟨_, rfl⟩ | ⟨_, rfl⟩⟩ | ⟨_, _, e, v, ⟨_, rfl⟩ | ⟨_, rfl⟩⟩ | ⟨_, hh, hfin⟩
  · refine grow (plus ?_)
    intro g hg; injection hg with hg; subst hg; show b!"CONNECTED" ≠ b!"RECEIPT"; decide
  · exact grow (fun w hw => Or.inl hw)
  · refine grow (plus ?_)
    intro g hg; injection hg with hg; subst hg; show b!"ERROR" ≠ b!"RECEIPT"; decide
  · exact grow (fun w hw => Or.inl hw)
  · have hhist : c'.hist = c.hist ++ [f] := hh.keeps.hist
    have hans : Answered (c.hist ++ [f]) c'.out := by
      rcases hh.wrote with hw | ⟨_, hn, v, hv, hw⟩
      · have hw : c'.out = c.out := hw
        rw [hw]; exact grow (fun w hw => Or.inl hw)
      · have hw : c'.out = c.out ++ [⟨some (receiptFrame v), none⟩] := hw
        rw [hw]; exact h4.snoc hv hn
    rw [← hhist] at hans
    cases hfin with
    | ok => exact hans
    | panic => exact hans
    | err e =>
      refine hans.mono (fun _ h => h) (plus ?_)
      intro g hg; injection hg with hg; subst hg; show b!"ERROR" ≠ b!"RECEIPT"; decide
    | errFail e => exact hans

theorem answered_run {cfg : Config} {me : Nat} {es : List Conn.Ev} {c : Conn} (h : (Conn.init me).run cfg es = some c) (he : ∀ e ∈ es, EnvOk e) : Answered c.hist c.out := by
  refine (run_inv (P := fun c => Answered c.hist c.out) (fun c e c' hg hm he hp hs => ?_) es c he (fun w hw => by cases hw) h).2.2
  cases hfr : isFrame e with
  | false =>
    rw [(quiet_step hs hfr).hist]
    refine hp.mono (fun _ h => h) ?_
    rcases out_step hg hm hs with ⟨h1, _⟩ | ⟨h1, _⟩ | ⟨_, _, h1, _, _⟩ | ⟨_, _, m, a, hmc, _, h1⟩
    · rw [h1]; exact fun w hw => Or.inl hw
    · rw [hfr] at h1; cases h1
    · rw [h1]
      intro w hw
      rcases List.mem_append.1 hw with hw | hw
      · exact Or.inl hw
      · rw [List.mem_singleton] at hw; subst hw; exact Or.inr (fun g hg => by cases hg)
    · rw [h1]
      intro w hw
      rcases List.mem_append.1 hw with hw | hw
      · exact Or.inl hw
      · rw [List.mem_singleton] at hw; subst hw
        refine Or.inr fun g hg => ?_
        injection hg with hg; subst hg
        have : (m.alloc c.lastMsgId a).frame.command = Cmd.message := by
          show (allocFrame _ _ _).command = _; rw [allocFrame_command]; exact hmc
        rw [this]; decide
  | true =>
    cases hs with
    | frame ok1 ok2 f q c1 _ f' res ha hq hsf hfin => exact answered_frame hg hp hsf hfin
    | _ => cases hfr

end Stomp.Server
