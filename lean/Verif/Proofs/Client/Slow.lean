import Verif.Proofs.Client.Read
import Verif.Proofs.Client.Outcome
/-! # A subscription whose channel `C` is not read -/
namespace Stomp.Client
open Stomp

/-- `C` is full and its `readLoop` waits for room there, `processLoop` waits for that `readLoop`. -/
structure Dammed (i n : Nat) (s : Sys) : Prop where
  inv : UInv s
  sub : ∃ b m, s.subs[i]? = some b ∧ b.rl = .put m ∧ 16 ≤ b.buf.length
  at_ : ∃ f, AtSend s f n
  chan : s.chans[n]? = some ⟨.sub i, false⟩

theorem dammed_not_gives {s s' : Sys} {i n : Nat} (hg : Dammed i n s) : ¬ Gives s s' := by
  rintro ⟨hat, hc, h1, _⟩
  obtain ⟨f, hf⟩ := hg.at_
  obtain ⟨b, m, hb, hrl, _⟩ := hg.sub
  obtain ⟨_, rfl⟩ := atSend_unique hf hat
  unfold Sys.handOver at h1
  rw [hg.chan] at h1
  dsimp only at h1
  rw [hb] at h1
  dsimp only at h1
  rw [if_neg (by rw [hrl]; exact fun h => by cases h)] at h1
  cases h1

theorem dammed_step {cfg : Cfg} {s s' : Sys} {e : Ev} {i n : Nat} (hg : Dammed i n s) (he : e ≠ .take i) (hs : s.step cfg e = some s') :
    Dammed i n s' ∧ Rests s s' := by
  have h := (step_cases hs).2
  have hng := dammed_not_gives (s' := s') hg
  obtain ⟨f, hf⟩ := hg.at_
  have hl := atSend_loop hf
  have hr : Rests s s' := by
    rcases rests_step h hl with h1 | h1 | h1
    · exact absurd h1 hng
    · exact absurd h1 (atSend_not_ends hf)
    · exact h1
  have hc : ChansOk s s' none := (chans_step h hl).resolve_left hng
  obtain ⟨b, m, hb, hrl, hlen⟩ := hg.sub
  have hsub : ∃ b' m', s'.subs[i]? = some b' ∧ b'.rl = .put m' ∧ 16 ≤ b'.buf.length := by
    obtain ⟨b', hb', _⟩ := (ext_step h).subs i b hb
    refine ⟨b', m, hb', ?_, ?_⟩
    · cases ueff_step hg.inv.dom h with
      | quiet ht hs =>
        rcases hs i b' hb' with ⟨b0, hb0, he⟩ | ⟨hl, _⟩
        · rw [hb] at hb0; cases hb0
          cases he <;> exact hrl
        · have := (List.getElem?_eq_some_iff.1 hb).1
          omega
      | @rl j c c' ht hb1 hb2 hs hr =>
        by_cases hj : j = i
        · subst hj
          rw [hb] at hb1; cases hb1
          exfalso
          cases hr with
          | closeNext hr hn => rw [hrl] at hr; cases hr
          | closeFin hr hn => rw [hrl] at hr; cases hr
          | recv _ hr => rw [hrl] at hr; cases hr
          | eof hr => rw [hrl] at hr; cases hr
          | put hr _ hl => omega
          | checkClosed hr => rw [hrl] at hr; cases hr
          | checkOpen hr => rw [hrl] at hr; cases hr
        · rw [hs i (fun e => hj e.symm), hb] at hb'; cases hb'
          exact hrl
      | @cas u j c pc1 ht ht' hww hb1 hb2 hs hst' hpc =>
        by_cases hj : j = i
        · subst hj
          rw [hb] at hb1; cases hb1
          rw [hb'] at hb2; cases hb2
          exact hrl
        · rw [hs i (fun e => hj e.symm), hb] at hb'; cases hb'
          exact hrl
      | @thr u j c c' pc1 pc' k k' ht ht' hww hb1 hb2 hs hst' =>
        by_cases hj : j = i
        · subst hj
          rw [hb] at hb1; cases hb1
          rw [hb'] at hb2; cases hb2
          cases hst' with
          | closeNext hn => cases hn <;> exact hrl
          | closeFin hn => cases hn <;> exact hrl
          | _ => exact hrl
        · rw [hs i (fun e => hj e.symm), hb] at hb'; cases hb'
          exact hrl
    · by_cases ht : ∃ j, e = .take j
      · obtain ⟨j, rfl⟩ := ht
        obtain ⟨c, m, rest, hc, hm, rfl⟩ := take_step hs
        have hj : j ≠ i := fun e => he (by rw [e])
        have : (s.setSub j { c with buf := rest }).subs[i]? = s.subs[i]? := List.getElem?_set_ne hj
        rw [this, hb] at hb'; cases hb'
        exact hlen
      · obtain ⟨b1, l, hb1, h2, _⟩ := grow_step hs (fun j hj => ht ⟨j, hj⟩) i b hb
        rw [hb'] at hb1; cases hb1
        rw [h2, List.length_append]
        omega
  refine ⟨⟨uinv_step hg.inv h, hsub, ⟨f, ?_⟩, chan_keep (ext_step h) hc hg.chan⟩, hr⟩
  unfold AtSend at hf ⊢
  rw [hr.1]
  exact hf

theorem dammed_run {cfg : Cfg} {i n : Nat} : ∀ {es : List Ev} {s s' : Sys}, Dammed i n s → Ev.take i ∉ es → s.run cfg es = some s' →
    Dammed i n s' ∧ Rests s s' ∧ (∀ u m, Hopeless cfg u m s → Hopeless cfg u m s') ∧ (∀ j m, Unserved j m s → Unserved j m s')
  | [], s, s', hg, _, h => by cases h; exact ⟨hg, rests_same rfl rfl, fun _ _ h => h, fun _ _ h => h⟩
  | e :: es, s, s', hg, hn, h => by
    simp only [Sys.run, Option.bind_eq_some_iff] at h
    obtain ⟨s1, h1, h2⟩ := h
    obtain ⟨a1, a2⟩ := dammed_step hg (fun e => hn (e ▸ List.mem_cons_self)) h1
    obtain ⟨b1, b2, b3, b4⟩ := dammed_run a1 (fun h => hn (List.mem_cons_of_mem _ h)) h2
    obtain ⟨f, hf⟩ := hg.at_
    exact ⟨b1, rests_trans a2 b2, fun u m hu => b3 u m (hopeless_keep (dammed_not_gives hg) hf hu (step_cases h1).2),
      fun j m hu => b4 j m (unserved_keep (dammed_not_gives hg) hf hu (step_cases h1).2)⟩

end Stomp.Client
