import Verif.Proofs.Client.Told
import Verif.Proofs.Client.Panics
/-! # How a response channel can be closed under the eyes of its caller -/
namespace Stomp.Client
open Stomp

/-- A channel closed because of a request: the request is the UNSUBSCRIBE of a temporary queue. -/
theorem hw_closes {m : AMap Nat} {r : Req} {x : Nat} (h : (handleWrite m r).2.1 = some x) :
    ∃ k, EndsTemp r.frame k ∧ (regBase m r).get? k = some x := by
  have hdef : handleWrite m r =
      if r.frame.command = Cmd.subscribe then
        match r.frame.header.contains Hdr.replyTo with
        | some k => ((match r.chan with | some n => (regBase m r).set k n | none => regBase m r), none, none)
        | none =>
          ((match r.chan with | some n => (regBase m r).set ((r.frame.header.contains Hdr.id).getD []) n | none => regBase m r),
            none, some r.frame)
      else if r.frame.command = Cmd.unsubscribe then
        match r.frame.header.contains Hdr.replyTo with
        | some k => match (regBase m r).get? k with
          | some n => ((regBase m r).del k, some n, none)
          | none => (regBase m r, none, none)
        | none =>
          (regBase m r, none, some { r.frame with
            header := r.frame.header.set Hdr.receipt ((r.frame.header.contains Hdr.id).getD []) })
      else (regBase m r, none, some r.frame) := rfl
  rw [hdef] at h
  split at h
  · split at h <;> cases h
  · split at h
    · rename_i hu
      split at h
      · rename_i k hk
        split at h
        · rename_i n hn
          cases h
          exact ⟨k, ⟨hu, hk⟩, hn⟩
        · cases h
      · cases h
    · cases h

/-- Calls that keep `closeMutex` locked while they wait for their receipt. -/
def Held (c : Call) : Prop := (∃ d t b o, c = .send d t b o) ∨ c = .disconnect

theorem Held.ns {c : Call} (h : Held c) : ∀ d a o, c ≠ .subscribe d a o := by
  intro d a o e
  rcases h with ⟨_, _, _, _, h⟩ | h <;> rw [h] at e <;> cases e

/-- While such a call waits, its request is the last one accepted, and its response channel is open. -/
def NilInv (s : Sys) : Prop :=
  ∀ (t : Nat) (th : Thread) (n : Nat), s.threads[t]? = some th → Held th.call → th.pc = .wait n →
    s.chanClosed n = false ∧ ∃ l r, acceptedIn s.trace = l ++ [(t, r)] ∧ r.chan = some n

theorem holds_wait {th : Thread} {n : Nat} (h : Held th.call) (hp : th.pc = .wait n) : th.holds = true := by
  rcases h with ⟨_, _, _, _, h⟩ | h <;> simp [Thread.holds, h, hp]

theorem handedIn_map (tr : List Obs) : handedIn tr = (acceptedIn tr).map (·.2) := by
  unfold handedIn acceptedIn
  rw [List.map_filterMap]
  congr 1
  funext o
  cases o <;> rfl

/-- What is accepted while a caller holds the lock was accepted from it. -/
theorem last_step {cfg : Cfg} {s s' : Sys} (hl : LockInv s) (h : Step cfg s s') {t : Nat} {th : Thread} {n : Nat} {l : List (Nat × Req)}
    {r : Req} (ht : s.threads[t]? = some th) (hh : Held th.call) (hp : th.pc = .wait n) (ha : acceptedIn s.trace = l ++ [(t, r)]) :
    acceptedIn s'.trace = l ++ [(t, r)] := by
  cases eff_step h with
  | accept ht2 hpc =>
    exfalso
    have h1 := (hl.hold _ _ ht2 (by simp [Thread.holds, hpc])).1
    have h2 := (hl.hold _ _ ht (holds_wait hh hp)).1
    rw [h1] at h2
    cases h2
    rw [ht] at ht2
    cases ht2
    rw [hp] at hpc
    cases hpc
  | _ => rename_i h2; first | exact h2.trans ha | simp_all

/-- The channel a caller waits on is its own. -/
theorem wait_owner {s : Sys} (ho : OriginInv s) {t : Nat} {th : Thread} {n : Nat} (ht : s.threads[t]? = some th) (hpc : th.pc = .wait n)
    (hns : ∀ d a o, th.call ≠ .subscribe d a o) : ∃ c, s.chans[n]? = some ⟨.caller t, c⟩ := by
  obtain ⟨r, hr, hn⟩ := (ho.callers t th ht).wait n hpc
  obtain ⟨th2, ht2, hq⟩ := ho.acc t r hr
  rw [ht] at ht2; cases ht2
  rcases reqOf_owner hq hn with ⟨_, _, _, _, _, _, d, a, o, e⟩ | ⟨c, k1, _⟩
  · exact absurd e (hns d a o)
  · exact ⟨c, k1⟩

theorem nil_step {cfg : Cfg} {s s' : Sys} (hf : FullInv s) (hf' : FullInv s') (hi : NilInv s) (h : Step cfg s s') : NilInv s' := by
  intro t th' n ht' hh' hpc
  have he := ext_step h
  have hns := hh'.ns
  obtain ⟨r, hr, hrn⟩ := (hf'.all.origin.callers t th' ht').wait n hpc
  obtain ⟨c', hown'⟩ := wait_owner hf'.all.origin ht' hpc hns
  by_cases hacc : (t, r) ∈ acceptedIn s.trace
  case neg =>
    -- the request has just been accepted
    cases eff_step h with
    | @accept t2 th2 r2 pc ht2 hpc2 h1 hp2 h2 hw =>
      have hr' := hr
      rw [h2] at hr
      rcases List.mem_append.1 hr with hr | hr
      · exact absurd hr hacc
      · cases List.mem_singleton.1 hr
        refine ⟨hf'.serve.opened n ?_ (caller_single hf'.all.origin hown'), _, r, h2, hrn⟩
        exact List.mem_append_right _ (List.mem_filterMap.2 ⟨r, by rw [hw]; simp, hrn⟩)
    | _ => rename_i h2; exact absurd (by first | exact h2 ▸ hr | simp_all) hacc
  obtain ⟨th, ht, hq⟩ := hf.all.origin.acc t r hacc
  obtain ⟨th2, ht2, hcall⟩ := he.threads t th ht
  rw [ht'] at ht2; cases ht2
  have hh : Held th.call := by rw [← hcall]; exact hh'
  have hns0 := hh.ns
  have hwait : th.pc = .wait n := by
    rcases th_step h with hg | hm
    · obtain ⟨hat, hc, h1, hts, _⟩ := hg
      rw [hts] at ht'
      rcases handOver_threads hf.all.origin h1 ht ht' with rfl | ⟨_, _, e, _⟩
      · exact hpc
      · rw [hpc] at e; cases e
    · cases hm t th th' ht ht' with
      | same e => rw [← e]; exact hpc
      | early e =>
        refine absurd hacc ((hf.all.origin.callers t th ht).early ?_ r)
        revert e
        cases th.pc <;> simp [Pc.early]
      | gaveUp _ e => have := Thread.left_past (Thread.gaveUp_left e); rw [hpc] at this; cases this
      | closed _ _ e => have := Thread.left_past (Thread.gaveUp_left e); rw [hpc] at this; cases this
      | past _ _ e => rw [hpc] at e; cases e
  obtain ⟨hopen, l, r2, hl, hrn2⟩ := hi t th n ht hh hwait
  refine ⟨?_, l, r2, last_step hf.all.lock h ht hh hwait hl, hrn2⟩
  cases hcl : s'.chanClosed n with
  | false => rfl
  | true =>
  exfalso
  have old : s.chanClosed n = true → False := fun hc => by rw [hopen] at hc; cases hc
  rcases live_step h with hg | hm
  · obtain ⟨hat, hc, h1, hts, _, _, _, hch⟩ := hg
    rcases hch n hcl with e | e
    · cases e
      rcases handOver_moved h1 with ⟨u, c, th2, k1, k2, k3⟩ | ⟨i, c, b', k1, _⟩
      · have := chans_back he k1 hown'
        rw [k1] at this; cases this
        rw [← hts, ht'] at k2; cases k2
        rw [hpc] at k3; cases k3
      · have := chans_back he k1 hown'
        rw [k1] at this; cases this
    · exact old e
  · cases hm with
    | quiet _ _ _ hc => rcases hc n hcl with e | e; cases e; exact old e
    | over _ _ _ _ hc => rcases hc n hcl with e | e; cases e; exact old e
    | push _ _ _ _ _ hc => rcases hc n hcl with e | e; cases e; exact old e
    | @took r0 rest hlp hw hw' _ _ hc =>
      rcases hc n hcl with e | e
      · obtain ⟨k, ⟨hu, hk⟩, hg⟩ := hw_closes e
        -- the request of the caller is the last in `writeCh`
        have hlast : r2 ∈ r0 :: rest := by
          have h1 := hf.all.order.queue
          rw [handedIn_map, hl, hw, List.map_append] at h1
          have h2 := congrArg List.getLast? h1
          rw [List.getLast?_append, List.getLast?_append, List.getLast?_cons] at h2
          simp only [List.map_cons, List.map_nil, List.getLast?_singleton, Option.some_or, Option.some.injEq] at h2
          rw [h2]
          cases hrest : rest.getLast? with
          | none => simp
          | some x => simp [List.mem_of_getLast? hrest]
        have hcmd : r2.frame.command ≠ Cmd.unsubscribe := by
          obtain ⟨th3, ht3, hq3⟩ := hf.all.origin.acc t r2 (by rw [hl]; simp)
          rw [ht] at ht3; cases ht3
          have hfr := ((reqOf_caller hns0).1 hq3).1
          rcases hh with ⟨_, _, _, _, h⟩ | h <;> rw [h] at hfr <;> exact (frameOf_plain rfl hfr).2
        have hsingle : Single s n := by
          obtain ⟨c0, h0⟩ := wait_owner hf.all.origin ht hwait hns0
          exact caller_single hf.all.origin h0
        have hin : r2 ∈ rest := by
          rcases List.mem_cons.1 hlast with e | e
          · rw [e] at hcmd; exact absurd hu hcmd
          · exact e
        have hone := hf.serve.one n hsingle
        unfold Sys.all at hone
        rw [hw, List.count_append] at hone
        have h2 : 0 < (rest.filterMap (·.chan)).count n := List.count_pos_iff.2 (List.mem_filterMap.2 ⟨r2, hin, hrn2⟩)
        rw [regBase_get] at hg
        split at hg
        · simp only [List.filterMap_cons, hg, List.count_cons_self] at hone
          omega
        · have h3 : 0 < s.live.count n := by
            refine List.count_pos_iff.2 ?_
            unfold Sys.live
            rw [hlp]
            exact values_of_get hg
          have h4 : (rest.filterMap (·.chan)).count n ≤ ((r0 :: rest).filterMap (·.chan)).count n := by
            rw [List.filterMap_cons]
            split
            · exact Nat.le_refl _
            · exact List.count_le_count_cons
          omega
      · exact old e

theorem nil_run {cfg : Cfg} {n : Nat} {s : Sys} {es : List Ev} (h : (Sys.init n).run cfg es = some s) : FullInv s ∧ NilInv s :=
  run_induction (P := fun s => FullInv s ∧ NilInv s)
    (fun _ _ _ hp h => ⟨full_step hp.1 h, nil_step hp.1 (full_step hp.1 h) hp.2 (step_cases h).2⟩) es _ _
    ⟨full_run (cfg := cfg) (es := []) rfl, fun t th n ht => by cases ht⟩ h

/-- `response.Command` in `readReceiptWithTimeout` never dereferences nil. -/
theorem why_nil {s : Sys} (hi : NilInv s) {p : Panic} (h : Why s p) : p ≠ .nilResponse := by
  rintro rfl
  cases h with
  | nilResponse ht hpc hc hcall => rw [(hi _ _ _ ht hcall hpc).1] at hc; cases hc
  | rlClose hb hr h => cases h
  | callClose ht hcall hb hpc h => cases h

/-- The channel of a send or of a close is one still to be used. -/
theorem why_chan {s : Sys} (hf : FullInv s) {p : Panic} (h : Why s p) (hp : p = .sendChan ∨ p = .closeChan) :
    ∃ t r, Obs.accepted t r ∈ s.trace ∧ r.frame.command = Cmd.subscribe ∧ r.frame.header.contains Hdr.receipt ≠ none := by
  have key : ∀ n ∈ s.all, s.chanClosed n = true →
      ∃ t r, Obs.accepted t r ∈ s.trace ∧ r.frame.command = Cmd.subscribe ∧ r.frame.header.contains Hdr.receipt ≠ none := by
    intro n hn hc
    refine Classical.byContradiction fun hno => ?_
    have : Single s n := by
      intro t r hr _ hcmd
      refine Classical.byContradiction fun hrc => hno ⟨t, r, mem_acceptedIn hr, hcmd, hrc⟩
    rw [hf.serve.opened n hn this] at hc
    cases hc
  cases h
  case sendChan n hc hl =>
    have : ∃ f, AtSend s f n := by
      rcases hl with ⟨f, id, h⟩ | ⟨f, h⟩ | ⟨f, l, h⟩ | ⟨f, l, h⟩
      · exact ⟨f, .inl ⟨id, h⟩⟩
      · exact ⟨f, .inr (.inl h)⟩
      · exact ⟨f, .inr (.inr (.inl ⟨l, h⟩))⟩
      · exact ⟨f, .inr (.inr (.inr ⟨l, h⟩))⟩
    obtain ⟨f, hat⟩ := this
    exact key n (List.mem_append_left _ (atSend_live hf.map hat)) hc
  case closeChan r rest n hl hw hn hc =>
    refine key n ?_ hc
    have := took_closed hn
    by_cases hr : r.chan = some n
    · exact List.mem_append_right _ (List.mem_filterMap.2 ⟨r, by rw [hw]; simp, hr⟩)
    · rw [if_neg hr] at this
      refine List.mem_append_left _ ?_
      rw [live_select hl]
      exact mem_of_count this
  case rlClose h => rcases hp with rfl | rfl <;> cases h
  case callClose h => rcases hp with rfl | rfl <;> cases h
  all_goals (rcases hp with hp | hp <;> cases hp)

end Stomp.Client
