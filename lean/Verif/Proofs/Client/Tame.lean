import Verif.Proofs.Client.NilResponse
import Verif.Proofs.Client.Library
/-! # Users who set no receipt header on subscriptions -/
namespace Stomp.Client
open Stomp

/-- The calls of an execution are those of its events. -/
theorem calls_run {cfg : Cfg} {P : Call → Prop} : ∀ {es : List Ev} {s s' : Sys}, (∀ c, Ev.call c ∈ es → P c) →
    (∀ (t : Nat) (th : Thread), s.threads[t]? = some th → P th.call) → s.run cfg es = some s' →
    ∀ (t : Nat) (th : Thread), s'.threads[t]? = some th → P th.call
  | [], s, s', _, hi, h => by cases h; exact hi
  | e :: es, s, s', he, hi, h => by
    simp only [Sys.run, Option.bind_eq_some_iff] at h
    obtain ⟨s1, h1, h2⟩ := h
    refine calls_run (fun c hc => he c (List.mem_cons_of_mem _ hc)) ?_ h2
    intro t th1 ht1
    cases ht : s.threads[t]? with
    | some th =>
      obtain ⟨th2, ht2, e2⟩ := (ext_step (step_cases h1).2).threads t th ht
      rw [ht1] at ht2; cases ht2
      rw [e2]
      exact hi t th ht
    | none =>
      have hlt := (List.getElem?_eq_some_iff.1 ht1).1
      rw [List.getElem?_eq_none_iff] at ht
      by_cases hc : ∃ c, e = .call c
      · obtain ⟨c, rfl⟩ := hc
        have : s1 = { s with threads := s.threads ++ [{ call := c, pc := .start, helper := .none }] } := by
          unfold Sys.step at h1
          dsimp only at h1
          repeat' split at h1
          all_goals first | contradiction | exact (Option.some.inj h1).symm
        subst this
        simp only [List.length_append, List.length_singleton] at hlt
        have : t = s.threads.length := by omega
        subst this
        simp only [List.getElem?_append_right (Nat.le_refl _), Nat.sub_self] at ht1
        cases ht1
        exact he c (by simp)
      · have := len_step h1 (fun c e => hc ⟨c, e⟩)
        omega

/-- A SUBSCRIBE frame asks for a receipt only if an option makes it. -/
theorem subscribe_unset {last last' : Nat} {d : Bytes} {a : AckMode} {os : List SubOpt} {f : Frame} {id : Bytes} {rt : Bool}
    (h : createSubscribeFrame last d a os = some (last', f, id, rt)) (hr : ∀ k v, SubOpt.header k v ∈ os → k ≠ Hdr.receipt) :
    f.header.contains Hdr.receipt = none := by
  unfold createSubscribeFrame at h
  dsimp only at h
  split at h
  · cases h
  · rename_i f1 h1
    have e1 : f1.header.contains Hdr.receipt = none := by
      rw [applySubOpts_plain (fun o h2 => ⟨fun i e => by decide, fun k v e => hr k v (e ▸ h2)⟩) h1]
      show Header.contains [(Hdr.destination, d), (Hdr.ack, a.str)] Hdr.receipt = none
      simp only [Header.contains]
      rw [if_neg (by decide), if_neg (by decide)]
    have e2 : ∀ v, (f1.header.set Hdr.id v).contains Hdr.receipt = none := fun v =>
      (hdr_contains_set _ _ _ _).trans ((if_neg (by decide)).trans e1)
    repeat' split at h
    all_goals cases h
    all_goals first | exact e1 | exact e2 _ | exact (hdr_contains_add _ Hdr.id _ _ (by decide)).trans e1 |
      exact (hdr_contains_add _ Hdr.id _ _ (by decide)).trans (e2 _)

end Stomp.Client
