import Verif.Proofs.Server.TopicOrder
import Verif.Props.Server.Conservation
/-! # Every message accepted has been taken by the processor or waits for it -/
namespace Stomp.Server
open Stomp
open Stomp.Spec (firstValue)

/-- What the processor took are messages that were sent, and it took them for their destination. -/
def TakenOk (B : Bytes → List Tag) (E : List Tag) (conns : List Conn) : Prop :=
  ∀ t ∈ E, ∃ k o, conns[t.src]? = some k ∧ o ∈ Spec.messages t.src 0 k.effective ∧ o.tag = t ∧ ∀ d, Spec.target o = some d → t ∈ B d

theorem taken_run {cfg : Config} {es : List Sys.Ev} {s : Sys} (h : Sys.init.run cfg es = some s) (hc : s.crashed = false) :
    TakenOk (fun d => Spec.broadcast d cfg es) (Spec.observe entered cfg Sys.init es) s.conns := by
  refine (trace_induction (P := fun es s => s.All (Origin s.conns) ∧ TakenOk (fun d => Spec.broadcast d cfg es) (Spec.observe entered cfg Sys.init es) s.conns)
    ⟨Sys.All.init _, fun t ht => by cases ht⟩ ?_ es s h hc).2.2.2
  intro es s e s' hi _ hr ⟨ha, hp⟩ hs
  refine ⟨origin_step hi ha hs, fun t ht => ?_⟩
  rw [observe_snoc _ _ _ _ _ hr] at ht
  have hb : ∀ d, Spec.broadcast d cfg (es ++ [e]) = Spec.broadcast d cfg es ++ castTag d s e := by
    intro d
    unfold Spec.broadcast castTag
    rw [observe_snoc _ _ _ _ _ hr, List.filterMap_append]
  have key : ∀ {k : Conn} {o : Msg}, s.conns[t.src]? = some k → o ∈ Spec.messages t.src 0 k.effective → o.tag = t →
      (∀ d, Spec.target o = some d → t ∈ Spec.broadcast d cfg (es ++ [e])) →
      ∃ k o, s'.conns[t.src]? = some k ∧ o ∈ Spec.messages t.src 0 k.effective ∧ o.tag = t ∧ ∀ d, Spec.target o = some d → t ∈ Spec.broadcast d cfg (es ++ [e]) := by
    intro k o hk ho hot hd
    obtain ⟨k', l, hk', he⟩ := effective_grows hi hs hk
    exact ⟨k', o, hk', by rw [he, messages_append]; exact List.mem_append_left _ ho, hot, hd⟩
  rcases List.mem_append.1 ht with ht | ht
  · obtain ⟨k, o, hk, ho, hot, hd⟩ := hp t ht
    exact key hk ho hot (fun d h => by rw [hb]; exact List.mem_append_left _ (hd d h))
  · unfold entered at ht
    split at ht
    · split at ht
      · rename_i m rs hreq
        rw [List.mem_singleton] at ht; subst ht
        obtain ⟨k, o, hk, ho, hot, _, _, hoth⟩ := ha.enq m (by rw [hreq]; simp)
        refine key hk ho hot (fun d hd => ?_)
        rw [hb]
        refine List.mem_append_right _ ?_
        have hm : Spec.target m = some d := by
          have : firstValue m.frame.header b!"destination" = firstValue o.frame.header b!"destination" := others_value hoth (by decide)
          exact this.trans hd
        unfold castTag Spec.askedTopic
        dsimp only
        rw [hreq]
        dsimp only
        rw [if_pos hm]
        simp [Spec.castOf]
      · cases ht
    · cases ht

theorem taken_or_pending {cfg : Config} {es : List Sys.Ev} {s : Sys} (h : Sys.init.run cfg es = some s) (hc : s.crashed = false) {c : Nat} {k : Conn}
    (hk : s.conns[c]? = some k) {o : Msg} (ho : o ∈ Spec.messages c 0 k.effective) {d : Bytes} (hd : Spec.target o = some d) :
    o.tag ∈ Spec.broadcast d cfg es ∨ o.tag ∈ Spec.pendingRequests s := by
  have h1 := sent_run h hc c k hk
  have h2 : o.tag ∈ (Spec.messages c 0 k.effective).map (·.tag) := List.mem_map_of_mem ho
  have sub : ∀ {l : List Req} {t : Tag}, t ∈ enqTags l → t ∈ Spec.inRequests l := by
    intro l t ht
    obtain ⟨r, hr, hrt⟩ := List.mem_filterMap.1 ht
    refine List.mem_filterMap.2 ⟨r, hr, ?_⟩
    cases r <;> first | exact hrt | cases hrt
  rw [← h1] at h2
  rcases List.mem_append.1 h2 with h2 | h2
  · rcases List.mem_append.1 ((List.mem_filter.1 h2).1) with h2 | h2
    · left
      obtain ⟨k', o', hk', ho', hot, hd'⟩ := taken_run h hc _ h2
      rw [(messages_tag ho).1, hk] at hk'
      injection hk' with hk'; subst hk'
      rw [(messages_tag ho).1] at ho'
      have := messages_inj ho' ho hot
      subst this
      exact hd' d hd
    · right; exact List.mem_append_left _ (sub h2)
  · right
    refine List.mem_append_right _ (List.mem_flatMap.2 ⟨k, List.mem_of_getElem? hk, ?_⟩)
    rw [unsent_eq]; exact sub h2

end Stomp.Server
