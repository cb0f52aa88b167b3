import Verif.Proofs.Bytes
import Verif.Proofs.Header
import Verif.Spec.Library
import Verif.Proofs.Client.Serve
/-! # Ids made by the library are those of one request each -/
namespace Stomp.Client
open Stomp

theorem len_modify (l : List Thread) (t : Nat) (g : Thread → Thread) : (l.modify t g).length = l.length := by simp

theorem len_frameDone (s : Sys) (t : Nat) (c : Call) (r : Res) : (s.frameDone t c r).threads.length = s.threads.length := by
  obtain ⟨pc, _, h, _⟩ := frameDone_past s t c r
  rw [h, len_modify]

theorem len_handOver {s s' : Sys} {n : Nat} {f : Frame} {b : Bool} (h : s.handOver n f b = some s') :
    s'.threads.length = s.threads.length := by
  obtain ⟨_, h | ⟨t, th, pc, _, _, _, h⟩⟩ := handOver_past h
  · rw [h]
  · rw [h, len_modify]

theorem len_closeChan (s : Sys) (n : Nat) : (s.closeChan n).threads.length = s.threads.length := by
  rw [(closeChan_spec s n).2.2.2.2.2.2.2.1]

theorem len_takeReq (s : Sys) (r : Req) (rest : List Req) : (s.takeReq r rest).1.threads.length = s.threads.length := by
  rw [(takeReq_spec s r rest).2.2.2.2.2.2.2.1]

theorem len_frameEnter {s s' : Sys} {t : Nat} {c : Call} {f : Frame} (h : s.frameEnter t c f = some s') :
    s'.threads.length = s.threads.length := by
  unfold Sys.frameEnter at h
  repeat' split at h
  all_goals first | contradiction | simp only [Option.some.injEq] at h
  all_goals subst h
  · rw [len_frameDone]; rfl
  all_goals simp [Sys.goto, Sys.lock, Sys.newChan]

theorem len_thread {cfg : Cfg} {s s' : Sys} {t : Nat} (h : s.thread cfg t = some s') : s'.threads.length = s.threads.length := by
  unfold Sys.thread at h
  repeat' split at h
  all_goals try contradiction
  · unfold Sys.begin at h
    repeat' split at h
    all_goals first | contradiction | exact len_frameEnter h | simp only [Option.some.injEq] at h
    all_goals subst h
    all_goals simp [Sys.goto, Sys.newChan, Sys.ret, Sys.log, Sys.closeNet, Sys.crash, Sys.markClosed, Sys.setSub]
  · exact len_frameEnter h
  · unfold Sys.push at h
    dsimp only at h
    repeat' split at h
    all_goals first | contradiction | simp only [Option.some.injEq] at h
    all_goals subst h
    all_goals first
      | (rw [len_frameDone]; rfl)
      | simp [Sys.goto, Sys.ret, Sys.log, Sys.unlock, Sys.crash, (handOut_spec _ _).2.2.1]
  · unfold Sys.waitClosed at h
    repeat' split at h
    all_goals first | contradiction | simp only [Option.some.injEq] at h
    all_goals subst h
    all_goals first
      | rfl
      | rw [len_frameDone]
  · obtain ⟨_, ⟨h1, _⟩ | ⟨_, pc, hp, h1, _⟩⟩ := unsub_spec h
    · rw [h1]
    · rw [h1, len_modify]

theorem len_loop {s s' : Sys} {ok : Bool} {order : List Nat} (h : s.loopWrite ok order = some s') :
    s'.threads.length = s.threads.length := by
  unfold Sys.loopWrite Sys.failWith at h
  split at h
  · repeat' split at h
    all_goals first | contradiction | simp only [Option.some.injEq] at h
    all_goals subst h
    all_goals rfl
  · rename_i r rest _
    have := len_takeReq s r rest
    split at h
    all_goals rename_i he
    all_goals rw [he] at this
    all_goals repeat' split at h
    all_goals first | contradiction | simp only [Option.some.injEq] at h
    all_goals subst h
    all_goals exact this

theorem len_step {cfg : Cfg} {s s' : Sys} {e : Ev} (h : s.step cfg e = some s') (hc : ∀ c, e ≠ .call c) :
    s'.threads.length = s.threads.length := by
  unfold Sys.step at h
  split at h
  · cases h
  · split at h
    · exact absurd rfl (hc _)
    · exact len_thread h
    · unfold Sys.timeout at h
      repeat' split at h
      all_goals first | contradiction | simp only [Option.some.injEq] at h
      all_goals subst h
      all_goals first
        | rw [len_frameDone]
        | simp [Sys.goto, Sys.ret, Sys.log, Sys.unlock, Sys.markClosed]
    · obtain ⟨_, _, ⟨h1, _⟩ | ⟨_, hp, h1⟩⟩ := helper_spec h
      · rw [h1]
      · rw [h1, len_modify]
    · repeat' split at h
      all_goals first | contradiction | simp only [Option.some.injEq] at h
      all_goals subst h
      all_goals rfl
    · repeat' split at h
      all_goals first | contradiction | simp only [Option.some.injEq] at h
      all_goals subst h
      all_goals rfl
    · split at h
      · unfold Sys.loopRead Sys.failWith at h
        dsimp only at h
        repeat' split at h
        all_goals first | contradiction | simp only [Option.some.injEq] at h
        all_goals subst h
        all_goals rfl
      · cases h
    · split at h
      · exact len_loop h
      · cases h
    · unfold Sys.loopBeat Sys.failWith at h
      repeat' split at h
      all_goals first | contradiction | simp only [Option.some.injEq] at h
      all_goals subst h
      all_goals rfl
    · unfold Sys.failWith at h
      repeat' split at h
      all_goals first | contradiction | simp only [Option.some.injEq] at h
      all_goals subst h
      all_goals rfl
    · unfold Sys.deliver at h
      repeat' split at h
      all_goals first
        | contradiction
        | (simp only [Option.some.injEq] at h; subst h; rfl)
        | (simp only [Option.map_eq_some_iff] at h
           obtain ⟨s1, h1, h2⟩ := h
           have := len_handOver h1
           subst h2
           first
             | exact this
             | (rw [len_closeChan]; exact this))
    · unfold Sys.finish at h
      repeat' split at h
      all_goals first | contradiction | simp only [Option.some.injEq] at h
      all_goals subst h
      all_goals rfl
    · rw [(subStep_spec h).2.2]
    · repeat' split at h
      all_goals first | contradiction | simp only [Option.some.injEq] at h
      all_goals subst h
      all_goals rfl
    · simp only [Option.some.injEq] at h
      subst h
      rfl

/-! ## The ids in the frames -/

theorem hdr_contains_add (h : Header) (k v q : Bytes) (hk : k ≠ q) : (h.add k v).contains q = h.contains q := by
  rw [contains_eq, firstValue_add, if_neg hk, contains_eq]
  cases Spec.firstValue h q <;> rfl

theorem hdr_contains_set (h : Header) (k v q : Bytes) : (h.set k v).contains q = if k = q then some v else h.contains q := by
  rw [contains_eq, firstValue_set, contains_eq]

theorem hdr_contains_del (h : Header) (k q : Bytes) (hk : k ≠ q) : (h.del k).contains q = h.contains q := by
  rw [contains_eq, firstValue_del, if_neg hk, contains_eq]

/-- The ids taken from the counter between two values. -/
def Fresh (a b : Nat) (k : Bytes) : Prop := ∃ j, a < j ∧ j ≤ b ∧ k = fmtUint j

theorem Fresh.mono {a b a' b' : Nat} {k : Bytes} (h : Fresh a b k) (ha : a' ≤ a) (hb : b ≤ b') : Fresh a' b' k := by
  obtain ⟨j, h1, h2, h3⟩ := h
  exact ⟨j, by omega, by omega, h3⟩

theorem alloc_fresh {a : Nat} (h : a + 1 < 2 ^ 64) : (allocateId a).1 = a + 1 ∧ Fresh a (a + 1) (allocateId a).2 := by
  have : (a + 1) % 2 ^ 64 = a + 1 := Nat.mod_eq_of_lt h
  refine ⟨this, a + 1, by omega, by omega, ?_⟩
  show fmtUint ((a + 1) % 2 ^ 64) = _
  rw [this]

theorem applySendOpts_receipt {os : List SendOpt} {last last' : Nat} {f f' : Frame}
    (ho : (os.all fun o => match o with | .header k _ => decide (k ≠ Hdr.receipt) | _ => true) = true)
    (hr : last + os.count .receipt < 2 ^ 64) (h : applySendOpts last f os = some (last', f')) :
    last ≤ last' ∧ ∀ k, f'.header.contains Hdr.receipt = some k → f.header.contains Hdr.receipt = some k ∨ Fresh last last' k := by
  induction os generalizing last f with
  | nil =>
    simp only [applySendOpts, Option.some.injEq, Prod.mk.injEq] at h
    obtain ⟨rfl, rfl⟩ := h
    exact ⟨Nat.le_refl _, fun k hk => .inl hk⟩
  | cons o os ih =>
    rw [List.all_cons, Bool.and_eq_true] at ho
    rw [List.count_cons] at hr
    unfold applySendOpts at h
    split at h
    · cases h
    · rename_i last1 f1 h1
      have main : last ≤ last1 ∧ last1 + os.count .receipt < 2 ^ 64 ∧
          ∀ k, f1.header.contains Hdr.receipt = some k → f.header.contains Hdr.receipt = some k ∨ Fresh last last1 k := by
        unfold applySendOpt at h1
        split at h1
        · simp only [Option.some.injEq, Prod.mk.injEq] at h1
          obtain ⟨rfl, rfl⟩ := h1
          exact ⟨Nat.le_refl _, by simpa using hr, fun k hk => .inl hk⟩
        · split at h1
          · cases h1
          · simp only [Option.some.injEq, Prod.mk.injEq] at h1
            have ha := alloc_fresh (a := last) (by simp at hr; omega)
            obtain ⟨h2, rfl⟩ := h1
            rw [ha.1] at h2
            subst h2
            refine ⟨by omega, by simp at hr; omega, ?_⟩
            intro k hk
            rw [hdr_contains_set, if_pos rfl] at hk
            cases hk
            exact .inr ha.2
        · split at h1
          · cases h1
          · simp only [Option.some.injEq, Prod.mk.injEq] at h1
            obtain ⟨rfl, rfl⟩ := h1
            refine ⟨Nat.le_refl _, by simpa using hr, fun k hk => .inl ?_⟩
            rwa [hdr_contains_del _ _ _ (by decide)] at hk
        · split at h1
          · cases h1
          · simp only [Option.some.injEq, Prod.mk.injEq] at h1
            obtain ⟨rfl, rfl⟩ := h1
            refine ⟨Nat.le_refl _, by simpa using hr, fun k hk => .inl ?_⟩
            rwa [hdr_contains_add _ _ _ _ (by simpa using ho.1)] at hk
        · cases h1
      obtain ⟨h2, h3⟩ := ih ho.2 main.2.1 h
      refine ⟨by omega, fun k hk => ?_⟩
      rcases h3 k hk with h4 | h4
      · rcases main.2.2 k h4 with h5 | h5
        · exact .inl h5
        · exact .inr (h5.mono (Nat.le_refl _) h2)
      · exact .inr (h4.mono main.1 (Nat.le_refl _))

theorem send_receipt {last last' : Nat} {d c b : Bytes} {os : List SendOpt} {f : Frame}
    (ho : Spec.leavesIds (.send d c b os) = true) (hr : last + os.count .receipt < 2 ^ 64)
    (h : createSendFrame last d c b os = some (last', f)) :
    last ≤ last' ∧ ∀ k, f.header.contains Hdr.receipt = some k → Fresh last last' k := by
  obtain ⟨h1, h2⟩ := applySendOpts_receipt ho hr h
  refine ⟨h1, fun k hk => (h2 k hk).resolve_left ?_⟩
  split
  · rw [hdr_contains_set, if_neg (by decide), hdr_contains_set, if_neg (by decide)]
    show Header.contains [(Hdr.contentLength, _)] Hdr.receipt ≠ _
    simp [Header.contains, show Hdr.contentLength ≠ Hdr.receipt from by decide]
  · rw [hdr_contains_set, if_neg (by decide)]
    show Header.contains [(Hdr.contentLength, _)] Hdr.receipt ≠ _
    simp [Header.contains, show Hdr.contentLength ≠ Hdr.receipt from by decide]

theorem applySubOpts_plain {os : List SubOpt} {f f' : Frame} {q : Bytes}
    (ho : ∀ o ∈ os, (∀ i, o = .id i → q ≠ Hdr.id) ∧ ∀ k v, o = .header k v → k ≠ q) (h : applySubOpts f os = some f') :
    f'.header.contains q = f.header.contains q := by
  induction os generalizing f with
  | nil => simp only [applySubOpts, Option.some.injEq] at h; rw [h]
  | cons o os ih =>
    unfold applySubOpts at h
    split at h
    · cases h
    · rename_i f1 h1
      rw [ih (fun o h => ho o (by simp [h])) h]
      have ho := ho o (by simp)
      unfold applySubOpt at h1
      split at h1
      · cases h1; rfl
      · split at h1
        · cases h1
        · cases h1
          exact (hdr_contains_set _ _ _ _).trans (if_neg (fun e => ho.1 _ rfl e.symm))
      · split at h1
        · cases h1
        · cases h1
          exact hdr_contains_add _ _ _ _ (ho.2 _ _ rfl)
      · cases h1

theorem applyUnsubOpts_plain {os : List SubOpt} {f f' : Frame} {q : Bytes} (hq : q ≠ Hdr.id)
    (ho : ∀ o ∈ os, ∀ k v, o = SubOpt.header k v → k ≠ q) (h : applyUnsubOpts f os = some f') :
    f'.header.contains q = f.header.contains q := by
  induction os generalizing f with
  | nil => simp only [applyUnsubOpts, Option.some.injEq] at h; rw [h]
  | cons o os ih =>
    unfold applyUnsubOpts at h
    split at h
    · cases h; rfl
    · cases h
    · split at h
      · cases h
      · rename_i o' os' heq _ f1 h1
        cases heq
        rw [ih (fun o h => ho o (by simp [h])) h]
        have ho := ho o (by simp)
        unfold applySubOpt at h1
        split at h1
        · cases h1; rfl
        · split at h1
          · cases h1
          · cases h1
            exact (hdr_contains_set _ _ _ _).trans (if_neg (fun e => hq e.symm))
        · split at h1
          · cases h1
          · cases h1
            exact hdr_contains_add _ _ _ _ (ho _ _ rfl)
        · cases h1

theorem subscribe_plain {last last' : Nat} {d : Bytes} {a : AckMode} {os : List SubOpt} {f : Frame} {id : Bytes} {rt : Bool}
    (ho : Spec.leavesIds (.subscribe d a os) = true) (h : createSubscribeFrame last d a os = some (last', f, id, rt)) :
    last' = (allocateId last).1 ∧ f.header.contains Hdr.receipt = none ∧ f.header.contains Hdr.replyTo = none ∧
      f.header.contains Hdr.id = some (allocateId last).2 := by
  have hop : ∀ o ∈ os, (∀ i, o ≠ .id i) ∧ ∀ k v, o = .header k v → k ≠ Hdr.receipt ∧ k ≠ Hdr.id ∧ k ≠ Hdr.replyTo := by
    intro o h
    have := List.all_eq_true.1 ho o h
    constructor
    · rintro i rfl; cases this
    · rintro k v rfl; simpa using this
  have hq : ∀ q f', q = Hdr.receipt ∨ q = Hdr.id ∨ q = Hdr.replyTo →
      applySubOpts (Frame.new Cmd.subscribe [(Hdr.destination, d), (Hdr.ack, a.str)]) os = some f' →
      f'.header.contains q = none := by
    intro q f' hq h1
    rw [applySubOpts_plain (fun o h2 => ⟨fun i e => absurd e ((hop o h2).1 i), fun k v e => ?_⟩) h1]
    · show Header.contains [(Hdr.destination, d), (Hdr.ack, a.str)] q = none
      rcases hq with rfl | rfl | rfl
      all_goals
        simp only [Header.contains]
        rw [if_neg (by decide), if_neg (by decide)]
    · obtain ⟨g1, g2, g3⟩ := (hop o h2).2 k v e
      rcases hq with rfl | rfl | rfl <;> assumption
  unfold createSubscribeFrame at h
  dsimp only at h
  split at h
  · cases h
  · rename_i f1 h1
    have r1 := hq _ _ (.inl rfl) h1
    have r2 := hq _ _ (.inr (.inl rfl)) h1
    have r3 := hq _ _ (.inr (.inr rfl)) h1
    rw [r3] at h
    dsimp only at h
    rw [r2] at h
    simp only [Option.some.injEq, Prod.mk.injEq] at h
    obtain ⟨e1, rfl, rfl, _⟩ := h
    refine ⟨e1.symm, ?_, ?_, ?_⟩
    · rw [hdr_contains_add _ _ _ _ (by decide)]; exact r1
    · rw [hdr_contains_add _ _ _ _ (by decide)]; exact r3
    · rw [contains_eq, firstValue_add, ← contains_eq, r2, if_pos rfl]; rfl

theorem subscribe_id {last last' : Nat} {d : Bytes} {a : AckMode} {os : List SubOpt} {f : Frame} {id : Bytes} {rt : Bool}
    (ho : Spec.leavesIds (.subscribe d a os) = true) (hr : last + 1 < 2 ^ 64)
    (h : createSubscribeFrame last d a os = some (last', f, id, rt)) :
    last ≤ last' ∧ f.header.contains Hdr.receipt = none ∧ ∀ k, Spec.Registers f k → Fresh last last' k := by
  obtain ⟨e1, h1, h2, h3⟩ := subscribe_plain ho h
  have ha := alloc_fresh hr
  rw [ha.1] at e1
  subst e1
  refine ⟨by omega, h1, ?_⟩
  rintro k (hk | ⟨_, hk⟩)
  · rw [h1] at hk; cases hk
  · rw [h2, h3] at hk
    subst hk
    exact ha.2

theorem unsubscribe_bare {id : Bytes} {rt : Bool} {i : Nat} {os : List SubOpt} {f : Frame}
    (ho : Spec.leavesIds (.unsubscribe i os) = true) (h : createUnsubscribeFrame id rt os = some f) :
    f.header.contains Hdr.receipt = none := by
  unfold createUnsubscribeFrame at h
  split at h
  · cases h
  · rename_i f1 h1
    have := applyUnsubOpts_plain (q := Hdr.receipt) (by decide) (fun o h2 k v e => by
      have := List.all_eq_true.1 ho o h2
      subst e
      simpa using this) h1
    have h2 : f1.header.contains Hdr.receipt = none := by
      rw [this]
      show Header.contains [(Hdr.id, id)] Hdr.receipt = none
      simp only [Header.contains]
      rw [if_neg (by decide)]
    split at h
    · cases h
      exact (hdr_contains_set _ _ _ _).trans ((if_neg (by decide)).trans h2)
    · cases h
      exact h2

/-! ## Whose an id is -/

/-- The key `k` belongs to caller `t`: it is in the frame the caller was given, in the request it is about to hand
over, or in the one it has handed over. -/
def Claim (s : Sys) (t : Nat) (k : Bytes) : Prop :=
  (∃ th f, s.threads[t]? = some th ∧ th.call = .frame f ∧ f.header.contains Hdr.receipt = some k) ∨
  (∃ th r, s.threads[t]? = some th ∧ th.pc = .push r ∧ r.chan ≠ none ∧ Spec.Registers r.frame k) ∨
  ∃ r, (t, r) ∈ acceptedIn s.trace ∧ r.chan ≠ none ∧ Spec.Registers r.frame k

theorem threads_modify (l : List Thread) (t0 t : Nat) (g : Thread → Thread) :
    (l.modify t0 g)[t]? = if t0 = t then l[t]?.map g else l[t]? := by
  rw [List.getElem?_modify]
  split <;> simp

theorem handOver_lastId {s s' : Sys} {n : Nat} {f : Frame} {b : Bool} (h : s.handOver n f b = some s') :
    s'.lastId = s.lastId := by
  cases handOver_cases h with
  | frame => exact (frameDone_spec _ _ _ _).choose_spec.1.lastId
  | _ => rfl

theorem unsub_command {id : Bytes} {rt : Bool} {os : List SubOpt} {f : Frame}
    (h : createUnsubscribeFrame id rt os = some f) : f.command = Cmd.unsubscribe := by
  unfold createUnsubscribeFrame at h
  split at h
  · cases h
  · rename_i f1 h1
    have := applyUnsubOpts_command h1
    cases h
    split <;> exact this

/-- No new keys, as long as no caller gets a new request. -/
theorem claim_modify {s s' : Sys} {t0 : Nat} {g : Thread → Thread} (h1 : s'.threads = s.threads.modify t0 g)
    (hg : ∀ b, (g b).call = b.call) (h2 : acceptedIn s'.trace = acceptedIn s.trace)
    (hp : ∀ th, s.threads[t0]? = some th → ∀ r, (g th).pc = .push r → th.pc = .push r) {t : Nat} {k : Bytes}
    (h : Claim s' t k) : Claim s t k := by
  unfold Claim at h
  rw [h1, h2, threads_modify] at h
  by_cases ht : t0 = t
  · subst ht
    rw [if_pos rfl] at h
    rcases h with ⟨th, f, g1, g2, g3⟩ | ⟨th, r, g1, g2, g3⟩ | h
    · rw [Option.map_eq_some_iff] at g1
      obtain ⟨th0, g1, rfl⟩ := g1
      rw [hg] at g2
      exact .inl ⟨th0, f, g1, g2, g3⟩
    · rw [Option.map_eq_some_iff] at g1
      obtain ⟨th0, g1, rfl⟩ := g1
      exact .inr (.inl ⟨th0, r, g1, hp th0 g1 r g2, g3⟩)
    · exact .inr (.inr h)
  · rw [if_neg ht] at h
    exact h

/-- A caller gets the request `r0`. -/
theorem claim_push {s s' : Sys} {t0 : Nat} {r0 : Req}
    (h1 : s'.threads = s.threads.modify t0 fun th => { th with pc := .push r0 })
    (h2 : acceptedIn s'.trace = acceptedIn s.trace) {t : Nat} {k : Bytes}
    (h : Claim s' t k) : Claim s t k ∨ (t = t0 ∧ r0.chan ≠ none ∧ Spec.Registers r0.frame k) := by
  unfold Claim at h
  rw [h1, h2, threads_modify] at h
  by_cases ht : t0 = t
  · subst ht
    rw [if_pos rfl] at h
    rcases h with ⟨th, f, g1, g2, g3⟩ | ⟨th, r, g1, g2, g3⟩ | h
    · rw [Option.map_eq_some_iff] at g1
      obtain ⟨th0, g1, rfl⟩ := g1
      exact .inl (.inl ⟨th0, f, g1, g2, g3⟩)
    · rw [Option.map_eq_some_iff] at g1
      obtain ⟨th0, g1, rfl⟩ := g1
      cases g2
      exact .inr ⟨rfl, g3⟩
    · exact .inl (.inr (.inr h))
  · rw [if_neg ht] at h
    exact .inl h

/-- The request is handed over. -/
theorem claim_accept {s s' : Sys} {t0 : Nat} {th0 : Thread} {r0 : Req} {pc : Pc} (ht0 : s.threads[t0]? = some th0)
    (hpc : th0.pc = .push r0) (h1 : s'.threads = s.threads.modify t0 fun th => { th with pc := pc })
    (hp : ∀ r, pc ≠ .push r) (h2 : acceptedIn s'.trace = acceptedIn s.trace ++ [(t0, r0)]) {t : Nat} {k : Bytes}
    (h : Claim s' t k) : Claim s t k := by
  unfold Claim at h
  rw [h1, h2, threads_modify] at h
  rcases h with h | h | ⟨r, g1, g2⟩
  · refine .inl ?_
    by_cases ht : t0 = t
    · subst ht
      rw [if_pos rfl] at h
      obtain ⟨th, f, g1, g2, g3⟩ := h
      rw [Option.map_eq_some_iff] at g1
      obtain ⟨th1, g1, rfl⟩ := g1
      exact ⟨th1, f, g1, g2, g3⟩
    · rw [if_neg ht] at h
      exact h
  · refine .inr (.inl ?_)
    by_cases ht : t0 = t
    · subst ht
      rw [if_pos rfl] at h
      obtain ⟨th, f, g1, g2, g3⟩ := h
      rw [Option.map_eq_some_iff] at g1
      obtain ⟨th1, g1, rfl⟩ := g1
      exact absurd g2 (hp _)
    · rw [if_neg ht] at h
      exact h
  · rcases List.mem_append.1 g1 with g1 | g1
    · exact .inr (.inr ⟨r, g1, g2⟩)
    · simp only [List.mem_singleton, Prod.mk.injEq] at g1
      obtain ⟨rfl, rfl⟩ := g1
      exact .inr (.inl ⟨th0, r, ht0, hpc, g2⟩)

theorem room_spec {s : Sys} (h : Spec.room s = true) : s.lastId + 1 < 2 ^ 64 ∧
    ∀ (t : Nat) (th : Thread), s.threads[t]? = some th → s.lastId + Spec.asks th.call < 2 ^ 64 := by
  unfold Spec.room at h
  rw [Bool.and_eq_true, decide_eq_true_eq] at h
  refine ⟨h.1, fun t th ht => ?_⟩
  simpa using List.all_eq_true.1 h.2 th (List.mem_of_getElem? ht)

/-- The frame a caller is about to hand over: its receipt id is new, or that of the frame it was given. -/
theorem acquire_key {s : Sys} {t : Nat} {th : Thread} {f : Frame} {last : Nat} (ht : s.threads[t]? = some th)
    (hr : Spec.room s = true) (ho : CallerOk s t th) (hl : Spec.leavesIds th.call = true) (ha : Acquire s th f last) :
    s.lastId ≤ last ∧ f.command ≠ Cmd.subscribe ∧
      ∀ k, f.header.contains Hdr.receipt = some k → Claim s t k ∨ Fresh s.lastId last k := by
  obtain ⟨r1, r2⟩ := room_spec hr
  cases ha with
  | @send d c b o _ _ hpc hcall hf =>
    have h1 := r2 t th ht
    rw [hcall] at hl h1
    obtain ⟨h2, h3⟩ := send_receipt hl h1 hf
    refine ⟨h2, ?_, fun k hk => .inr (h3 k hk)⟩
    rw [createSendFrame_command hf]
    decide
  | frame hpc hcall =>
    refine ⟨Nat.le_refl _, ?_, fun k hk => .inl (.inl ⟨th, _, ht, hcall, hk⟩)⟩
    intro he
    have := ho.raw _ hcall
    rw [he] at this
    exact absurd this (by decide)
  | lock hpc =>
    obtain ⟨h1, i, o, h2⟩ := ho.lock _ hpc
    rw [h2] at h1 hl
    obtain ⟨b, hb, hf⟩ := h1
    have h3 := unsubscribe_bare hl hf
    refine ⟨Nat.le_refl _, ?_, fun k hk => by rw [h3] at hk; cases hk⟩
    rw [unsub_command hf]
    decide
  | disconnect hpc hcall =>
    obtain ⟨h1, h2⟩ := alloc_fresh r1
    rw [h1]
    refine ⟨by omega, ?_, fun k hk => .inr ?_⟩
    · show Cmd.disconnect ≠ Cmd.subscribe
      decide
    · have : some (allocateId s.lastId).2 = some k := hk
      cases this
      exact h2

structure LibInv (pool : List Bytes) (s : Sys) : Prop where
  calls : ∀ (t : Nat) (th : Thread), s.threads[t]? = some th → Spec.leavesIds th.call = true
  below : ∀ t k, Claim s t k → ∃ j, j ≤ s.lastId ∧ k = fmtUint j
  one : ∀ t t' k, Claim s t k → Claim s t' k → t = t'
  left : ∀ k ∈ pool, (∃ j, j ≤ s.lastId ∧ k = fmtUint j) ∧ ∀ t, ¬ Claim s t k
  nodup : pool.Nodup

theorem fresh_above {a b j : Nat} {k : Bytes} (h : Fresh a b k) (hj : j ≤ a) : k ≠ fmtUint j := by
  obtain ⟨i, h1, _, rfl⟩ := h
  intro he
  have := fmtUint_inj he
  omega

theorem lib_grow {pool : List Bytes} {s s' : Sys} (hi : LibInv pool s) (hle : s.lastId ≤ s'.lastId) (t0 : Nat)
    (hc : ∀ t k, Claim s' t k → Claim s t k ∨ (t = t0 ∧ Fresh s.lastId s'.lastId k))
    (hcalls : ∀ (t : Nat) (th : Thread), s'.threads[t]? = some th → Spec.leavesIds th.call = true) : LibInv pool s' := by
  refine ⟨hcalls, ?_, ?_, ?_, hi.nodup⟩
  · intro t k h
    rcases hc t k h with h | ⟨_, j, _, h2, h3⟩
    · obtain ⟨j, h1, h2⟩ := hi.below t k h
      exact ⟨j, by omega, h2⟩
    · exact ⟨j, h2, h3⟩
  · intro t t' k h h'
    rcases hc t k h with h | ⟨rfl, h⟩
    · rcases hc t' k h' with h' | ⟨rfl, h'⟩
      · exact hi.one t t' k h h'
      · obtain ⟨j, g1, g2⟩ := hi.below t k h
        exact absurd g2 (fresh_above h' g1)
    · rcases hc t' k h' with h' | ⟨rfl, h'⟩
      · obtain ⟨j, g1, g2⟩ := hi.below t' k h'
        exact absurd g2 (fresh_above h g1)
      · rfl
  · intro k hk
    obtain ⟨⟨j, g1, g2⟩, g3⟩ := hi.left k hk
    refine ⟨⟨j, by omega, g2⟩, fun t h => ?_⟩
    rcases hc t k h with h | ⟨_, h⟩
    · exact g3 t h
    · exact fresh_above h g1 g2

theorem lastId_le {cfg : Cfg} {s s' : Sys} (hr : Spec.room s = true) (ho : OriginInv s)
    (hl : ∀ (t : Nat) (th : Thread), s.threads[t]? = some th → Spec.leavesIds th.call = true) (h : Step cfg s s') : s.lastId ≤ s'.lastId := by
  cases h with
  | acquire ht hm hc ha => exact (acquire_key ht hr (ho.callers _ _ ht) (hl _ _ ht) ha).1
  | acquireBare ht hm hc ha => exact (acquire_key ht hr (ho.callers _ _ ht) (hl _ _ ht) ha).1
  | subscribe ht hpc hcall hm hc hf =>
    have := hl _ _ ht
    rw [hcall] at this
    exact (subscribe_id this (room_spec hr).1 hf).1
  | tick =>
    show s.lastId ≤ (allocateId s.lastId).1
    rw [(alloc_fresh (room_spec hr).1).1]
    omega
  | frameClosed => exact Nat.le_of_eq (frameDone_spec s.closeNet _ _ _).choose_spec.1.lastId.symm
  | @pushFrameRet t th r =>
    exact Nat.le_of_eq (frameDone_spec (Sys.unlock { s with writeCh := s.writeCh ++ [r], trace := s.trace ++ [.accepted t r] }) _ _
      _).choose_spec.1.lastId.symm
  | waitClosed => exact Nat.le_of_eq (frameDone_spec _ _ _ _).choose_spec.1.lastId.symm
  | frameTimeout => exact Nat.le_of_eq (frameDone_spec _ _ _ _).choose_spec.1.lastId.symm
  | @pushSub t th r n =>
    exact Nat.le_of_eq (handOut_spec { s with writeCh := s.writeCh ++ [r], trace := s.trace ++ [.accepted t r] } n).1.lastId.symm
  | unsub _ _ _ _ h => exact Nat.le_of_eq (unsub_spec h).1.lastId.symm
  | helper _ _ _ h => exact Nat.le_of_eq (helper_spec h).1.lastId.symm
  | sub h => exact Nat.le_of_eq (subStep_spec h).1.lastId.symm
  | takeQuiet => exact Nat.le_of_eq (takeReq_spec _ _ _).2.2.2.2.2.2.2.2.2.2.symm
  | takeSent => exact Nat.le_of_eq (takeReq_spec _ _ _).2.2.2.2.2.2.2.2.2.2.symm
  | takeFail => exact Nat.le_of_eq (takeReq_spec _ _ _).2.2.2.2.2.2.2.2.2.2.symm
  | giveReceipt hl hc h1 =>
    rw [(closeChan_spec _ _).2.2.2.2.2.2.2.2.2.2]
    exact Nat.le_of_eq (handOver_lastId h1).symm
  | giveErr hl hc h1 =>
    rw [(closeChan_spec _ _).2.2.2.2.2.2.2.2.2.2]
    exact Nat.le_of_eq (handOver_lastId h1).symm
  | giveMessage hl hc h1 => exact Nat.le_of_eq (handOver_lastId h1).symm
  | giveFail hl hc h1 => exact Nat.le_of_eq (handOver_lastId h1).symm
  | _ => exact Nat.le_refl _

theorem lib_quiet {cfg : Cfg} {pool : List Bytes} {s s' : Sys} (hi : LibInv pool s) (ho : OriginInv s)
    (hr : Spec.room s = true) (hs : Step cfg s s') (hlen : s'.threads.length = s.threads.length) : LibInv pool s' := by
  have hle := lastId_le hr ho hi.calls hs
  have hcalls : ∀ {t0 : Nat} {g : Thread → Thread}, s'.threads = s.threads.modify t0 g → (∀ b, (g b).call = b.call) →
      ∀ (t : Nat) (th : Thread), s'.threads[t]? = some th → Spec.leavesIds th.call = true := by
    intro t0 g h1 hg t th ht
    rw [h1, threads_modify] at ht
    split at ht
    · rw [Option.map_eq_some_iff] at ht
      obtain ⟨th0, g1, rfl⟩ := ht
      rw [hg]
      exact hi.calls t th0 g1
    · exact hi.calls t th ht
  cases eff_step hs with
  | same h1 h2 =>
    refine lib_grow hi hle 0 (fun t k h => .inl ?_) (by rw [h1]; exact hi.calls)
    unfold Claim at h ⊢
    rwa [h1, h2] at h
  | call c hl h1 h2 =>
    rw [h1] at hlen
    simp at hlen
  | @past t th g ht h1 hg hp h2 =>
    refine lib_grow hi hle 0 (fun u k h => .inl (claim_modify h1 hg h2 ?_ h)) (hcalls h1 hg)
    intro th' ht' r hr'
    rw [ht] at ht'
    cases ht'
    rw [hr'] at hp
    cases hp
  | helper h1 hg h2 =>
    refine lib_grow hi hle 0 (fun u k h => .inl (claim_modify h1 (fun b => (hg b).1) h2 ?_ h)) (hcalls h1 fun b => (hg b).1)
    intro th' ht' r hr'
    rw [(hg th').2] at hr'
    exact hr'
  | @acquire t th f last ht hm ha hr' h1 h3 h4 h2 h5 =>
    refine lib_grow hi hle t (fun u k h => ?_) (hcalls h1 fun b => rfl)
    obtain ⟨g1, g2, g3⟩ := acquire_key ht hr (ho.callers _ _ ht) (hi.calls _ _ ht) ha
    rcases claim_push h1 h2 h with h | ⟨rfl, _, h | h⟩
    · exact .inl h
    · rw [h5]
      exact (g3 k h).imp_right fun h => ⟨rfl, h⟩
    · exact absurd h.1 g2
  | @acquireBare t th f last ht hm ha hr' h1 h4 h2 =>
    refine lib_grow hi hle t (fun u k h => ?_) (hcalls h1 fun b => rfl)
    rcases claim_push h1 h2 h with h | ⟨rfl, h, _⟩
    · exact .inl h
    · exact absurd rfl h
  | @subscribe t th d a o last f id rt ht hm hpc hcall hf h1 h3 h4 h2 h5 =>
    refine lib_grow hi hle t (fun u k h => ?_) (hcalls h1 fun b => rfl)
    have hl := hi.calls _ _ ht
    rw [hcall] at hl
    obtain ⟨g1, g2, g3⟩ := subscribe_id hl (room_spec hr).1 hf
    rcases claim_push h1 h2 h with h | ⟨rfl, _, h⟩
    · exact .inl h
    · rw [h5]
      exact .inr ⟨rfl, g3 k h⟩
  | lock ht hpc hcall hb hf h1 h2 =>
    refine lib_grow hi hle 0 (fun u k h => .inl (claim_modify h1 (fun b => rfl) h2 ?_ h)) (hcalls h1 fun b => rfl)
    intro th' ht' r hr'
    cases hr'
  | accept ht hpc h1 hp h2 hw =>
    refine lib_grow hi hle 0 (fun u k h => .inl (claim_accept ht hpc h1 ?_ h2 h)) (hcalls h1 fun b => rfl)
    intro r he
    subst he
    rcases hp with hp | ⟨n, hp, _⟩ <;> cases hp

theorem lib_call {pool pool' : List Bytes} {s s' : Sys} {c : Call} (hi : LibInv pool s)
    (hs : s' = { s with threads := s.threads ++ [{ call := c, pc := .start, helper := .none }] })
    (hl : Spec.leavesIds c = true) (hp : pool' ⊆ pool) (hn : pool'.Nodup)
    (hk : ∀ f k, c = .frame f → f.header.contains Hdr.receipt = some k → k ∈ pool ∧ k ∉ pool') : LibInv pool' s' := by
  have hc : ∀ t k, Claim s' t k → Claim s t k ∨ (t = s.threads.length ∧ k ∈ pool ∧ k ∉ pool') := by
    intro t k h
    unfold Claim at h
    rw [hs] at h
    dsimp only at h
    rcases h with ⟨th, f, g1, g2, g3⟩ | ⟨th, r, g1, g2, g3⟩ | h
    · rw [List.getElem?_append] at g1
      split at g1
      · exact .inl (.inl ⟨th, f, g1, g2, g3⟩)
      · rename_i hlt
        obtain ⟨h1, h2⟩ := List.getElem?_eq_some_iff.1 g1
        simp only [List.length_singleton] at h1
        simp only [List.getElem_singleton] at h2
        subst h2
        exact .inr ⟨by omega, hk f k g2 g3⟩
    · rw [List.getElem?_append] at g1
      split at g1
      · exact .inl (.inr (.inl ⟨th, r, g1, g2, g3⟩))
      · obtain ⟨h1, h2⟩ := List.getElem?_eq_some_iff.1 g1
        simp only [List.getElem_singleton] at h2
        subst h2
        cases g2
    · exact .inl (.inr (.inr h))
  have hlast : s'.lastId = s.lastId := by rw [hs]
  refine ⟨?_, ?_, ?_, ?_, hn⟩
  · rw [hs]
    exact all_append (Q := fun _ th => Spec.leavesIds th.call = true) hi.calls hl
  · intro t k h
    rw [hlast]
    rcases hc t k h with h | ⟨_, h, _⟩
    · exact hi.below t k h
    · exact (hi.left k h).1
  · intro t t' k h h'
    rcases hc t k h with h | ⟨rfl, h, _⟩
    · rcases hc t' k h' with h' | ⟨rfl, h', _⟩
      · exact hi.one t t' k h h'
      · exact absurd h ((hi.left k h').2 t)
    · rcases hc t' k h' with h' | ⟨rfl, h', _⟩
      · exact absurd h' ((hi.left k h).2 t')
      · rfl
  · intro k hk
    rw [hlast]
    obtain ⟨g1, g2⟩ := hi.left k (hp hk)
    refine ⟨g1, fun t h => ?_⟩
    rcases hc t k h with h | ⟨_, _, h⟩
    · exact g2 t h
    · exact h hk

theorem lib_tick {pool : List Bytes} {s : Sys} {s' : Sys} (hi : LibInv pool s) (hr : Spec.room s = true)
    (hs : s' = { s with lastId := (allocateId s.lastId).1 }) : LibInv (fmtUint s'.lastId :: pool) s' := by
  have hlast : s'.lastId = s.lastId + 1 := by rw [hs]; exact (alloc_fresh (room_spec hr).1).1
  have hc : ∀ t k, Claim s' t k ↔ Claim s t k := by rw [hs]; exact fun _ _ => Iff.rfl
  refine ⟨by rw [hs]; exact hi.calls, ?_, ?_, ?_, ?_⟩
  · intro t k h
    obtain ⟨j, g1, g2⟩ := hi.below t k ((hc t k).1 h)
    exact ⟨j, by omega, g2⟩
  · intro t t' k h h'
    exact hi.one t t' k ((hc _ _).1 h) ((hc _ _).1 h')
  · intro k hk
    rcases List.mem_cons.1 hk with rfl | hk
    · refine ⟨⟨_, Nat.le_refl _, rfl⟩, fun t h => ?_⟩
      obtain ⟨j, g1, g2⟩ := hi.below t _ ((hc _ _).1 h)
      have := fmtUint_inj g2
      omega
    · obtain ⟨⟨j, g1, g2⟩, g3⟩ := hi.left k hk
      exact ⟨⟨j, by omega, g2⟩, fun t h => g3 t ((hc _ _).1 h)⟩
  · rw [List.nodup_cons]
    refine ⟨fun h => ?_, hi.nodup⟩
    obtain ⟨⟨j, g1, g2⟩, _⟩ := hi.left _ h
    have := fmtUint_inj g2
    omega

theorem lib_run {cfg : Cfg} {es : List Ev} : ∀ {pool : List Bytes} {s s' : Sys}, LibInv pool s → OriginInv s → LockInv s →
    Spec.library cfg pool s es = true → s.run cfg es = some s' → ∃ pool', LibInv pool' s' := by
  induction es with
  | nil =>
    intro pool s s' hi _ _ _ h
    cases h
    exact ⟨pool, hi⟩
  | cons e es ih =>
    intro pool s s' hi ho hl hlib h
    unfold Spec.library at hlib
    unfold Sys.run at h
    cases hs : s.step cfg e with
    | none => rw [hs] at h; cases h
    | some s1 =>
      rw [hs] at h hlib
      dsimp only at hlib
      rw [Bool.and_eq_true] at hlib
      have hr := hlib.1
      have hst := (step_cases hs).2
      have ho1 : OriginInv s1 := origin_step hl ho (ext_step hst) (eff_step hst)
      have hl1 : LockInv s1 := lock_step hl hs
      have hcall : ∀ c, e = .call c → s1 = { s with threads := s.threads ++ [{ call := c, pc := .start, helper := .none }] } := by
        rintro c rfl
        unfold Sys.step at hs
        dsimp only at hs
        repeat' split at hs
        all_goals first | contradiction | exact (Option.some.inj hs).symm
      replace hlib := hlib.2
      split at hlib
      · refine ih (lib_tick hi hr ?_) ho1 hl1 hlib h
        unfold Sys.step at hs
        dsimp only at hs
        repeat' split at hs
        all_goals first | contradiction | exact (Option.some.inj hs).symm
      · rename_i f
        split at hlib
        · rename_i hk
          refine ih (lib_call hi (hcall _ rfl) rfl (fun _ h => h) hi.nodup ?_) ho1 hl1 hlib h
          intro g k he hk'
          cases he
          rw [hk] at hk'
          cases hk'
        · rename_i k hk
          rw [Bool.and_eq_true, decide_eq_true_eq] at hlib
          refine ih (lib_call hi (hcall _ rfl) rfl (List.erase_subset) (hi.nodup.erase k) ?_) ho1 hl1 hlib.2 h
          intro g k' he hk'
          cases he
          rw [hk] at hk'
          cases hk'
          exact ⟨hlib.1, fun h => absurd rfl (hi.nodup.mem_erase_iff.1 h).1⟩
      · rename_i c hc
        rw [Bool.and_eq_true] at hlib
        refine ih (lib_call hi (hcall _ rfl) hlib.1 (fun _ h => h) hi.nodup ?_) ho1 hl1 hlib.2 h
        intro g k he
        exact absurd he (hc g)
      · rename_i h1 h2 h3
        exact ih (lib_quiet hi ho hr hst (len_step hs h3)) ho1 hl1 hlib h

theorem lib_distinct {cfg : Cfg} {n : Nat} {es : List Ev} {s : Sys} (h : (Sys.init n).run cfg es = some s)
    (hl : Spec.library cfg [] (Sys.init n) es = true) : Spec.Distinct s := by
  have ho := origin_run h
  have h0 : LibInv [] (Sys.init n) := by
    have hc : ∀ t k, ¬ Claim (Sys.init n) t k := by
      rintro t k (⟨_, _, h, _⟩ | ⟨_, _, h, _⟩ | ⟨_, h, _⟩) <;> cases h
    exact ⟨fun t th ht => (by cases ht), fun t k h => absurd h (hc t k), fun t t' k h => absurd h (hc t k),
      fun k hk => (by cases hk), List.nodup_nil⟩
  obtain ⟨pool, hi⟩ := lib_run h0 (origin_init n) (lock_init n) hl h
  constructor
  · intro t r t' r' k h1 h2 hn hn' hk hk'
    exact hi.one t t' k (.inr (.inr ⟨r, acceptedIn_mem h1, hn, hk⟩)) (.inr (.inr ⟨r', acceptedIn_mem h2, hn', hk'⟩))
  · intro t r h1 hc
    obtain ⟨th, ht, hq⟩ := ho.acc t r (acceptedIn_mem h1)
    by_cases hcall : ∃ d a o, th.call = .subscribe d a o
    · obtain ⟨d, a, o, hcall⟩ := hcall
      have hlv := hi.calls t th ht
      rw [hcall] at hq hlv
      obtain ⟨_, _, _, _, _, _, _, _, _, _, _, hf⟩ := hq
      exact (subscribe_plain hlv hf).2.1
    · have hn : ∀ d a o, th.call ≠ .subscribe d a o := fun d a o h => hcall ⟨d, a, o, h⟩
      exact absurd hc (frameOf_not_subscribe hn ((reqOf_caller hn).1 hq).1)

end Stomp.Client
