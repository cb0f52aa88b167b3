import Verif.Proofs.Joint.InTime
/-! # Which request of the client caused what it reads -/
namespace Stomp.Client
open Stomp

theorem taken_accepted {cfg : Cfg} {n : Nat} {s : Sys} {es : List Ev} (h : (Sys.init n).run cfg es = some s) {r : Req} (hr : .taken r ∈ s.trace) : ∃ t, (t, r) ∈ acceptedIn s.trace := by
  have h1 : r ∈ takenIn s.trace := List.mem_filterMap.2 ⟨_, hr, rfl⟩
  have h2 : r ∈ handedIn s.trace := by rw [(all_run h).order.queue]; exact List.mem_append_left _ h1
  obtain ⟨o, ho, h3⟩ := List.mem_filterMap.1 h2
  cases o with
  | accepted t x => simp only [Option.some.injEq] at h3; subst h3; exact ⟨t, List.mem_filterMap.2 ⟨_, ho, rfl⟩⟩
  | _ => cases h3

/-- A request with a key has a channel. -/
theorem registers_chan {s : Sys} (ho : OriginInv s) {t : Nat} {r : Req} {k : Bytes} (hm : (t, r) ∈ acceptedIn s.trace) (hk : Spec.Registers r.frame k) : r.chan ≠ none := by
  obtain ⟨th, _, hq⟩ := ho.acc t r hm
  generalize th.call = cl at hq
  by_cases hs : ∀ d a o, cl ≠ .subscribe d a o
  · obtain ⟨hf, h1⟩ := (reqOf_caller hs).1 hq
    rcases h1 with ⟨_, h2⟩ | ⟨n, _, h2, _⟩
    · rcases hk with hk | ⟨hk, _⟩
      · rw [h2] at hk; cases hk
      · obtain ⟨d, a, o, e, _⟩ := subscribe_call hf hk
        exact absurd e (hs d a o)
    · rw [h2]; simp
  · cases cl with
    | subscribe d a o => obtain ⟨n, _, _, _, _, _, h2, _⟩ := hq; rw [h2]; simp
    | _ => exact absurd (fun _ _ _ => by simp) hs

/-- A frame written was taken from `writeCh` before, and accepted. -/
theorem sent_accepted {cfg : Cfg} {n : Nat} {s : Sys} {es : List Ev} (h : (Sys.init n).run cfg es = some s) {pre post : List Obs} (he : s.trace = pre ++ post) {f : Frame}
    (hf : .sent f ∈ pre) (hc : f.command ≠ b!"UNSUBSCRIBE") :
    ∃ t r, (t, r) ∈ acceptedIn s.trace ∧ r.frame = f ∧ .taken r ∈ pre ∧ (f.command = Cmd.subscribe → f.header.contains Hdr.replyTo = none) := by
  obtain ⟨p1, p2, rfl⟩ := List.append_of_mem hf
  obtain ⟨r, hr, hw⟩ := sent_taken h p1 (p2 ++ post) f (by rw [he]; simp)
  obtain ⟨t, ht⟩ := taken_accepted h (r := r) (by rw [he]; simp [hr])
  obtain ⟨e, hrt⟩ := wire_same hw hc
  exact ⟨t, r, ht, e, List.mem_append_left _ hr, hrt⟩

theorem due_all {n : Nat} {k : Bytes} (tr : List Obs) (ha : ∀ p g q, tr = p ++ .took (some g) :: q → g.command = Cmd.message → g.header.contains Hdr.subscription = some k → ∃ r, .taken r ∈ p ∧ r.chan = some n)
    (hb : ∀ g, .took (some g) ∈ tr → g.command = Cmd.receipt → g.header.contains Hdr.receiptId ≠ some k)
    (hc : ∀ r, .taken r ∈ tr → r.chan ≠ some n → ¬(r.frame.command = Cmd.unsubscribe ∧ r.frame.header.contains Hdr.replyTo = some k)) :
    (Spec.due n k tr).due = (tookFrames tr).filter (fun g => decide (g.command = Cmd.message ∧ g.header.contains Hdr.subscription = some k)) ∧
      ((∃ r, .taken r ∈ tr ∧ r.chan = some n) → (Spec.due n k tr).on = true) := by
  generalize hl : tr.length = l
  induction l generalizing tr with
  | zero =>
    rw [List.length_eq_zero_iff] at hl
    subst hl
    exact ⟨rfl, by simp⟩
  | succ l ih =>
    rcases List.eq_nil_or_concat tr with rfl | ⟨tr, o, rfl⟩
    · simp at hl
    · simp only [List.concat_eq_append] at ha hb hc hl ⊢
      obtain ⟨ih1, ih2⟩ := ih tr (fun p g q e => ha p g (q ++ [o]) (by rw [e]; simp)) (fun g hg => hb g (by simp [hg])) (fun r hr => hc r (by simp [hr])) (by simpa using hl)
      rw [due_append, tookFrames_append]
      show (Spec.watch n k (Spec.due n k tr) o).due = _ ∧ (_ → (Spec.watch n k (Spec.due n k tr) o).on = true)
      have quiet : tookFrames [o] = [] → (∀ r, o ≠ .taken r) → Spec.watch n k (Spec.due n k tr) o = Spec.due n k tr →
          (Spec.watch n k (Spec.due n k tr) o).due = (tookFrames tr ++ tookFrames [o]).filter (fun g => decide (g.command = Cmd.message ∧ g.header.contains Hdr.subscription = some k)) ∧
          ((∃ r, .taken r ∈ tr ++ [o] ∧ r.chan = some n) → (Spec.watch n k (Spec.due n k tr) o).on = true) := by
        intro h1 h2 h3
        rw [h1, h3, List.append_nil]
        refine ⟨ih1, ?_⟩
        rintro ⟨r, hr, hrn⟩
        rcases List.mem_append.1 hr with hr | hr
        · exact ih2 ⟨r, hr, hrn⟩
        · rw [List.mem_singleton] at hr; exact absurd hr.symm (h2 r)
      cases o with
      | taken r =>
        simp only [Spec.watch]
        rw [show tookFrames [Obs.taken r] = [] from rfl, List.append_nil]
        by_cases hr : r.chan = some n
        · rw [if_pos hr]
          exact ⟨ih1, fun _ => rfl⟩
        · rw [if_neg hr, if_neg (hc r (by simp) hr)]
          refine ⟨ih1, ?_⟩
          rintro ⟨r', hr', hrn⟩
          rcases List.mem_append.1 hr' with hr' | hr'
          · exact ih2 ⟨r', hr', hrn⟩
          · simp at hr'; rw [hr'] at hrn; exact absurd hrn hr
      | took x =>
        cases x with
        | none => exact quiet rfl (by simp) rfl
        | some g =>
          have hon : (∃ r, .taken r ∈ tr ++ [Obs.took (some g)] ∧ r.chan = some n) → (Spec.due n k tr).on = true := by
            rintro ⟨r, hr, hrn⟩
            refine ih2 ⟨r, ?_, hrn⟩
            simpa using hr
          rw [show tookFrames [Obs.took (some g)] = [g] from rfl, List.filter_append]
          simp only [Spec.watch]
          by_cases hm : g.command = Cmd.message
          · rw [if_pos hm]
            by_cases hs : g.header.contains Hdr.subscription = some k
            · have hon' := ih2 (ha tr g [] rfl hm hs)
              rw [if_pos ⟨hs, hon'⟩]
              refine ⟨?_, fun _ => hon'⟩
              rw [ih1]
              simp [hm, hs]
            · rw [if_neg (fun h => hs h.1)]
              refine ⟨?_, hon⟩
              rw [ih1]
              simp [hm, hs]
          · rw [if_neg hm, if_neg (fun h => hb g (by simp) h.1 h.2)]
            refine ⟨?_, hon⟩
            rw [ih1]
            simp [hm]
      | _ => exact quiet rfl (by simp) rfl

end Stomp.Client

namespace Stomp.Joint
open Stomp

/-- A RECEIPT read answers a request accepted, whose frame was written before. -/
theorem receipt_cause {cfg : Server.Config} {s : State} (h : Spec.Reached cfg s) {c : Nat} {p : Peer} (hp : s.peers[c]? = some p) {pre post : List Client.Obs} {g : Frame}
    (he : p.client.trace = pre ++ .read (some g) :: post) {v : Bytes} (hg : Client.Spec.ReceiptFor g v) :
    ∃ t r, (t, r) ∈ Client.acceptedIn p.client.trace ∧ .sent r.frame ∈ pre ∧ r.frame.header.contains Hdr.receipt = some v ∧ r.frame.command ∉ Server.unanswered := by
  have hinv := inv_reached h
  obtain ⟨k, hk⟩ := hinv.conn hp
  have hi := hinv.peer c p k hp hk
  obtain ⟨f, v', h1, h2, h3, h4⟩ := (in_time h hp pre post g he).1 hg.1
  have hv : v' = v := by
    have h5 := hg.2
    rw [contains_eq_firstValue] at h5
    have h6 : Stomp.Spec.firstValue g.header Hdr.receiptId = some v' := h3
    rw [h5] at h6; injection h6 with h6; exact h6.symm
  subst hv
  obtain ⟨t, r, h5, rfl, _, _⟩ := Client.sent_accepted hi.run he h1 (fun e => h2 (by rw [e]; decide))
  exact ⟨t, r, h5, h1, by rw [contains_eq_firstValue]; exact h4, h2⟩

/-- A MESSAGE read has the id of a subscription whose request was taken from `writeCh` before. -/
theorem message_cause {cfg : Server.Config} {s : State} (h : Spec.Reached cfg s) {c : Nat} {p : Peer} (hp : s.peers[c]? = some p) {pre post : List Client.Obs} {g : Frame}
    (he : p.client.trace = pre ++ .read (some g) :: post) (hg : g.command = Cmd.message) {i : Bytes} (hs : g.header.contains Hdr.subscription = some i) :
    ∃ t r, (t, r) ∈ Client.acceptedIn p.client.trace ∧ .taken r ∈ pre ∧ Client.Spec.Registers r.frame i ∧ r.chan ≠ none := by
  have hinv := inv_reached h
  obtain ⟨k, hk⟩ := hinv.conn hp
  have hi := hinv.peer c p k hp hk
  obtain ⟨f, i', h1, h2, h3, h4⟩ := (in_time h hp pre post g he).2 hg
  have hv : i' = i := by
    rw [contains_eq_firstValue] at hs
    have h6 : Stomp.Spec.firstValue g.header Hdr.subscription = some i' := h4
    rw [hs] at h6; injection h6 with h6; exact h6.symm
  subst hv
  obtain ⟨t, r, h5, rfl, h6, hrt⟩ := Client.sent_accepted hi.run he h1 (by rw [h2]; decide)
  have hreg : Client.Spec.Registers r.frame i' := by
    right
    refine ⟨h2, ?_⟩
    rw [hrt h2]
    have h7 : r.frame.header.contains Hdr.id = some i' := by rw [contains_eq_firstValue]; exact h3
    rw [h7]; rfl
  exact ⟨t, r, h5, h6, hreg, Client.registers_chan (Client.all_run hi.run).origin h5 hreg⟩

end Stomp.Joint
