import Verif.Proofs.Server.RaceInv
/-! # A step of a connection and the shared cells -/
namespace Stomp.Server
open Stomp

theorem mem_zip_self {α : Type} {l : List Nat} {L : List α} (hl : L.length = l.length) {i : Nat} (h : i ∈ l) : ∃ K, (i, K) ∈ l.zip L := by
  induction l generalizing L with
  | nil => simp at h
  | cons x l ih =>
    cases L with
    | nil => simp at hl
    | cons K L =>
      rcases List.mem_cons.1 h with rfl | h
      · exact ⟨K, by simp⟩
      · obtain ⟨K', hK⟩ := ih (by simpa using hl) h
        exact ⟨K', by simp [hK]⟩

theorem tok_pos_iff {a : Core} {i : Nat} : 0 < a.tok i ↔ i ∈ a.subCh ∨ i ∈ a.subList ∨ i ∈ subIdx a.pend := by
  unfold Core.tok
  rw [← count_pos_iff, ← count_pos_iff, ← count_pos_iff]
  omega

/-- What a step of connection `c` does to its `subChannel` and what it learns. -/
structure Recv (s : Sys) (w : Watch) (c : Nat) (e : Conn.Ev) (k k' : Conn) : Prop where
  other : ∀ c', c' ≠ c → w.subK' s (.conn c e) c' = w.subK c'
  cases : (k'.subCh = k.subCh ∧ w.subK' s (.conn c e) c = w.subK c ∧ ∀ a ∈ connAccesses k e k', OwnCell k k' a.1) ∨
    ∃ i K L, k.subCh = i :: k'.subCh ∧ w.subK c = K :: L ∧ w.subK' s (.conn c e) c = L ∧ w.gained s (.conn c e) = K ∧
      Sys.Ev.goroutine (.conn c e) = .loop c ∧ ∀ a ∈ connAccesses k e k', HeadCell k i a.1
  loop : connAccesses k e k' ≠ [] → Sys.Ev.goroutine (.conn c e) = .loop c

theorem recv_conn {cfg : Config} {s : Sys} {w : Watch} (hI : SInv cfg s) (hL : Lens s w) {c : Nat} {e : Conn.Ev} {k k' : Conn}
    (hk : s.conns[c]? = some k) (hi : Sys.internal e = true) (hs : k.step cfg e = some k') : Recv s w c e k k' := by
  obtain ⟨es, he⟩ := hI.run c k hk
  have hc := Sys.conn_eq hk
  have hlen := hL.sub c k hk
  have sh := conn_shape (gate_run cfg c es k he) hi (step_of _ _ _ _ hs)
  refine ⟨?_, ?_, ?_⟩
  · intro c' hne
    unfold Watch.subK'
    cases e <;> simp only <;> (try rfl)
    · rw [if_neg (fun h => hne h.symm)]
    · rw [if_neg (fun h => hne h.1.symm)]
  · rcases sh with ⟨h1, h2, h3⟩ | ⟨i, h1, h2, h3⟩
    · refine Or.inl ⟨h1, ?_, h3⟩
      by_cases ht : takes k e = true
      · have h4 := h2 ht
        rw [h4] at hlen
        have h5 : w.subK c = [] := by simpa using hlen
        unfold Watch.subK'
        cases e <;> simp only <;> (try rfl) <;> (rw [h5]; simp)
      · unfold Watch.subK'
        cases e <;> simp only <;> (try rfl)
        · simp [takes] at ht
        · rw [if_neg]
          rintro ⟨_, h⟩
          rw [hc] at h
          exact ht (by simpa [takes] using h)
    · rw [h1] at hlen
      cases hw : w.subK c with
      | nil => rw [hw] at hlen; simp at hlen
      | cons K L =>
        refine Or.inr ⟨i, K, L, h1, rfl, ?_, ?_, ?_, h3⟩
        · unfold Watch.subK'
          cases e <;> simp only [takes, Bool.false_eq_true] at h2 ⊢
          · rw [if_pos trivial, hw]; rfl
          · rw [if_pos ⟨trivial, by rw [hc]; simpa using h2⟩, hw]; rfl
        · unfold Watch.gained
          cases e <;> simp only [takes, Bool.false_eq_true] at h2 ⊢
          · rw [hw]; rfl
          · rw [if_pos (by rw [hc]; simpa using h2), hw]; rfl
        · cases e <;> simp only [takes, Bool.false_eq_true] at h2 <;> rfl
  · intro hne
    cases e with
    | recv => simp [connAccesses] at hne
    | readErr => simp [connAccesses] at hne
    | _ => rfl

set_option linter.unusedSectionVars false

section
variable {cfg : Config} {s : Sys} {w : Watch} (hI : SInv cfg s) (hT : ∀ t, total s t = made s.conns t) (hL : Lens s w)
  {c : Nat} {e : Conn.Ev} {k k' : Conn}
  (hk : s.conns[c]? = some k) (hi : Sys.internal e = true) (hs : k.step cfg e = some k')
include hI hL hk hi hs

theorem conn_accesses : accesses s (.conn c e) { s with conns := s.conns.set c k' } = connAccesses k e k' := by
  have h1 := Sys.conn_eq hk
  have h2 : Sys.conn { s with conns := s.conns.set c k' } c = k' := Sys.conn_eq (by dsimp only; rw [get_set hk, if_pos rfl])
  unfold accesses
  dsimp only
  rw [h1, h2]

/-- What an access of the step says about a subscription. -/
theorem conn_acc_sub {r : SubRef} {b : Bool} (h : (.sub r, b) ∈ connAccesses k e k') :
    r.conn = c ∧ r.idx ∉ k'.subCh ∧ (0 < k.core.tok r.idx ∨ k.heap.length ≤ r.idx) := by
  have hme : k.me = c := run_me hI hk
  have hloc := hI.loc c k hk
  have one : ∀ {i}, i ∈ k.subList → i ∉ k.subCh := by
    intro i h1 h2
    have h3 := hloc.tok i
    unfold Core.tok at h3
    have h4 := count_pos_iff.2 h1
    have h5 := count_pos_iff.2 h2
    have e1 : k.core.subCh = k.subCh := rfl
    have e2 : k.core.subList = k.subList := rfl
    rw [e1, e2] at h3
    omega
  have new : ∀ {i}, k.heap.length ≤ i → i ∉ k.subCh := by
    intro i h1 h2
    have := hloc.idx i (tok_pos_iff.2 (Or.inl h2))
    have : i < k.heap.length := this
    omega
  rcases (recv_conn hI hL hk hi hs).cases with ⟨h1, _, h3⟩ | ⟨i, K, L, h1, _, _, _, _, h3⟩
  · have := h3 _ h
    dsimp only at this
    cases this with
    | list i hi => exact ⟨hme, by rw [h1]; exact one hi, Or.inl (tok_pos_iff.2 (Or.inr (Or.inl hi)))⟩
    | newSub i hi _ => exact ⟨hme, by rw [h1]; exact new hi, Or.inr hi⟩
  · have := h3 _ h
    dsimp only at this
    cases this with
    | sub =>
      refine ⟨hme, ?_, Or.inl (tok_pos_iff.2 (Or.inl (by show i ∈ k.subCh; rw [h1]; simp)))⟩
      intro h2
      have h4 := hloc.tok i
      unfold Core.tok at h4
      have e1 : k.core.subCh = k.subCh := rfl
      rw [e1, h1, List.count_cons_self] at h4
      have h5 := count_pos_iff.2 h2
      dsimp only at h5
      omega

theorem conn_acc_frame {t : Tag} {b : Bool} (h : (.frame t, b) ∈ connAccesses k e k') :
    (0 < k.core.tags.count t ∧ ∃ i, k.subCh = i :: k'.subCh ∧ (deref k.heap i).frame.map (·.tag) = some t) ∨ ¬ Made s (.frame t) := by
  have hme : k.me = c := run_me hI hk
  rcases (recv_conn hI hL hk hi hs).cases with ⟨h1, _, h3⟩ | ⟨i, K, L, h1, _, _, _, _, h3⟩
  · have := h3 _ h
    dsimp only at this
    cases this with
    | newFrame n hn _ =>
      refine Or.inr ?_
      show ¬ made s.conns ⟨k.me, n⟩ = 1
      unfold made
      rw [hme]
      dsimp only
      rw [hk]
      dsimp only
      rw [if_neg (by omega)]
      omega
  · have := h3 _ h
    dsimp only at this
    cases this with
    | frame m hm =>
      have h4 : (deref k.heap i).frame.map (·.tag) = some m.tag := by rw [hm]; rfl
      refine Or.inl ⟨?_, i, h1, h4⟩
      have h2 := tags_own k.core m.tag
      have h3 : 0 < (Conn.frameTags k.core.heap k.core.subCh).count m.tag :=
        List.count_pos_iff.2 (List.mem_filterMap.2 ⟨i, (by show i ∈ k.subCh; rw [h1]; simp), h4⟩)
      omega

theorem conn_mem_sub {i : Nat} (h : i ∈ k'.subCh) : i ∈ k.subCh := by
  rcases (recv_conn hI hL hk hi hs).cases with ⟨h1, _⟩ | ⟨j, K, L, h1, _⟩
  · rw [← h1]; exact h
  · rw [h1]; simp [h]

theorem conn_zip {i : Nat} {K : List Nat} (h : (i, K) ∈ k'.subCh.zip (w.subK' s (.conn c e) c)) : (i, K) ∈ k.subCh.zip (w.subK c) := by
  rcases (recv_conn hI hL hk hi hs).cases with ⟨h1, h2, _⟩ | ⟨j, K, L, h1, h2, h3, _⟩
  · rw [h1, h2] at h; exact h
  · rw [h3] at h; rw [h1, h2]; simp [h]

/-- What the connection has had or gets in this step is known to it afterwards. -/
theorem conn_sub_known {i : Nat} (h : 0 < k.core.tok i) (hn : i ∉ k'.subCh) :
    ∃ K, SAt s w ⟨c, i⟩ K ∧ ∀ n ∈ K, n ∈ (w.step s (.conn c e) { s with conns := s.conns.set c k' }).know (.loop c) := by
  rcases tok_pos_iff.1 h with h1 | h1
  · rcases (recv_conn hI hL hk hi hs).cases with ⟨h2, _⟩ | ⟨j, K, L, h2, h3, h4, h5, h6, _⟩
    · exact absurd (by rw [h2]; exact h1) hn
    · have h7 : i ∈ k.subCh := h1
      rw [h2] at h7
      rcases List.mem_cons.1 h7 with rfl | h7
      · refine ⟨K, SAt.chan k hk K (by dsimp only; rw [h2, h3]; simp), fun n hn => ?_⟩
        have := know_gained w s (.conn c e) { s with conns := s.conns.set c k' } n (by rw [h5]; exact hn)
        rw [h6] at this
        exact this
      · exact absurd h7 hn
  · exact ⟨_, SAt.own k hk h1, know_mono _ _ _ _ _⟩

theorem conn_moves_sub (r : SubRef) : Moves s w (.conn c e) { s with conns := s.conns.set c k' } (.sub r) := by
  have hm := mics_conn hI hk hi hs
  have he := hm.evol
  have hloc := hI.loc c k hk
  have hloc' := hloc.mics hm
  have hr := recv_conn hI hL hk hi hs
  intro K' hK'
  have hacc : ∀ {b}, (Cell.sub r, b) ∈ accesses s (.conn c e) { s with conns := s.conns.set c k' } →
      Sys.Ev.goroutine (.conn c e) = .loop c ∧ r.conn = c ∧ r.idx ∉ k'.subCh ∧ (0 < k.core.tok r.idx ∨ k.heap.length ≤ r.idx) := by
    intro b hb
    rw [conn_accesses hI hL hk hi hs] at hb
    exact ⟨hr.loop (fun h => by rw [h] at hb; simp at hb), conn_acc_sub hI hL hk hi hs hb⟩
  have nowLoop : ∀ {b}, (Cell.sub r, b) ∈ accesses s (.conn c e) { s with conns := s.conns.set c k' } →
      w.now ∈ (w.step s (.conn c e) { s with conns := s.conns.set c k' }).know (.loop r.conn) := by
    intro b hb
    obtain ⟨h1, h2, _⟩ := hacc hb
    rw [h2]
    have := know_now w s (.conn c e) { s with conns := s.conns.set c k' }
    rw [h1] at this
    exact this
  -- a subscription that waits is not accessed
  have away : ∀ {b}, (0 < waiting s r ∨ 0 < (todoSubs s.todo).count r) →
      (Cell.sub r, b) ∉ accesses s (.conn c e) { s with conns := s.conns.set c k' } := by
    intro b hw hb
    obtain ⟨_, h2, _, h4⟩ := hacc hb
    have h5 := hI.tok r
    rw [held_of (k := k) (by rw [h2]; exact hk)] at h5
    rcases h4 with h4 | h4
    · omega
    · have : ∃ x, look s.conns r = some x := by
        rcases hw with hw | hw
        · obtain ⟨x, hx, _⟩ := hI.empty r hw; exact ⟨x, hx⟩
        · obtain ⟨x, hx, _⟩ := hI.full r hw; exact ⟨x, hx⟩
      obtain ⟨x, hx⟩ := this
      obtain ⟨k0, hk0, hl0, _⟩ := look_some hx
      rw [h2, hk] at hk0; injection hk0 with hk0; subst hk0
      omega
  have notMade : ∀ i, k.heap.length ≤ i → ¬ Made s (.sub ⟨c, i⟩) := by
    rintro i hlen ⟨x, hx⟩
    obtain ⟨k0, hk0, hl0, _⟩ := look_some hx
    dsimp only at hk0 hl0
    rw [hk] at hk0; injection hk0 with hk0; subst hk0
    omega
  cases hK' with
  | own x hx h =>
    refine ⟨?_, fun b hb => nowLoop hb⟩
    dsimp only at hx
    rw [get_set hk] at hx
    split at hx
    · rename_i hc
      injection hx with hx; subst hx
      obtain ⟨rc, ri⟩ := r
      dsimp only at hc h
      subst hc
      by_cases hlt : ri < k.heap.length
      · have h1 : 0 < k'.core.tok ri := tok_pos_iff.2 (Or.inr h)
        have h2 := he.tok ri hlt
        have h3 : ri ∉ k'.subCh := by
          intro h3
          have h4 := hloc'.tok ri
          unfold Core.tok at h4
          have h5 : 0 < k'.core.subCh.count ri := count_pos_iff.2 h3
          rcases h with h | h
          · have : 0 < k'.core.subList.count ri := count_pos_iff.2 h
            omega
          · have := count_pos_iff.2 h
            omega
        exact Or.inl (conn_sub_known hI hL hk hi hs (by omega) h3)
      · exact Or.inr (notMade ri (by omega))
    · rename_i hc
      exact Or.inl ⟨_, SAt.own x hx h, know_mono _ _ _ _ _⟩
  | dead x hx h0 hf =>
    refine ⟨?_, fun b hb => nowLoop hb⟩
    dsimp only at hx h0
    rw [get_set hk] at hx
    split at hx
    · rename_i hc
      injection hx with hx; subst hx
      rw [held_set hk, if_pos hc] at h0
      obtain ⟨rc, ri⟩ := r
      dsimp only at hc h0 hf
      subst hc
      have hw : waiting { s with conns := s.conns.set c k' } ⟨c, ri⟩ = waiting s ⟨c, ri⟩ := rfl
      rw [hw] at h0
      by_cases hlt : ri < k.heap.length
      · by_cases hz : k.core.tok ri = 0
        · have h1 := he.other ri hlt hz
          refine Or.inl ⟨_, SAt.dead k hk ?_ ?_, know_mono _ _ _ _ _⟩
          · rw [held_of hk]; dsimp only; omega
          · have e1 : deref k'.heap ri = deref k.heap ri := h1
            dsimp only; rw [← e1]; exact hf
        · refine Or.inl (conn_sub_known hI hL hk hi hs (by omega) ?_)
          intro h3
          have := (tok_pos_iff (a := k'.core) (i := ri)).2 (Or.inl h3)
          omega
      · exact Or.inr (notMade ri (by omega))
    · rename_i hc
      rw [held_set hk, if_neg hc] at h0
      exact Or.inl ⟨_, SAt.dead x hx h0 hf, know_mono _ _ _ _ _⟩
  | chan x hx K h =>
    dsimp only at hx
    rw [get_set hk] at hx
    split at hx
    · rename_i hc
      injection hx with hx; subst hx
      obtain ⟨rc, ri⟩ := r
      dsimp only at hc
      subst hc
      have h1 := conn_zip hI hL hk hi hs (K := K') (i := ri) h
      refine ⟨Or.inl ⟨K', SAt.chan k hk K' h1, fun _ h => h⟩, fun b hb => ?_⟩
      obtain ⟨_, _, h3, _⟩ := hacc hb
      exact absurd (List.of_mem_zip h).1 h3
    · rename_i hc
      have h1 : (r.idx, K') ∈ x.subCh.zip (w.subK r.conn) := by
        have := hr.other r.conn (fun h => hc h.symm)
        rw [← this]; exact h
      refine ⟨Or.inl ⟨K', SAt.chan x hx K' h1, fun _ h => h⟩, fun b hb => ?_⟩
      exact absurd (hacc hb).2.1.symm hc
  | req K h =>
    refine ⟨Or.inl ⟨K', SAt.req K' h, fun _ h => h⟩, fun b hb => ?_⟩
    refine absurd hb (away (Or.inl ?_))
    have := count_reqSubs_mem (List.of_mem_zip h).1
    unfold waiting
    dsimp only at this
    omega
  | proc h =>
    refine ⟨Or.inl ⟨_, SAt.proc h, know_mono _ _ _ _ _⟩, fun b hb => ?_⟩
    refine absurd hb (away ?_)
    unfold waiting
    dsimp only at h
    omega

include hT

theorem conn_moves_frame (t : Tag) : Moves s w (.conn c e) { s with conns := s.conns.set c k' } (.frame t) := by
  have hm := mics_conn hI hk hi hs
  have he := hm.evol
  have hloc := hI.loc c k hk
  have hr := recv_conn hI hL hk hi hs
  have hT' : ∀ t, total { s with conns := s.conns.set c k' } t = made (s.conns.set c k') t :=
    total_step hI hT (SysStep.conn c e k k' hk hi hs)
  have hk' : ({ s with conns := s.conns.set c k' } : Sys).conns[c]? = some k' := by dsimp only; rw [get_set hk, if_pos rfl]
  have hkept := (hm.kept hloc).2
  have hme : k.core.me = c := run_me hI hk
  have todoEq : todoTags (s.conns.set c k') s.todo = todoTags s.conns s.todo := by
    refine todoTags_congr (fun r hr => ?_)
    have h1 := mem_todoSubs hr
    obtain ⟨x, hx, _⟩ := hI.full r h1
    have h2 := hI.tok r
    rw [hx, look_evol hk he (by omega) hx]
  intro K' hK'
  have hacc : ∀ {b}, (Cell.frame t, b) ∈ accesses s (.conn c e) { s with conns := s.conns.set c k' } →
      Sys.Ev.goroutine (.conn c e) = .loop c ∧
      ((0 < k.core.tags.count t ∧ ∃ i, k.subCh = i :: k'.subCh ∧ (deref k.heap i).frame.map (·.tag) = some t) ∨ ¬ Made s (.frame t)) := by
    intro b hb
    rw [conn_accesses hI hL hk hi hs] at hb
    exact ⟨hr.loop (fun h => by rw [h] at hb; simp at hb), conn_acc_frame hI hL hk hi hs hb⟩
  have old : ∀ {K}, FAt s w t K → (∀ {b}, (Cell.frame t, b) ∈ accesses s (.conn c e) { s with conns := s.conns.set c k' } →
      0 < k.core.tags.count t ∧ ∃ i, k.subCh = i :: k'.subCh ∧ (deref k.heap i).frame.map (·.tag) = some t) := by
    intro K hK b hb
    rcases (hacc hb).2 with h | h
    · exact h
    · exact absurd (fat_made hT hK) h
  cases hK' with
  | own c' x hx h =>
    dsimp only at hx
    rw [get_set hk] at hx
    split at hx
    · rename_i hc
      injection hx with hx; subst hx
      subst hc
      refine ⟨?_, fun b hb => ?_⟩
      · have h1 := tot_conn hT' hk' t
        have h2 := tags_own k'.core t
        have h3 := List.count_pos_iff.2 h
        have h4 := hm.tags hloc t
        have h5 := tags_own k.core t
        by_cases hf : fresh k.core.me k.core.sent k'.core.sent t = 0
        · by_cases ho : 0 < k.core.ownTags.count t
          · exact Or.inl ⟨_, FAt.own c k hk (List.count_pos_iff.1 ho), know_mono _ _ _ _ _⟩
          · have h6 : 0 < (Conn.frameTags k.core.heap k.core.subCh).count t := by omega
            obtain ⟨i, hi1, hi2⟩ := List.mem_filterMap.1 (List.count_pos_iff.1 h6)
            have h7 : i ∉ k'.subCh := by
              intro h7
              have h8 : (Conn.frameTags k'.core.heap k'.core.subCh).count t > 0 := by
                refine List.count_pos_iff.2 (List.mem_filterMap.2 ⟨i, h7, ?_⟩)
                rw [hkept i h7]; exact hi2
              omega
            rcases hr.cases with ⟨h8, _⟩ | ⟨j, K, L, h8, h9, h10, h11, h12, _⟩
            · exact absurd (by rw [h8]; exact hi1) h7
            · have h13 : i ∈ k.subCh := hi1
              rw [h8] at h13
              rcases List.mem_cons.1 h13 with rfl | h13
              · refine Or.inl ⟨K, FAt.chan c k hk i K (by rw [h8, h9]; simp) hi2, fun n hn => ?_⟩
                have := know_gained w s (.conn c e) { s with conns := s.conns.set c k' } n (by rw [h11]; exact hn)
                rw [h12] at this
                exact this
              · exact absurd h13 h7
        · refine Or.inr ?_
          show ¬ made s.conns t = 1
          unfold fresh at hf
          split at hf
          · rename_i hfr
            unfold made
            rw [hfr.1, hme, hk]
            have : k.sent ≤ t.seq := hfr.2.1
            dsimp only
            rw [if_neg (by omega)]
            omega
          · exact absurd rfl hf
      · have := know_now w s (.conn c e) { s with conns := s.conns.set c k' }
        rw [(hacc hb).1] at this
        exact this
    · rename_i hc
      have hA : FAt s w t (w.know (.loop c')) := FAt.own c' x hx h
      refine ⟨Or.inl ⟨_, hA, know_mono _ _ _ _ _⟩, fun b hb => ?_⟩
      obtain ⟨h1, _⟩ := old hA hb
      have h2 := tags_own x.core t
      have h3 := List.count_pos_iff.2 h
      exact absurd (tot_conns hT hk hx h1 (by omega)) hc
  | chan c' x hx i K h hf =>
    dsimp only at hx
    rw [get_set hk] at hx
    split at hx
    · rename_i hc
      injection hx with hx; subst hx
      subst hc
      have h1 := conn_zip hI hL hk hi hs (K := K') (i := i) h
      have h2 : i ∈ k'.subCh := (List.of_mem_zip h).1
      have h3 : (deref k.heap i).frame.map (·.tag) = some t := by
        have e1 : deref k'.heap i = deref k.heap i := hkept i h2
        rw [← e1]; exact hf
      have hA : FAt s w t K' := FAt.chan c k hk i K' h1 h3
      refine ⟨Or.inl ⟨_, hA, fun _ h => h⟩, fun b hb => ?_⟩
      obtain ⟨_, j, h4, h5⟩ := old hA hb
      exfalso
      have h6 := tot_conn hT hk t
      have h7 := tags_own k.core t
      have h8 : Conn.frameTags k.core.heap k.core.subCh = t :: Conn.frameTags k.heap k'.subCh := by
        show Conn.frameTags k.heap k.subCh = _
        rw [h4]
        unfold Conn.frameTags
        rw [List.filterMap_cons_some (b := t)]
        exact h5
      have h9 : 0 < (Conn.frameTags k.heap k'.subCh).count t := List.count_pos_iff.2 (List.mem_filterMap.2 ⟨i, h2, h3⟩)
      rw [h8, tagCount_cons, if_pos rfl] at h7
      omega
    · rename_i hc
      have h1 : (i, K') ∈ x.subCh.zip (w.subK c') := by
        have := hr.other c' (fun h => hc h.symm)
        rw [← this]; exact h
      have hA : FAt s w t K' := FAt.chan c' x hx i K' h1 hf
      refine ⟨Or.inl ⟨_, hA, fun _ h => h⟩, fun b hb => ?_⟩
      obtain ⟨h3, _⟩ := old hA hb
      have h4 := tags_own x.core t
      have h5 : 0 < (Conn.frameTags x.core.heap x.core.subCh).count t :=
        List.count_pos_iff.2 (List.mem_filterMap.2 ⟨i, (List.of_mem_zip h1).1, hf⟩)
      exact absurd (tot_conns hT hk hx h3 (by omega)) hc
  | req q K h ht =>
    have hA : FAt s w t K' := FAt.req q K' h ht
    refine ⟨Or.inl ⟨_, hA, fun _ h => h⟩, fun b hb => ?_⟩
    obtain ⟨h3, _⟩ := old hA hb
    exact absurd (mem_reqTags (List.of_mem_zip h).1 ht) (tot_else hT hk h3).1
  | proc h =>
    dsimp only at h
    rw [todoEq] at h
    have hA : FAt s w t (w.know .processor) := FAt.proc h
    refine ⟨Or.inl ⟨_, hA, know_mono _ _ _ _ _⟩, fun b hb => ?_⟩
    obtain ⟨h3, _⟩ := old hA hb
    obtain ⟨_, h5, h6⟩ := tot_else hT hk h3
    rcases h with h | h
    · omega
    · exact absurd h h6

omit hT in
theorem conn_knows : Knows s w (.conn c e) { s with conns := s.conns.set c k' } := by
  have hr := recv_conn hI hL hk hi hs
  have hme : k.me = c := run_me hI hk
  rintro ⟨x, b⟩ ha
  rw [conn_accesses hI hL hk hi hs] at ha
  have hg := hr.loop (fun h => by rw [h] at ha; simp at ha)
  rw [hg]
  rcases hr.cases with ⟨h1, _, h3⟩ | ⟨i, K, L, h1, h2, h4, h5, _, h3⟩
  · have := h3 _ ha
    dsimp only at this ⊢
    cases this with
    | list i hi =>
      rw [hme]
      exact Or.inl ⟨_, SAt.own k hk (Or.inl hi), fun n hn => List.mem_append_left _ hn⟩
    | newSub i hlen _ =>
      rw [hme]
      refine Or.inr ?_
      rintro ⟨x, hx⟩
      obtain ⟨k0, hk0, hl0, _⟩ := look_some hx
      dsimp only at hk0 hl0
      rw [hk] at hk0; injection hk0 with hk0; subst hk0
      omega
    | newFrame n hn _ =>
      refine Or.inr ?_
      show ¬ made s.conns ⟨k.me, n⟩ = 1
      unfold made
      rw [hme]
      dsimp only
      rw [hk]
      dsimp only
      rw [if_neg (by omega)]
      omega
  · have := h3 _ ha
    dsimp only at this ⊢
    rw [h5]
    have hz : (i, K) ∈ k.subCh.zip (w.subK c) := by rw [h1, h2]; simp
    cases this with
    | sub =>
      rw [hme]
      exact Or.inl ⟨_, SAt.chan k hk K hz, fun n hn => List.mem_append_right _ hn⟩
    | frame m hm => exact Or.inl ⟨_, FAt.chan c k hk i K hz (by rw [hm]; rfl), fun n hn => List.mem_append_right _ hn⟩

theorem conn_lens : Lens { s with conns := s.conns.set c k' } (w.step s (.conn c e) { s with conns := s.conns.set c k' }) := by
  have hr := recv_conn hI hL hk hi hs
  refine ⟨hL.req, ?_, ?_⟩
  · intro c' x hx
    dsimp only at hx
    show (w.subK' s (.conn c e) c').length = _
    rw [get_set hk] at hx
    split at hx
    · rename_i hc
      injection hx with hx; subst hx; subst hc
      have := hL.sub c k hk
      rcases hr.cases with ⟨h1, h2, _⟩ | ⟨i, K, L, h1, h2, h3, _⟩
      · rw [h1, h2]; exact this
      · rw [h1, h2] at this; rw [h3]; simpa using this
    · rename_i hc
      rw [hr.other c' (fun h => hc h.symm)]
      exact hL.sub c' x hx
  · intro c' hc'
    show w.subK' s (.conn c e) c' = _
    rw [List.length_set] at hc'
    have h1 : c < s.conns.length := (List.getElem?_eq_some_iff.1 hk).1
    rw [hr.other c' (by omega)]
    exact hL.none c' hc'

theorem conn_made : ∀ x, Made s x → Made { s with conns := s.conns.set c k' } x := by
  have he := (mics_conn hI hk hi hs).evol
  intro x hx
  cases x with
  | sub r =>
    obtain ⟨y, hy⟩ := hx
    show ∃ x, look (s.conns.set c k') r = some x
    rw [look_set hk]
    split
    · rename_i hc
      obtain ⟨k0, hk0, hl0, _⟩ := look_some hy
      rw [← hc, hk] at hk0; injection hk0 with hk0; subst hk0
      exact ⟨_, List.getElem?_eq_getElem (Nat.lt_of_lt_of_le hl0 he.len)⟩
    · exact ⟨y, hy⟩
  | frame t =>
    have h1 : made s.conns t = 1 := hx
    show made (s.conns.set c k') t = 1
    unfold made at h1 ⊢
    rw [get_set hk]
    by_cases h2 : c = t.src
    · rw [← h2, hk] at h1
      rw [if_pos h2]
      dsimp only at h1 ⊢
      have : k.sent ≤ k'.sent := he.sent
      split at h1
      · rw [if_pos (by omega)]
      · omega
    · rw [if_neg h2]
      exact h1

theorem conn_acc_made : ∀ a ∈ accesses s (.conn c e) { s with conns := s.conns.set c k' }, Made { s with conns := s.conns.set c k' } a.1 := by
  have hmade := conn_made hI hT hL hk hi hs
  have hme : k.me = c := run_me hI hk
  have hloc := hI.loc c k hk
  have hk' : (s.conns.set c k')[c]? = some k' := by rw [get_set hk, if_pos rfl]
  intro a ha
  rw [conn_accesses hI hL hk hi hs] at ha
  have old : ∀ i, 0 < k.core.tok i → Made s (.sub ⟨c, i⟩) := by
    intro i h
    exact ⟨_, look_of (r := ⟨c, i⟩) hk (hloc.idx i h)⟩
  rcases (recv_conn hI hL hk hi hs).cases with ⟨h1, _, h3⟩ | ⟨i, K, L, h1, h2, h4, h5, _, h3⟩
  · have := h3 _ ha
    generalize a.1 = x at this ⊢
    cases this with
    | list i hi => rw [hme]; exact hmade _ (old i (tok_pos_iff.2 (Or.inr (Or.inl hi))))
    | newSub i _ hlt => rw [hme]; exact ⟨_, look_of (r := ⟨c, i⟩) hk' hlt⟩
    | newFrame n _ hlt =>
      show made (s.conns.set c k') ⟨k.me, n⟩ = 1
      unfold made
      rw [hme]
      dsimp only
      rw [hk']
      dsimp only
      rw [if_pos hlt]
  · have := h3 _ ha
    generalize a.1 = x at this ⊢
    cases this with
    | sub => rw [hme]; exact hmade _ (old i (tok_pos_iff.2 (Or.inl (by show i ∈ k.subCh; rw [h1]; simp))))
    | frame m hm =>
      exact hmade _ (fat_made hT (w := w) (FAt.chan c k hk i K (by rw [h1, h2]; simp) (by rw [hm]; rfl)))

end
end Stomp.Server
