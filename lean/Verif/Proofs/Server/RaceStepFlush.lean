import Verif.Proofs.Server.RaceStepConn
/-! # A request is sent: the code after the send and the shared cells -/
namespace Stomp.Server
open Stomp

/-- What is accessed between one send of a request and the next. -/
inductive FlushCell (s : Sys) (c : Nat) (k : Conn) (o : List Out) : Cell → Prop
  | list (i : Nat) (h : i ∈ k.subList) : FlushCell s c k o (.sub ⟨c, i⟩)
  | pend (i : Nat) (h : i ∈ subIdx (pending o)) : FlushCell s c k o (.sub ⟨c, i⟩)
  | dead (i : Nat) (h0 : held s.conns ⟨c, i⟩ + waiting s ⟨c, i⟩ + (todoSubs s.todo).count ⟨c, i⟩ = 0)
      (hf : (deref k.heap i).frame.isSome) (hl : i < k.heap.length) : FlushCell s c k o (.sub ⟨c, i⟩)
  | frame (t : Tag) (h : t ∈ reqTags (pending o)) : FlushCell s c k o (.frame t)

theorem mem_pending {o : List Out} {r : Req} : r ∈ pending o ↔ .req r ∈ o := by
  unfold pending
  rw [List.mem_filterMap]
  constructor
  · rintro ⟨x, hx, h⟩
    cases x with
    | req q => simp only [Option.some.injEq] at h; subst h; exact hx
    | panic => simp at h
  · intro h
    exact ⟨_, h, rfl⟩

theorem pending_tail {o : List Out} {r : Req} (h : r ∈ pending o.tail) : r ∈ pending o := by
  rw [mem_pending] at h ⊢
  exact List.mem_of_mem_tail h

theorem subIdx_mem {l : List Req} {i : Nat} : i ∈ subIdx l ↔ ∃ r : SubRef, .subscribe r ∈ l ∧ r.idx = i := by
  unfold subIdx
  rw [List.mem_filterMap]
  constructor
  · rintro ⟨x, hx, h⟩
    cases x with
    | subscribe r => simp only [Option.some.injEq] at h; exact ⟨r, hx, h⟩
    | _ => simp at h
  · rintro ⟨r, h, rfl⟩
    exact ⟨_, h, rfl⟩

theorem reqTags_tail {o : List Out} {t : Tag} (h : t ∈ reqTags (pending o.tail)) : t ∈ reqTags (pending o) := by
  unfold reqTags at h ⊢
  obtain ⟨q, hq, h⟩ := List.mem_filterMap.1 h
  exact List.mem_filterMap.2 ⟨q, pending_tail hq, h⟩

theorem subIdx_tail {o : List Out} {i : Nat} (h : i ∈ subIdx (pending o.tail)) : i ∈ subIdx (pending o) := by
  obtain ⟨r, h1, h2⟩ := subIdx_mem.1 h
  exact subIdx_mem.2 ⟨r, pending_tail h1, h2⟩

set_option linter.unusedSectionVars false

section
variable {cfg : Config} {s : Sys} {w : Watch} (hI : SInv cfg s) (hT : ∀ t, total s t = made s.conns t) (hL : Lens s w)
  {c : Nat} {k : Conn} (hk : s.conns[c]? = some k)
include hI hT hk

theorem pend_own {t : Tag} (h : t ∈ reqTags (pending k.outbox)) : t ∈ k.core.ownTags := by
  unfold Core.ownTags
  have : t ∈ reqTags k.core.pend := h
  simp [this]

theorem flush_acc {a : Cell × Bool} (h : a ∈ flushAccesses k) : FlushCell s c k k.outbox.tail a.1 := by
  have hme : k.me = c := run_me hI hk
  have hloc := hI.loc c k hk
  unfold flushAccesses at h
  rcases List.mem_append.1 h with h | h
  · unfold listCells at h
    obtain ⟨i, hi, rfl⟩ := List.mem_map.1 h
    dsimp only
    rw [hme]
    exact FlushCell.list i hi
  · obtain ⟨x, hx, h⟩ := List.mem_flatMap.1 h
    cases x with
    | panic => simp at h
    | req q =>
      have hq : q ∈ pending k.outbox.tail := mem_pending.2 hx
      have hq' : q ∈ pending k.outbox := pending_tail hq
      dsimp only at h
      unfold outCells at h
      split at h
      · rename_i r
        rw [List.mem_singleton] at h
        subst h
        dsimp only
        obtain ⟨rc, ri⟩ := r
        have := (hloc.refs ⟨rc, ri⟩ (Or.inl hq')).1
        have h2 : rc = c := this.trans hme
        subst h2
        exact FlushCell.pend ri (subIdx_mem.2 ⟨_, hq, rfl⟩)
      · rename_i m
        rw [List.mem_singleton] at h
        subst h
        exact FlushCell.frame _ (mem_reqTags hq (by simp [reqTags]))
      · rename_i m
        rcases List.mem_cons.1 h with rfl | h
        · exact FlushCell.frame _ (mem_reqTags hq (by simp [reqTags]))
        · obtain ⟨i, hi, rfl⟩ := List.mem_map.1 h
          obtain ⟨hi1, hi2⟩ := List.mem_filter.1 hi
          rw [List.mem_range] at hi1
          have hf : (deref k.heap i).frame = some m := by simpa using hi2
          have ht : m.tag ∈ reqTags (pending k.outbox) := mem_reqTags hq' (by simp [reqTags])
          have hown : 0 < k.core.ownTags.count m.tag := List.count_pos_iff.2 (pend_own hI hT hk ht)
          have hone := tot_conn hT hk m.tag
          have htags := tags_own k.core m.tag
          dsimp only
          rw [hme]
          by_cases hl : i ∈ k.subList
          · exact FlushCell.list i hl
          · refine FlushCell.dead i ?_ (by rw [hf]; rfl) hi1
            have h1 : held s.conns ⟨c, i⟩ = 0 := by
              rw [held_of (k := k) hk]
              apply Nat.eq_zero_of_not_pos
              intro hp
              rcases tok_pos_iff.1 hp with h3 | h3 | h3
              · have : 0 < (Conn.frameTags k.core.heap k.core.subCh).count m.tag :=
                  List.count_pos_iff.2 (List.mem_filterMap.2 ⟨i, h3, by show (deref k.heap i).frame.map _ = _; rw [hf]; rfl⟩)
                omega
              · exact hl h3
              · have : (deref k.heap i).frame = none := hloc.empty i h3
                rw [hf] at this; cases this
            have h2 : waiting s ⟨c, i⟩ = 0 := by
              apply Nat.eq_zero_of_not_pos
              intro hp
              obtain ⟨x, hx, hn⟩ := hI.empty _ hp
              obtain ⟨k0, hk0, _, hd⟩ := look_some hx
              dsimp only at hk0 hd
              rw [hk] at hk0; injection hk0 with hk0; subst hk0
              rw [← hd, hf] at hn; cases hn
            have h3 : (todoSubs s.todo).count ⟨c, i⟩ = 0 := by
              apply Nat.eq_zero_of_not_pos
              intro hp
              refine (tot_else hT hk (t := m.tag) (by omega)).2.2 ?_
              have h4 := List.count_pos_iff.1 hp
              unfold todoSubs at h4
              obtain ⟨d, hd, hd'⟩ := List.mem_filterMap.1 h4
              cases d with
              | topic => simp at hd'
              | queue r0 =>
                simp only [Option.some.injEq] at hd'
                subst hd'
                unfold todoTags
                refine List.mem_filterMap.2 ⟨_, hd, ?_⟩
                dsimp only
                rw [look_of (r := ⟨c, i⟩) hk hi1, Option.bind_some]
                dsimp only
                rw [hf]; rfl
            omega
      · simp at h

theorem flush_cell_at {x : Cell} (h : FlushCell s c k k.outbox.tail x) : At s w x (w.know (.loop c)) := by
  cases h with
  | list i h => exact SAt.own (r := ⟨c, i⟩) k hk (Or.inl h)
  | pend i h => exact SAt.own (r := ⟨c, i⟩) k hk (Or.inr (subIdx_tail h))
  | dead i h0 hf hl => exact SAt.dead (r := ⟨c, i⟩) k hk h0 hf
  | frame t h => exact FAt.own c k hk (pend_own hI hT hk (reqTags_tail h))

theorem flush_knows (s' : Sys) : Knows s w (.flush c) s' := by
  intro a ha
  have h1 : a ∈ flushAccesses k := by
    unfold accesses at ha
    dsimp only at ha
    rw [Sys.conn_eq hk] at ha
    exact ha
  exact Or.inl ⟨_, flush_cell_at hI hT hk (flush_acc hI hT hk h1), fun n hn => List.mem_append_left _ hn⟩

end

section
variable {cfg : Config} {s : Sys} {w : Watch} (hI : SInv cfg s) (hT : ∀ t, total s t = made s.conns t) (hL : Lens s w)
  {c : Nat} {k : Conn} (hk : s.conns[c]? = some k) {r : Req} {o : List Out} (ho : k.outbox = .req r :: o)
include hI hT hL hk ho

theorem flush_zip {q : Req} {K : List Nat} (h : (q, K) ∈ (s.reqCh ++ [r]).zip (w.reqK ++ [w.know (.loop c)])) :
    (q, K) ∈ s.reqCh.zip w.reqK ∨ (q = r ∧ K = w.know (.loop c)) := by
  rw [List.zip_append hL.req.symm] at h
  rcases List.mem_append.1 h with h | h
  · exact Or.inl h
  · simp only [List.zip_cons_cons, List.zip_nil_right, List.mem_singleton, Prod.mk.injEq] at h
    exact Or.inr h

theorem flush_pend : k.core.pend = r :: pending o := by show pending k.outbox = _; rw [ho]; rfl

theorem flush_moves_sub (r0 : SubRef) :
    Moves s w (.flush c) { s with conns := s.conns.set c { k with outbox := o }, reqCh := s.reqCh ++ [r] } (.sub r0) := by
  have hloc := hI.loc c k hk
  have hpend := flush_pend hI hT hL hk ho
  have hme : k.core.me = c := run_me hI hk
  have hacc : ∀ {b}, (Cell.sub r0, b) ∈ accesses s (.flush c) { s with conns := s.conns.set c { k with outbox := o }, reqCh := s.reqCh ++ [r] } →
      r0.conn = c ∧ (r0.idx ∈ k.subList ∨ r0.idx ∈ subIdx (pending o) ∨
        (held s.conns r0 + waiting s r0 + (todoSubs s.todo).count r0 = 0)) := by
    intro b hb
    have h1 : (Cell.sub r0, b) ∈ flushAccesses k := by
      unfold accesses at hb
      dsimp only at hb
      rw [Sys.conn_eq hk] at hb
      exact hb
    have h2 := flush_acc hI hT hk h1
    rw [ho] at h2
    dsimp only at h2
    cases h2 with
    | list i h => exact ⟨rfl, Or.inl h⟩
    | pend i h => exact ⟨rfl, Or.inr (Or.inl h)⟩
    | dead i h => exact ⟨rfl, Or.inr (Or.inr h)⟩
  -- an accessed subscription does not wait, is not in the channel, and is not the one just sent
  have away : ∀ {b}, (Cell.sub r0, b) ∈ accesses s (.flush c) { s with conns := s.conns.set c { k with outbox := o }, reqCh := s.reqCh ++ [r] } →
      waiting s r0 = 0 ∧ (todoSubs s.todo).count r0 = 0 ∧ r0.idx ∉ k.subCh ∧ r ≠ .subscribe r0 := by
    intro b hb
    obtain ⟨h1, h2⟩ := hacc hb
    have h3 := hI.tok r0
    have h4 := held_of (conns := s.conns) (r := r0) (k := k) (by rw [h1]; exact hk)
    have h5 := hloc.tok r0.idx
    unfold Core.tok at h5 h4
    rw [hpend] at h5 h4
    have h6 : (subIdx (r :: pending o)).count r0.idx = (subIdx [r]).count r0.idx + (subIdx (pending o)).count r0.idx := by
      rw [← List.count_append, ← subIdx_append]; rfl
    rw [h6] at h5 h4
    have h7 : r = .subscribe r0 → (subIdx [r]).count r0.idx = 1 := by
      rintro rfl; simp [subIdx]
    have h8 : r0.idx ∈ k.subCh → 0 < k.core.subCh.count r0.idx := fun h => count_pos_iff.2 h
    rcases h2 with h2 | h2 | h2
    · have h9 : 0 < k.core.subList.count r0.idx := count_pos_iff.2 h2
      refine ⟨by omega, by omega, fun h => ?_, fun h => ?_⟩
      · have := h8 h; omega
      · have := h7 h; omega
    · have h9 := count_pos_iff.2 h2
      refine ⟨by omega, by omega, fun h => ?_, fun h => ?_⟩
      · have := h8 h; omega
      · have := h7 h; omega
    · refine ⟨by omega, by omega, fun h => ?_, fun h => ?_⟩
      · have := h8 h; omega
      · have := h7 h; omega
  have nowLoop : ∀ {b}, (Cell.sub r0, b) ∈ accesses s (.flush c) { s with conns := s.conns.set c { k with outbox := o }, reqCh := s.reqCh ++ [r] } →
      w.now ∈ (w.step s (.flush c) { s with conns := s.conns.set c { k with outbox := o }, reqCh := s.reqCh ++ [r] }).know (.loop r0.conn) := by
    intro b hb
    rw [(hacc hb).1]
    exact know_now w s (.flush c) _
  intro K' hK'
  cases hK' with
  | own x hx h =>
    refine ⟨?_, fun b hb => nowLoop hb⟩
    dsimp only at hx
    rw [get_set hk] at hx
    split at hx
    · rename_i hc
      injection hx with hx; subst hx
      refine Or.inl ⟨_, SAt.own k (by rw [← hc]; exact hk) ?_, know_mono _ _ _ _ _⟩
      rcases h with h | h
      · exact Or.inl h
      · right
        rw [hpend]
        have h1 : r0.idx ∈ subIdx (pending o) := h
        have : subIdx (r :: pending o) = subIdx [r] ++ subIdx (pending o) := subIdx_append [r] _
        rw [this]; simp [h1]
    · exact Or.inl ⟨_, SAt.own x hx h, know_mono _ _ _ _ _⟩
  | dead x hx h0 hf =>
    refine ⟨?_, fun b hb => nowLoop hb⟩
    have e2 : waiting { s with conns := s.conns.set c { k with outbox := o }, reqCh := s.reqCh ++ [r] } r0 = waiting s r0 + subOne r r0 := by
      unfold waiting
      dsimp only
      rw [reqSubs_append, List.count_append, reqSubs_one]; omega
    dsimp only at hx
    rw [e2] at h0
    dsimp only at h0
    rw [held_set hk] at h0
    rw [get_set hk] at hx
    split at hx
    · rename_i hc
      injection hx with hx; subst hx
      rw [if_pos hc] at h0
      have hkr : s.conns[r0.conn]? = some k := by rw [← hc]; exact hk
      refine Or.inl ⟨_, SAt.dead k hkr ?_ hf, know_mono _ _ _ _ _⟩
      rw [held_of hkr]
      unfold Core.tok at h0 ⊢
      have e3 : (Conn.core { k with outbox := o }).pend = pending o := rfl
      have e4 : (Conn.core { k with outbox := o }).subCh = k.core.subCh := rfl
      have e5 : (Conn.core { k with outbox := o }).subList = k.core.subList := rfl
      rw [e3, e4, e5] at h0
      rw [hpend]
      have h6 : (subIdx (r :: pending o)).count r0.idx = (subIdx [r]).count r0.idx + (subIdx (pending o)).count r0.idx := by
        rw [← List.count_append, ← subIdx_append]; rfl
      rw [h6]
      have h7 : (subIdx [r]).count r0.idx = 0 := by
        apply Nat.eq_zero_of_not_pos
        intro hp
        obtain ⟨r1, hr1, hr2⟩ := subIdx_mem.1 (count_pos_iff.1 hp)
        rw [List.mem_singleton] at hr1
        have := hloc.refs r1 (Or.inl (by rw [hpend, ← hr1]; simp))
        have h9 : r1 = r0 := by
          obtain ⟨a, b⟩ := r1
          obtain ⟨a', b'⟩ := r0
          dsimp only at this hr2 hc
          have := this.1
          rw [hme] at this
          subst this hr2 hc
          rfl
        have : subOne r r0 = 1 := by rw [← hr1, h9]; simp [subOne]
        omega
      omega
    · rename_i hc
      rw [if_neg hc] at h0
      exact Or.inl ⟨_, SAt.dead x hx (by omega) hf, know_mono _ _ _ _ _⟩
  | chan x hx K h =>
    dsimp only at hx
    rw [get_set hk] at hx
    split at hx
    · rename_i hc
      injection hx with hx; subst hx
      refine ⟨Or.inl ⟨K', SAt.chan k (by rw [← hc]; exact hk) K' h, fun _ h => h⟩, fun b hb => ?_⟩
      exact absurd (List.of_mem_zip h).1 (away hb).2.2.1
    · rename_i hc
      refine ⟨Or.inl ⟨K', SAt.chan x hx K' h, fun _ h => h⟩, fun b hb => ?_⟩
      exact absurd (hacc hb).1.symm hc
  | req K h =>
    rcases flush_zip hI hT hL hk ho h with h | ⟨hq, rfl⟩
    · refine ⟨Or.inl ⟨K', SAt.req K' h, fun _ h => h⟩, fun b hb => ?_⟩
      have h1 := count_reqSubs_mem (List.of_mem_zip h).1
      have h2 := (away hb).1
      unfold waiting at h2
      omega
    · refine ⟨Or.inl ⟨w.know (.loop c), ?_, fun _ h => h⟩, fun b hb => absurd hq.symm (away hb).2.2.2⟩
      have h1 := (hloc.refs r0 (Or.inl (by rw [hpend, hq]; simp))).1
      have h2 : r0.conn = c := h1.trans hme
      subst h2
      refine SAt.own k hk (Or.inr ?_)
      rw [hpend]
      exact subIdx_mem.2 ⟨r0, by rw [hq]; simp, rfl⟩
  | proc h =>
    refine ⟨Or.inl ⟨_, SAt.proc h, know_mono _ _ _ _ _⟩, fun b hb => ?_⟩
    obtain ⟨h1, h2, _⟩ := away hb
    unfold waiting at h1
    dsimp only at h
    omega

theorem flush_moves_frame (t : Tag) :
    Moves s w (.flush c) { s with conns := s.conns.set c { k with outbox := o }, reqCh := s.reqCh ++ [r] } (.frame t) := by
  have hpend := flush_pend hI hT hL hk ho
  have hsplit : reqTags (r :: pending o) = reqTags [r] ++ reqTags (pending o) := reqTags_append [r] _
  have hacc : ∀ {b}, (Cell.frame t, b) ∈ accesses s (.flush c) { s with conns := s.conns.set c { k with outbox := o }, reqCh := s.reqCh ++ [r] } →
      t ∈ reqTags (pending o) := by
    intro b hb
    have h1 : (Cell.frame t, b) ∈ flushAccesses k := by
      unfold accesses at hb
      dsimp only at hb
      rw [Sys.conn_eq hk] at hb
      exact hb
    have h2 := flush_acc hI hT hk h1
    rw [ho] at h2
    dsimp only at h2
    cases h2 with
    | frame t h => exact h
  have hown : t ∈ reqTags (pending o) → 0 < k.core.ownTags.count t := by
    intro h
    refine List.count_pos_iff.2 (pend_own hI hT hk ?_)
    show t ∈ reqTags k.core.pend
    rw [hpend, hsplit]; simp [h]
  intro K' hK'
  cases hK' with
  | own c' x hx h =>
    dsimp only at hx
    rw [get_set hk] at hx
    split at hx
    · rename_i hc
      injection hx with hx; subst hx; subst hc
      refine ⟨Or.inl ⟨_, FAt.own c k hk ?_, know_mono _ _ _ _ _⟩, fun b hb => know_now w s (.flush c) _⟩
      have h1 : t ∈ reqTags (pending o) ++ Conn.frameTags k.core.heap k.core.subList ++ k.core.acked ++ k.core.autoDone ++ k.core.lost := h
      unfold Core.ownTags
      rw [hpend, hsplit]
      simp only [List.mem_append] at h1 ⊢
      rcases h1 with (((h1 | h1) | h1) | h1) | h1 <;> simp [h1]
    · rename_i hc
      refine ⟨Or.inl ⟨_, FAt.own c' x hx h, know_mono _ _ _ _ _⟩, fun b hb => ?_⟩
      have h1 := hown (hacc hb)
      have h2 := tags_own k.core t
      have h3 := tags_own x.core t
      have h4 := List.count_pos_iff.2 h
      exact absurd (tot_conns hT hk hx (t := t) (by omega) (by omega)) hc
  | chan c' x hx i K h hf =>
    dsimp only at hx
    have key : ∀ {c' : Nat} {x : Conn}, s.conns[c']? = some x → (i, K') ∈ x.subCh.zip (w.subK c') → (deref x.heap i).frame.map (·.tag) = some t →
        ((∃ K, FAt s w t K ∧ ∀ n ∈ K, n ∈ K') ∨ ¬ Made s (.frame t)) ∧
        ∀ b, (Cell.frame t, b) ∈ accesses s (.flush c) { s with conns := s.conns.set c { k with outbox := o }, reqCh := s.reqCh ++ [r] } → w.now ∈ K' := by
      intro c' x hx h hf
      refine ⟨Or.inl ⟨K', FAt.chan c' x hx i K' h hf, fun _ h => h⟩, fun b hb => ?_⟩
      exfalso
      have h1 := hown (hacc hb)
      have h2 := tags_own k.core t
      have h3 := tags_own x.core t
      have h4 : 0 < (Conn.frameTags x.core.heap x.core.subCh).count t :=
        List.count_pos_iff.2 (List.mem_filterMap.2 ⟨i, (List.of_mem_zip h).1, hf⟩)
      have h5 := tot_conns hT hk hx (t := t) (by omega) (by omega)
      subst h5
      rw [hk] at hx; injection hx with hx; subst hx
      have h6 := tot_conn hT hk t
      omega
    rw [get_set hk] at hx
    split at hx
    · rename_i hc
      injection hx with hx; subst hx; subst hc
      exact key hk h hf
    · exact key hx h hf
  | req q K h ht =>
    rcases flush_zip hI hT hL hk ho h with h | ⟨rfl, rfl⟩
    · refine ⟨Or.inl ⟨K', FAt.req q K' h ht, fun _ h => h⟩, fun b hb => ?_⟩
      have h1 := hown (hacc hb)
      have h2 := tags_own k.core t
      exact absurd (mem_reqTags (List.of_mem_zip h).1 ht) (tot_else hT hk (by omega)).1
    · refine ⟨Or.inl ⟨_, FAt.own c k hk (pend_own hI hT hk ?_), fun _ h => h⟩, fun b hb => ?_⟩
      · show t ∈ reqTags k.core.pend
        rw [hpend, hsplit]; simp [ht]
      · exfalso
        have h1 := List.count_pos_iff.2 (hacc hb)
        have h2 := List.count_pos_iff.2 ht
        have h3 := tot_conn hT hk t
        unfold Core.tags at h3
        rw [hpend, hsplit] at h3
        simp only [List.count_append] at h3
        omega
  | proc h =>
    dsimp only at h
    rw [todoTags_heap (k' := { k with outbox := o }) hk rfl] at h
    refine ⟨Or.inl ⟨_, FAt.proc h, know_mono _ _ _ _ _⟩, fun b hb => ?_⟩
    have h1 := hown (hacc hb)
    have h2 := tags_own k.core t
    obtain ⟨_, h3, h4⟩ := tot_else hT hk (t := t) (by omega)
    rcases h with h | h
    · omega
    · exact absurd h h4

theorem flush_lens : Lens { s with conns := s.conns.set c { k with outbox := o }, reqCh := s.reqCh ++ [r] }
    (w.step s (.flush c) { s with conns := s.conns.set c { k with outbox := o }, reqCh := s.reqCh ++ [r] }) := by
  refine ⟨?_, ?_, ?_⟩
  · show (w.reqK ++ [_]).length = (s.reqCh ++ [r]).length
    rw [List.length_append, List.length_append, hL.req]; rfl
  · intro c' x hx
    dsimp only at hx
    show (w.subK c').length = _
    rw [get_set hk] at hx
    split at hx
    · rename_i hc
      injection hx with hx; subst hx; subst hc
      exact hL.sub c k hk
    · exact hL.sub c' x hx
  · intro c' hc'
    dsimp only at hc'
    rw [List.length_set] at hc'
    exact hL.none c' hc'

omit hI hT hL ho in
theorem flush_made (x : Cell) : Made s x → Made { s with conns := s.conns.set c { k with outbox := o }, reqCh := s.reqCh ++ [r] } x := by
  intro hx
  cases x with
  | sub r0 =>
    show ∃ x, look (s.conns.set c { k with outbox := o }) r0 = some x
    rw [look_heap (k' := { k with outbox := o }) hk rfl]; exact hx
  | frame t =>
    show made (s.conns.set c { k with outbox := o }) t = 1
    rw [made_set (k' := { k with outbox := o }) hk rfl]; exact hx

theorem flush_acc_made : ∀ a ∈ accesses s (.flush c) { s with conns := s.conns.set c { k with outbox := o }, reqCh := s.reqCh ++ [r] },
    Made { s with conns := s.conns.set c { k with outbox := o }, reqCh := s.reqCh ++ [r] } a.1 := by
  intro a ha
  apply flush_made hk
  have hloc := hI.loc c k hk
  have h1 : a ∈ flushAccesses k := by
    unfold accesses at ha
    dsimp only at ha
    rw [Sys.conn_eq hk] at ha
    exact ha
  have h2 := flush_acc hI hT hk h1
  generalize a.1 = x at h2 ⊢
  cases h2 with
  | list i h => exact ⟨_, look_of (r := ⟨c, i⟩) hk (hloc.idx i (tok_pos_iff.2 (Or.inr (Or.inl h))))⟩
  | pend i h => exact ⟨_, look_of (r := ⟨c, i⟩) hk (hloc.idx i (tok_pos_iff.2 (Or.inr (Or.inr (subIdx_tail h)))))⟩
  | dead i h0 hf hl => exact ⟨_, look_of (r := ⟨c, i⟩) hk hl⟩
  | frame t h => exact fat_made hT (w := w) (FAt.own c k hk (pend_own hI hT hk (reqTags_tail h)))

end
end Stomp.Server
