import Verif.Proofs.Server.RaceStepFlush
/-! # The steps of the processor, and accepting a connection, and the shared cells -/
namespace Stomp.Server
open Stomp

set_option linter.unusedSectionVars false

/-- What the handling of a request does. -/
structure ProcStep (s s' : Sys) (q : Req) (rs : List Req) : Prop where
  todo : s.todo = []
  req : s.reqCh = q :: rs
  req' : s'.reqCh = rs
  conns : ∀ c k', s'.conns[c]? = some k' → ∃ k, s.conns[c]? = some k ∧ k'.subCh = k.subCh ∧ k'.subList = k.subList ∧ k'.outbox = k.outbox ∧
    k'.acked = k.acked ∧ k'.autoDone = k.autoDone ∧ k'.lost = k.lost ∧
    ∀ i, (deref k'.heap i).frame = (deref k.heap i).frame ∨ (0 < (todoSubs s'.todo).count ⟨c, i⟩ ∧ 0 < waiting s ⟨c, i⟩)
  len : s'.conns.length = s.conns.length
  made : ∀ x, Made s x → Made s' x
  subs : ∀ r, 0 < AMap.sum (List.count r) s'.queues ∨ 0 < AMap.sum (List.count r) s'.topics ∨ 0 < (todoSubs s'.todo).count r →
    0 < AMap.sum (List.count r) s.queues ∨ 0 < AMap.sum (List.count r) s.topics ∨ q = .subscribe r
  frames : ∀ t, 0 < storeSum s'.store t ∨ t ∈ todoTags s'.conns s'.todo → 0 < storeSum s.store t ∨ t ∈ reqTags [q]

section
variable {cfg : Config} {s : Sys} {w : Watch} (hI : SInv cfg s) (hT : ∀ t, total s t = made s.conns t) (hL : Lens s w)
include hI hT hL

theorem lens_req {q : Req} {rs : List Req} (h : s.reqCh = q :: rs) : ∃ K L, w.reqK = K :: L ∧ w.gained s .proc = K ∧ w.reqK' .proc = L := by
  have h1 := hL.req
  rw [h] at h1
  cases hw : w.reqK with
  | nil => rw [hw] at h1; simp at h1
  | cons K L =>
    refine ⟨K, L, rfl, ?_, ?_⟩
    · unfold Watch.gained; rw [hw]; rfl
    · unfold Watch.reqK'; rw [hw]; rfl

theorem proc_acc_sub {q : Req} {r : SubRef} {b : Bool} (h : (.sub r, b) ∈ procAccesses s q) :
    q = .subscribe r ∨ 0 < AMap.sum (List.count r) s.queues := by
  have put : ∀ {m : Msg}, (Cell.sub r, b) ∈ procAccesses.putCells s m → 0 < AMap.sum (List.count r) s.queues := by
    intro m h
    unfold procAccesses.putCells at h
    split at h
    · rename_i d _
      obtain ⟨x, hx, e⟩ := List.mem_map.1 h
      injection e with e1 e2
      injection e1 with e1
      subst e1
      have h1 : 0 < (s.queues.list d).count x := List.count_pos_iff.2 (List.mem_of_mem_take hx)
      exact Nat.lt_of_lt_of_le h1 (AMap.le_sum_list (List.count x) rfl s.queues d)
    · simp at h
  unfold procAccesses at h
  split at h
  · rename_i r0
    rcases List.mem_cons.1 h with h | h
    · injection h with h _
      injection h with h
      exact Or.inl (by rw [h])
    · split at h
      · simp at h
      · simp at h
  · rename_i r0
    split at h
    · rename_i hm
      rw [List.mem_singleton] at h
      injection h with h _
      injection h with h
      subst h
      refine Or.inr ?_
      have h1 : 0 < (s.queues.list (s.sub r).dest).count r := List.count_pos_iff.2 hm
      exact Nat.lt_of_lt_of_le h1 (AMap.le_sum_list (List.count r) rfl s.queues _)
    · simp at h
  · rename_i m
    rcases List.mem_cons.1 h with h | h
    · injection h with h _; cases h
    · exact Or.inr (put h)
  · rename_i m
    rcases List.mem_cons.1 h with h | h
    · injection h with h _; cases h
    · exact Or.inr (put h)
  · simp at h

theorem proc_acc_frame {q : Req} {t : Tag} {b : Bool} (h : (.frame t, b) ∈ procAccesses s q) :
    t ∈ reqTags [q] ∨ 0 < storeSum s.store t := by
  have put : ∀ {m : Msg}, (Cell.frame t, b) ∉ procAccesses.putCells s m := by
    intro m h
    unfold procAccesses.putCells at h
    split at h
    · obtain ⟨x, hx, e⟩ := List.mem_map.1 h
      injection e with e1 e2
      cases e1
    · simp at h
  unfold procAccesses at h
  split at h
  · rename_i r0
    rcases List.mem_cons.1 h with h | h
    · injection h with h _; cases h
    · split at h
      · rename_i m l hm
        rw [List.mem_singleton] at h
        injection h with h _
        injection h with h
        subst h
        refine Or.inr ?_
        have h1 : 0 < ((s.store.list (s.sub r0).dest).map (·.tag)).count m.tag := List.count_pos_iff.2 (by rw [hm]; simp)
        exact Nat.lt_of_lt_of_le h1 (AMap.le_sum_list (fun l : List Msg => (l.map (·.tag)).count m.tag) rfl s.store _)
      · simp at h
  · split at h
    · rw [List.mem_singleton] at h
      injection h with h _; cases h
    · simp at h
  · rename_i m
    rcases List.mem_cons.1 h with h | h
    · injection h with h _
      injection h with h
      subst h
      exact Or.inl (by simp [reqTags])
    · exact absurd h put
  · rename_i m
    rcases List.mem_cons.1 h with h | h
    · injection h with h _
      injection h with h
      subst h
      exact Or.inl (by simp [reqTags])
    · exact absurd h put
  · simp at h

theorem proc_knows {q : Req} {rs : List Req} (hr : s.reqCh = q :: rs) (s' : Sys) : Knows s w .proc s' := by
  obtain ⟨K, L, h1, h2, h3⟩ := lens_req hI hT hL hr
  have hz : (q, K) ∈ s.reqCh.zip w.reqK := by rw [hr, h1]; simp
  rintro ⟨x, b⟩ ha
  have ha' : (x, b) ∈ procAccesses s q := by
    unfold accesses at ha
    dsimp only at ha
    rw [hr] at ha
    exact ha
  rw [h2]
  dsimp only
  cases x with
  | sub r =>
    rcases proc_acc_sub hI hT hL ha' with h | h
    · subst h
      exact Or.inl ⟨_, SAt.req K hz, fun n hn => List.mem_append_right _ hn⟩
    · exact Or.inl ⟨_, SAt.proc (Or.inl h), fun n hn => List.mem_append_left _ hn⟩
  | frame t =>
    rcases proc_acc_frame hI hT hL ha' with h | h
    · exact Or.inl ⟨_, FAt.req q K hz h, fun n hn => List.mem_append_right _ hn⟩
    · exact Or.inl ⟨_, FAt.proc (Or.inl h), fun n hn => List.mem_append_left _ hn⟩

theorem proc_lens {s' : Sys} {q : Req} {rs : List Req} (h : ProcStep s s' q rs) : Lens s' (w.step s .proc s') := by
  obtain ⟨K, L, h1, h2, h3⟩ := lens_req hI hT hL h.req
  refine ⟨?_, ?_, ?_⟩
  · show (w.reqK' .proc).length = _
    rw [h3, h.req']
    have := hL.req
    rw [h1, h.req] at this
    simpa using this
  · intro c k' hk'
    obtain ⟨k, hk, hc, _⟩ := h.conns c k' hk'
    show (w.subK c).length = _
    rw [hc]
    exact hL.sub c k hk
  · intro c hc
    rw [h.len] at hc
    exact hL.none c hc

theorem proc_acc_made {s' : Sys} {q : Req} {rs : List Req} (h : ProcStep s s' q rs) : ∀ a ∈ accesses s .proc s', Made s' a.1 := by
  rintro ⟨x, b⟩ ha
  apply h.made
  have ha' : (x, b) ∈ procAccesses s q := by
    unfold accesses at ha
    dsimp only at ha
    rw [h.req] at ha
    exact ha
  cases x with
  | sub r =>
    have : 0 < waiting s r := by
      rcases proc_acc_sub hI hT hL ha' with h1 | h1
      · subst h1; exact waiting_req h.req
      · unfold waiting; omega
    obtain ⟨y, hy, _⟩ := hI.empty r this
    exact ⟨y, hy⟩
  | frame t =>
    rcases proc_acc_frame hI hT hL ha' with h1 | h1
    · obtain ⟨K, L, h2, _⟩ := lens_req hI hT hL h.req
      exact fat_made hT (w := w) (FAt.req q K (by rw [h.req, h2]; simp) h1)
    · exact fat_made hT (w := w) (FAt.proc (Or.inl h1))

theorem proc_moves_sub {s' : Sys} {q : Req} {rs : List Req} (h : ProcStep s s' q rs) (r : SubRef) : Moves s w .proc s' (.sub r) := by
  obtain ⟨K0, L, h1, h2, h3⟩ := lens_req hI hT hL h.req
  have hz : (q, K0) ∈ s.reqCh.zip w.reqK := by rw [h.req, h1]; simp
  have hacc : ∀ {b}, (Cell.sub r, b) ∈ accesses s .proc s' → held s.conns r = 0 ∧ 0 < waiting s r ∧ (reqSubs rs).count r = 0 := by
    intro b hb
    have hb' : (Cell.sub r, b) ∈ procAccesses s q := by
      unfold accesses at hb
      dsimp only at hb
      rw [h.req] at hb
      exact hb
    have htok := hI.tok r
    unfold waiting at htok ⊢
    rw [h.req, reqSubs_cons] at htok
    rw [h.req, reqSubs_cons]
    rcases proc_acc_sub hI hT hL hb' with h4 | h4
    · subst h4
      simp only [if_true] at htok ⊢
      omega
    · omega
  have hheld : ∀ {k' : Conn}, s'.conns[r.conn]? = some k' → ∃ k : Conn, s.conns[r.conn]? = some k ∧ k'.subCh = k.subCh ∧ k'.subList = k.subList ∧ k'.core.pend = k.core.pend ∧
      held s'.conns r = held s.conns r := by
    intro k' hk'
    obtain ⟨k, hk, e1, e2, e3, _⟩ := h.conns _ k' hk'
    have e4 : k'.core.pend = k.core.pend := by show pending k'.outbox = pending k.outbox; rw [e3]
    refine ⟨k, hk, e1, e2, e4, ?_⟩
    rw [held_of hk, held_of hk']
    unfold Core.tok
    rw [e4]
    have e5 : k'.core.subCh = k.core.subCh := e1
    have e6 : k'.core.subList = k.core.subList := e2
    rw [e5, e6]
  intro K' hK'
  cases hK' with
  | own k' hk' hx =>
    obtain ⟨k, hk, e1, e2, e3, _⟩ := hheld hk'
    rw [e2, e3] at hx
    refine ⟨Or.inl ⟨_, SAt.own k hk hx, know_mono _ _ _ _ _⟩, fun b hb => ?_⟩
    have h4 := (hacc hb).1
    rw [held_of hk] at h4
    have := tok_pos_iff.2 (Or.inr hx : r.idx ∈ k.core.subCh ∨ r.idx ∈ k.core.subList ∨ r.idx ∈ subIdx k.core.pend)
    omega
  | dead k' hk' h0 hf =>
    obtain ⟨k, hk, _, _, _, e4⟩ := hheld hk'
    obtain ⟨k1, hk1, _, _, _, _, _, _, hfr⟩ := h.conns _ k' hk'
    rw [hk] at hk1; injection hk1 with hk1; subst hk1
    rcases hfr r.idx with hfr | hfr
    · rw [hfr] at hf
      have hw : waiting s r = 0 := by
        apply Nat.eq_zero_of_not_pos
        intro hp
        obtain ⟨x, hx, hn⟩ := hI.empty _ hp
        obtain ⟨k0, hk0, _, hd⟩ := look_some hx
        rw [hk] at hk0; injection hk0 with hk0; subst hk0
        rw [hd, hn] at hf; cases hf
      refine ⟨Or.inl ⟨_, SAt.dead k hk ?_ hf, know_mono _ _ _ _ _⟩, fun b hb => ?_⟩
      · rw [h.todo, hw, ← e4]
        show held s'.conns r + 0 + 0 = 0
        omega
      · have := (hacc hb).2.1
        omega
    · have : 0 < (todoSubs s'.todo).count r := hfr.1
      omega
  | chan k' hk' K hx =>
    obtain ⟨k, hk, e1, _⟩ := hheld hk'
    rw [e1] at hx
    refine ⟨Or.inl ⟨K', SAt.chan k hk K' hx, fun _ h => h⟩, fun b hb => ?_⟩
    have h4 := (hacc hb).1
    rw [held_of hk] at h4
    have h5 : r.idx ∈ k.core.subCh := (List.of_mem_zip hx).1
    have := tok_pos_iff.2 (Or.inl h5)
    omega
  | req K hx =>
    have hx' : (Req.subscribe r, K') ∈ rs.zip L := by
      have e1 : (w.step s .proc s').reqK = L := h3
      rw [e1, h.req'] at hx
      exact hx
    refine ⟨Or.inl ⟨K', SAt.req K' (by rw [h.req, h1]; simp [hx']), fun _ h => h⟩, fun b hb => ?_⟩
    have := (hacc hb).2.2
    have := count_reqSubs_mem (List.of_mem_zip hx').1
    omega
  | proc hx =>
    refine ⟨?_, fun b hb => know_now w s .proc s'⟩
    rcases h.subs r hx with h4 | h4 | h4
    · exact Or.inl ⟨_, SAt.proc (Or.inl h4), know_mono _ _ _ _ _⟩
    · exact Or.inl ⟨_, SAt.proc (Or.inr (Or.inl h4)), know_mono _ _ _ _ _⟩
    · subst h4
      refine Or.inl ⟨_, SAt.req K0 hz, fun n hn => ?_⟩
      exact know_gained w s .proc s' n (by rw [h2]; exact hn)

theorem proc_moves_frame {s' : Sys} {q : Req} {rs : List Req} (h : ProcStep s s' q rs) (t : Tag) : Moves s w .proc s' (.frame t) := by
  obtain ⟨K0, L, h1, h2, h3⟩ := lens_req hI hT hL h.req
  have hz : (q, K0) ∈ s.reqCh.zip w.reqK := by rw [h.req, h1]; simp
  have hsplit : reqTags s.reqCh = reqTags [q] ++ reqTags rs := by rw [h.req]; exact reqTags_append [q] rs
  have hacc : ∀ {b}, (Cell.frame t, b) ∈ accesses s .proc s' → connSum s.conns t = 0 ∧ (reqTags rs).count t = 0 := by
    intro b hb
    have hb' : (Cell.frame t, b) ∈ procAccesses s q := by
      unfold accesses at hb
      dsimp only at hb
      rw [h.req] at hb
      exact hb
    have htot := tot1 hT t
    unfold total at htot
    rw [hsplit, List.count_append] at htot
    rcases proc_acc_frame hI hT hL hb' with h4 | h4
    · have := List.count_pos_iff.2 h4
      omega
    · omega
  have hframe : ∀ {c : Nat} {k' : Conn}, s'.conns[c]? = some k' → ∃ k : Conn, s.conns[c]? = some k ∧ k'.core.ownTags = k.core.ownTags ∧ k'.subCh = k.subCh ∧
      ∀ i ∈ k.subCh, (deref k'.heap i).frame = (deref k.heap i).frame := by
    intro c k' hk'
    obtain ⟨k, hk, e1, e2, e3, e4, e5, e6, e7⟩ := h.conns _ k' hk'
    have hheld : ∀ i, i ∈ k.subCh ∨ i ∈ k.subList → (deref k'.heap i).frame = (deref k.heap i).frame := by
      intro i hi
      rcases e7 i with h5 | h5
      · exact h5
      · exact absurd rfl (hI.notHeld (r := ⟨c, i⟩) hk h5.2 i hi)
    refine ⟨k, hk, ?_, e1, fun i hi => hheld i (Or.inl hi)⟩
    unfold Core.ownTags
    show reqTags (pending k'.outbox) ++ Conn.frameTags k'.heap k'.subList ++ k'.acked ++ k'.autoDone ++ k'.lost =
      reqTags (pending k.outbox) ++ Conn.frameTags k.heap k.subList ++ k.acked ++ k.autoDone ++ k.lost
    have e8 : Conn.frameTags k'.heap k.subList = Conn.frameTags k.heap k.subList := frameTags_congr (fun i hi => by rw [hheld i (Or.inr hi)])
    rw [e2, e3, e4, e5, e6, e8]
  intro K' hK'
  cases hK' with
  | own c k' hk' hx =>
    obtain ⟨k, hk, e1, _⟩ := hframe hk'
    rw [e1] at hx
    refine ⟨Or.inl ⟨_, FAt.own c k hk hx, know_mono _ _ _ _ _⟩, fun b hb => ?_⟩
    have h4 := (hacc hb).1
    have h5 := connSum_ge hk t
    have h6 := tags_own k.core t
    have h7 := List.count_pos_iff.2 hx
    omega
  | chan c k' hk' i K hx hf =>
    obtain ⟨k, hk, _, e2, e3⟩ := hframe hk'
    rw [e2] at hx
    have hi := (List.of_mem_zip hx).1
    rw [e3 i hi] at hf
    refine ⟨Or.inl ⟨_, FAt.chan c k hk i K' hx hf, fun _ h => h⟩, fun b hb => ?_⟩
    have h4 := (hacc hb).1
    have h5 := connSum_ge hk t
    have h6 := tags_own k.core t
    have h7 : 0 < (Conn.frameTags k.core.heap k.core.subCh).count t := List.count_pos_iff.2 (List.mem_filterMap.2 ⟨i, hi, hf⟩)
    omega
  | req q' K hx ht =>
    have hx' : (q', K') ∈ rs.zip L := by
      have e1 : (w.step s .proc s').reqK = L := h3
      rw [e1, h.req'] at hx
      exact hx
    refine ⟨Or.inl ⟨K', FAt.req q' K' (by rw [h.req, h1]; simp [hx']) ht, fun _ h => h⟩, fun b hb => ?_⟩
    have h4 := (hacc hb).2
    have := List.count_pos_iff.2 (mem_reqTags (List.of_mem_zip hx').1 ht)
    omega
  | proc hx =>
    refine ⟨?_, fun b hb => know_now w s .proc s'⟩
    rcases h.frames t hx with h4 | h4
    · exact Or.inl ⟨_, FAt.proc (Or.inl h4), know_mono _ _ _ _ _⟩
    · exact Or.inl ⟨_, FAt.req q K0 hz h4, fun n hn => know_gained w s .proc s' n (by rw [h2]; exact hn)⟩

end

/-! ## The cases -/

section
variable {cfg : Config} {s : Sys} (hI : SInv cfg s)

theorem conns_same {s s' : Sys} (h : s'.conns = s.conns) : ∀ c k', s'.conns[c]? = some k' → ∃ k, s.conns[c]? = some k ∧ k'.subCh = k.subCh ∧ k'.subList = k.subList ∧ k'.outbox = k.outbox ∧
    k'.acked = k.acked ∧ k'.autoDone = k.autoDone ∧ k'.lost = k.lost ∧
    ∀ i, (deref k'.heap i).frame = (deref k.heap i).frame ∨ (0 < (todoSubs s'.todo).count ⟨c, i⟩ ∧ 0 < waiting s ⟨c, i⟩) := by
  intro c k' hk'
  rw [h] at hk'
  exact ⟨k', hk', rfl, rfl, rfl, rfl, rfl, rfl, fun i => Or.inl rfl⟩

theorem conns_one {s s' : Sys} {c0 : Nat} {k0 : Conn} {g : List Sub} (hk0 : s.conns[c0]? = some k0) (h : s'.conns = s.conns.set c0 { k0 with heap := g })
    (hg : ∀ i, (deref g i).frame = (deref k0.heap i).frame ∨ (0 < (todoSubs s'.todo).count ⟨c0, i⟩ ∧ 0 < waiting s ⟨c0, i⟩)) :
    ∀ c k', s'.conns[c]? = some k' → ∃ k, s.conns[c]? = some k ∧ k'.subCh = k.subCh ∧ k'.subList = k.subList ∧ k'.outbox = k.outbox ∧
    k'.acked = k.acked ∧ k'.autoDone = k.autoDone ∧ k'.lost = k.lost ∧
    ∀ i, (deref k'.heap i).frame = (deref k.heap i).frame ∨ (0 < (todoSubs s'.todo).count ⟨c, i⟩ ∧ 0 < waiting s ⟨c, i⟩) := by
  intro c k' hk'
  rw [h, get_set hk0] at hk'
  split at hk'
  · rename_i hc
    injection hk' with hk'
    subst hk' hc
    exact ⟨k0, hk0, rfl, rfl, rfl, rfl, rfl, rfl, hg⟩
  · exact ⟨k', hk', rfl, rfl, rfl, rfl, rfl, rfl, fun i => Or.inl rfl⟩

theorem made_same {s s' : Sys} (h : s'.conns = s.conns) (x : Cell) (hx : Made s x) : Made s' x := by
  unfold Made at *
  rw [h]
  exact hx

theorem made_one {s s' : Sys} {c0 : Nat} {k0 : Conn} {g : List Sub} (hk0 : s.conns[c0]? = some k0) (h : s'.conns = s.conns.set c0 { k0 with heap := g })
    (hl : g.length = k0.heap.length) (x : Cell) (hx : Made s x) : Made s' x := by
  cases x with
  | sub r =>
    show ∃ x, look s'.conns r = some x
    rw [h, look_set hk0]
    obtain ⟨y, hy⟩ := hx
    split
    · rename_i hc
      obtain ⟨k1, hk1, hl1, _⟩ := look_some hy
      rw [← hc, hk0] at hk1; injection hk1 with hk1; subst hk1
      exact ⟨_, List.getElem?_eq_getElem (by dsimp only; omega)⟩
    · exact ⟨y, hy⟩
  | frame t =>
    show made s'.conns t = 1
    rw [h, made_set (k' := { k0 with heap := g }) hk0 rfl]
    exact hx

include hI

theorem proc_cases {s' : Sys} (h : SysStep cfg s .proc s') : ∃ q rs, ProcStep s s' q rs := by
  have e0 : ∀ r : SubRef, s.todo = [] → ¬ 0 < (todoSubs s.todo).count r := by intro r h; rw [h]; simp [todoSubs]
  have f0 : ∀ t conns, s.todo = [] → t ∉ todoTags conns s.todo := by intro t conns h; rw [h]; simp [todoTags]
  have subs0 : s.todo = [] → ∀ (q : Req) r, 0 < AMap.sum (List.count r) s.queues ∨ 0 < AMap.sum (List.count r) s.topics ∨ 0 < (todoSubs s.todo).count r →
      0 < AMap.sum (List.count r) s.queues ∨ 0 < AMap.sum (List.count r) s.topics ∨ q = .subscribe r := by
    intro ht q r h
    rcases h with h | h | h
    · exact Or.inl h
    · exact Or.inr (Or.inl h)
    · exact absurd h (e0 r ht)
  have frames0 : s.todo = [] → ∀ (q : Req) conns t, 0 < storeSum s.store t ∨ t ∈ todoTags conns s.todo → 0 < storeSum s.store t ∨ t ∈ reqTags [q] := by
    intro ht q conns t h
    rcases h with h | h
    · exact Or.inl h
    · exact absurd h (f0 t conns ht)
  cases h with
  | skip r rs ht hr hn => exact ⟨r, rs, ht, hr, rfl, conns_same rfl, rfl, made_same rfl, subs0 ht r, frames0 ht r _⟩
  | joinTopic r rs k dest ht hr hk hidx hd hq =>
    refine ⟨_, rs, ht, hr, rfl, conns_same rfl, rfl, made_same rfl, ?_, frames0 ht _ _⟩
    intro x hx
    dsimp only at hx
    rw [sum_snoc] at hx
    rcases hx with h | h | h
    · exact Or.inl h
    · by_cases hrx : r = x
      · exact Or.inr (Or.inr (by rw [hrx]))
      · rw [if_neg hrx] at h; exact Or.inr (Or.inl h)
    · exact absurd h (e0 x ht)
  | wait r rs k dest ht hr hk hidx hd hq he hl =>
    refine ⟨_, rs, ht, hr, rfl, conns_one hk rfl (fun i => Or.inl (frame_putInList _ _ _ _)), by simp, made_one hk rfl (putInList_length _ _ _), ?_, frames0 ht _ _⟩
    intro x hx
    dsimp only at hx
    rw [sum_snoc] at hx
    rcases hx with h | h | h
    · by_cases hrx : r = x
      · exact Or.inr (Or.inr (by rw [hrx]))
      · rw [if_neg hrx] at h; exact Or.inl h
    · exact Or.inr (Or.inl h)
    · exact absurd h (e0 x ht)
  | take r rs k dest m l ht hr hk hidx hd hq hm hfr =>
    refine ⟨_, rs, ht, hr, rfl, conns_one hk rfl ?_, by simp, made_one hk rfl (putFrame_length _ _ _), ?_, ?_⟩
    · intro i
      by_cases hi : r.idx = i
      · refine Or.inr ⟨?_, ?_⟩
        · subst hi; simp [todoSubs]
        · subst hi; exact waiting_req hr
      · exact Or.inl (by rw [deref_putFrame_ne _ _ hi])
    · intro x hx
      dsimp only at hx
      rcases hx with h | h | h
      · exact Or.inl h
      · exact Or.inr (Or.inl h)
      · refine Or.inr (Or.inr ?_)
        simp only [todoSubs, List.filterMap_cons, List.filterMap_nil] at h
        have := List.count_pos_iff.1 h
        rw [List.mem_singleton] at this
        rw [this]
    · intro t h
      dsimp only at h
      have h4 := storeSum_set s.store dest l t
      rw [hm, List.map_cons, tagCount_cons] at h4
      left
      rcases h with h | h
      · omega
      · have h3 : todoTags (s.conns.set r.conn { k with heap := putFrame k.heap r.idx (some (m.addressed (deref k.heap r.idx).id)) }) [.queue r] = [m.tag] := by
          unfold todoTags
          rw [List.filterMap_cons_some (b := m.tag)]
          · rfl
          · dsimp only
            rw [look_sub (x := deref k.heap r.idx) (g := fun x => { x with frame := some (m.addressed (deref k.heap r.idx).id) }) hk rfl (look_of hk hidx), if_pos rfl]
            rfl
        rw [h3, List.mem_singleton] at h
        rw [if_pos h.symm] at h4
        omega
  | leaveQueue r rs k dest ht hr hk hidx hd hq hm =>
    refine ⟨_, rs, ht, hr, rfl, conns_one hk rfl (fun i => Or.inl (frame_putInList _ _ _ _)), by simp, made_one hk rfl (putInList_length _ _ _), ?_, frames0 ht _ _⟩
    intro x hx
    dsimp only at hx
    have := sum_erase s.queues dest r x
    rcases hx with h | h | h
    · exact Or.inl (by omega)
    · exact Or.inr (Or.inl h)
    · exact absurd h (e0 x ht)
  | absent r rs k dest ht hr => exact ⟨_, rs, ht, hr, rfl, conns_same rfl, rfl, made_same rfl, subs0 ht _, frames0 ht _ _⟩
  | leaveTopic r rs k dest ht hr hk hidx hd hq =>
    refine ⟨_, rs, ht, hr, rfl, conns_same rfl, rfl, made_same rfl, ?_, frames0 ht _ _⟩
    intro x hx
    dsimp only at hx
    have := sum_erase s.topics dest r x
    rcases hx with h | h | h
    · exact Or.inl h
    · exact Or.inr (Or.inl (by omega))
    · exact absurd h (e0 x ht)
  | store front m rs dest ht hr hdd hq he =>
    refine ⟨_, rs, ht, hr, rfl, conns_same rfl, rfl, made_same rfl, subs0 ht _, ?_⟩
    intro t h
    dsimp only at h
    have h4 := storeSum_set s.store dest (if front then m :: s.store.list dest else s.store.list dest ++ [m]) t
    have h5 : ((if front then m :: s.store.list dest else s.store.list dest ++ [m]).map (·.tag)).count t =
        ((s.store.list dest).map (·.tag)).count t + (if m.tag = t then 1 else 0) := by
      cases front with
      | true => rw [if_pos rfl, List.map_cons, tagCount_cons]
      | false =>
        rw [if_neg (by simp), List.map_append, List.count_append, List.map_cons, tagCount_cons]
        simp
    rw [h5] at h4
    rcases h with h | h
    · by_cases hmt : m.tag = t
      · right; rw [reqTags_put, hmt]; simp
      · rw [if_neg hmt] at h4; left; omega
    · exact absurd h (f0 t _ ht)
  | give front m rs dest r q k ht hr hdd hq he hk hidx hfr =>
    refine ⟨_, rs, ht, hr, rfl, conns_one hk rfl ?_, by simp, made_one hk rfl (by rw [putFrame_length, putInList_length]), ?_, ?_⟩
    · intro i
      by_cases hi : r.idx = i
      · refine Or.inr ⟨?_, ?_⟩
        · subst hi; simp [todoSubs]
        · subst hi; exact waiting_queue (d := dest) (by rw [he]; simp)
      · exact Or.inl (by rw [deref_putFrame_ne _ _ hi, frame_putInList])
    · intro x hx
      dsimp only at hx
      have := sum_tail s.queues dest r x q he
      rcases hx with h | h | h
      · exact Or.inl (by omega)
      · exact Or.inr (Or.inl h)
      · refine Or.inl ?_
        simp only [todoSubs, List.filterMap_cons, List.filterMap_nil] at h
        have h6 := List.count_pos_iff.1 h
        rw [List.mem_singleton] at h6
        rw [if_pos h6.symm] at this
        omega
    · intro t h
      dsimp only at h
      rcases h with h | h
      · exact Or.inl h
      · right
        have hlook := look_of (k := { k with heap := putFrame (putInList k.heap r.idx false) r.idx (some (m.addressed (deref k.heap r.idx).id)) })
            (conns := s.conns.set r.conn { k with heap := putFrame (putInList k.heap r.idx false) r.idx (some (m.addressed (deref k.heap r.idx).id)) }) (r := r)
            (by rw [get_set hk, if_pos rfl]) (by dsimp only; rw [putFrame_length, putInList_length]; exact hidx)
        have hsub : deref (putFrame (putInList k.heap r.idx false) r.idx (some (m.addressed (deref k.heap r.idx).id))) r.idx =
            { deref (putInList k.heap r.idx false) r.idx with frame := some (m.addressed (deref k.heap r.idx).id) } := by
          rw [deref_putFrame]; exact if_pos ⟨rfl, by rw [putInList_length]; exact hidx⟩
        have h3 : todoTags (s.conns.set r.conn { k with heap := putFrame (putInList k.heap r.idx false) r.idx (some (m.addressed (deref k.heap r.idx).id)) }) [.queue r] = [m.tag] := by
          unfold todoTags
          rw [List.filterMap_cons_some (b := m.tag)]
          · rfl
          · dsimp only
            rw [hlook]
            dsimp only
            rw [hsub]
            rfl
        rw [h3, List.mem_singleton] at h
        rw [reqTags_put, h]; simp
  | cast m rs dest ht hr hdd hq =>
    refine ⟨_, rs, ht, hr, rfl, conns_same rfl, rfl, made_same rfl, ?_, ?_⟩
    · intro x hx
      dsimp only at hx
      have ht0 : todoSubs ((s.topics.list dest).map (fun r => Delivery.topic dest r m)) = [] := by
        unfold todoSubs
        rw [List.filterMap_eq_nil_iff]
        intro x hx
        obtain ⟨y, _, rfl⟩ := List.mem_map.1 hx
        rfl
      rw [ht0] at hx
      rcases hx with h | h | h
      · exact Or.inl h
      · exact Or.inr (Or.inl h)
      · simp at h
    · intro t h
      dsimp only at h
      have h2 : todoTags s.conns ((s.topics.list dest).map (fun r => Delivery.topic dest r m)) = [] := by
        unfold todoTags
        rw [List.filterMap_eq_nil_iff]
        intro x hx
        obtain ⟨y, _, rfl⟩ := List.mem_map.1 hx
        rfl
      rw [h2] at h
      rcases h with h | h
      · exact Or.inl h
      · simp at h
  | drop m rs dest ht hr hdd hq => exact ⟨_, rs, ht, hr, rfl, conns_same rfl, rfl, made_same rfl, subs0 ht _, frames0 ht _ _⟩

end
end Stomp.Server
