import Verif.Proofs.Server.RaceStepProc
/-! # Pushing into the channels of a connection, accepting a connection, and the shared cells -/
namespace Stomp.Server
open Stomp

set_option linter.unusedSectionVars false

section
variable {cfg : Config} {s : Sys} {w : Watch} (hI : SInv cfg s) (hT : ∀ t, total s t = made s.conns t) (hL : Lens s w)
include hI hT hL

/-! ## A connection is accepted -/

theorem accept_get {c : Nat} {k : Conn} (hk : (s.conns ++ [Conn.init s.conns.length])[c]? = some k) :
    s.conns[c]? = some k ∨ (c = s.conns.length ∧ k = Conn.init c) := by
  by_cases hlt : c < s.conns.length
  · rw [List.getElem?_append_left hlt] at hk; exact Or.inl hk
  · rw [List.getElem?_append_right (by omega)] at hk
    have : c = s.conns.length := by
      cases hn : c - s.conns.length with
      | zero => omega
      | succ n => rw [hn] at hk; simp at hk
    subst this
    simp at hk
    exact Or.inr ⟨rfl, hk.symm⟩

theorem accept_look (r : SubRef) : look (s.conns ++ [Conn.init s.conns.length]) r = look s.conns r := by
  unfold look
  by_cases hlt : r.conn < s.conns.length
  · rw [List.getElem?_append_left hlt]
  · rw [List.getElem?_append_right (by omega), List.getElem?_eq_none (l := s.conns) (by omega)]
    cases r.conn - s.conns.length with
    | zero => simp [Conn.init]
    | succ n => simp

theorem accept_held (r : SubRef) : held (s.conns ++ [Conn.init s.conns.length]) r = held s.conns r := by
  unfold held
  by_cases hlt : r.conn < s.conns.length
  · rw [List.getElem?_append_left hlt]
  · rw [List.getElem?_append_right (by omega), List.getElem?_eq_none (l := s.conns) (by omega)]
    cases r.conn - s.conns.length with
    | zero => simp [Conn.init, Conn.core, Core.tok, subIdx, pending]
    | succ n => simp

theorem accept_lens : Lens { s with conns := s.conns ++ [Conn.init s.conns.length] } (w.step s .accept { s with conns := s.conns ++ [Conn.init s.conns.length] }) := by
  refine ⟨hL.req, ?_, ?_⟩
  · intro c k hk
    rcases accept_get hI hT hL hk with hk | ⟨hc, rfl⟩
    · exact hL.sub c k hk
    · show (w.subK c).length = _
      rw [hL.none c (by omega)]; rfl
  · intro c hc
    refine hL.none c ?_
    simp only [List.length_append, List.length_cons, List.length_nil] at hc
    omega

theorem accept_made (x : Cell) (h : Made s x) : Made { s with conns := s.conns ++ [Conn.init s.conns.length] } x := by
  cases x with
  | sub r =>
    show ∃ y, look (s.conns ++ _) r = some y
    rw [accept_look hI hT hL]; exact h
  | frame t =>
    show made (s.conns ++ _) t = 1
    have h' : made s.conns t = 1 := h
    rw [← h']
    unfold made
    by_cases hlt : t.src < s.conns.length
    · rw [List.getElem?_append_left hlt]
    · rw [List.getElem?_append_right (by omega), List.getElem?_eq_none (l := s.conns) (by omega)]
      cases t.src - s.conns.length with
      | zero => simp [Conn.init]
      | succ n => simp

theorem accept_moves (x : Cell) : Moves s w .accept { s with conns := s.conns ++ [Conn.init s.conns.length] } x := by
  have hkn : ∀ g, g = Goroutine.listen ∨ (w.step s .accept { s with conns := s.conns ++ [Conn.init s.conns.length] }).know g = w.know g := by
    intro g
    by_cases hg : g = .listen
    · exact Or.inl hg
    · exact Or.inr (if_neg hg)
  intro K' hK'
  refine ⟨Or.inl ?_, fun b hb => by cases hb⟩
  cases x with
  | sub r =>
    cases hK' with
    | own k' hk' hx =>
      rcases accept_get hI hT hL hk' with hk | ⟨_, rfl⟩
      · exact ⟨_, SAt.own k' hk hx, know_mono _ _ _ _ _⟩
      · rcases hx with hx | hx
        · cases hx
        · simp [Conn.init, Conn.core, subIdx, pending] at hx
    | dead k' hk' h0 hf =>
      rcases accept_get hI hT hL hk' with hk | ⟨_, rfl⟩
      · refine ⟨_, SAt.dead k' hk ?_ hf, know_mono _ _ _ _ _⟩
        have : held (s.conns ++ [Conn.init s.conns.length]) r + waiting s r + (todoSubs s.todo).count r = 0 := h0
        rw [accept_held hI hT hL] at this
        exact this
      · simp [Conn.init, deref] at hf
        cases hf
    | chan k' hk' K hx =>
      rcases accept_get hI hT hL hk' with hk | ⟨_, rfl⟩
      · exact ⟨K', SAt.chan k' hk K' hx, fun _ h => h⟩
      · have := (List.of_mem_zip hx).1; cases this
    | req K hx => exact ⟨K', SAt.req K' hx, fun _ h => h⟩
    | proc hx => exact ⟨_, SAt.proc hx, know_mono _ _ _ _ _⟩
  | frame t =>
    cases hK' with
    | own c k' hk' hx =>
      rcases accept_get hI hT hL hk' with hk | ⟨_, rfl⟩
      · exact ⟨_, FAt.own c k' hk hx, know_mono _ _ _ _ _⟩
      · simp [Conn.init, Conn.core, Core.ownTags, reqTags, pending, Conn.frameTags] at hx
    | chan c k' hk' i K hx hf =>
      rcases accept_get hI hT hL hk' with hk | ⟨_, rfl⟩
      · exact ⟨K', FAt.chan c k' hk i K' hx hf, fun _ h => h⟩
      · have := (List.of_mem_zip hx).1; cases this
    | req q K hx ht => exact ⟨K', FAt.req q K' hx ht, fun _ h => h⟩
    | proc hx =>
      refine ⟨_, FAt.proc ?_, know_mono _ _ _ _ _⟩
      rcases hx with hx | hx
      · exact Or.inl hx
      · right
        have h1 : todoTags (s.conns ++ [Conn.init s.conns.length]) s.todo = todoTags s.conns s.todo := by
          refine todoTags_congr (fun r hr => ?_)
          rw [accept_look hI hT hL]
        have hx' : t ∈ todoTags (s.conns ++ [Conn.init s.conns.length]) s.todo := hx
        rw [h1] at hx'
        exact hx'

/-! ## A subscription is pushed into a `subChannel` -/

theorem zip_snoc {α β : Type} {l : List α} {m : List β} (h : m.length = l.length) {x : α × β} {a : α} {b : β}
    (hx : x ∈ (l ++ [a]).zip (m ++ [b])) : x ∈ l.zip m ∨ x = (a, b) := by
  rw [List.zip_append h.symm] at hx
  rcases List.mem_append.1 hx with hx | hx
  · exact Or.inl hx
  · exact Or.inr (by simpa using hx)

variable {r0 : SubRef} {t0 : List Delivery} {k0 : Conn} (ht : s.todo = .queue r0 :: t0) (hk0 : s.conns[r0.conn]? = some k0)
include ht hk0

theorem pushq_subK (s' : Sys) (c : Nat) : (w.step s .push s').subK c = if r0.conn = c then w.subK c ++ [w.know .processor] else w.subK c := by
  show w.subK' s .push c = _
  unfold Watch.subK'
  dsimp only
  rw [ht]

theorem pushq_acc (s' : Sys) : accesses s .push s' = [] := by
  unfold accesses
  dsimp only
  rw [ht]

theorem pushq_lens : Lens { s with conns := s.conns.set r0.conn { k0 with subCh := k0.subCh ++ [r0.idx] }, todo := t0 }
    (w.step s .push { s with conns := s.conns.set r0.conn { k0 with subCh := k0.subCh ++ [r0.idx] }, todo := t0 }) := by
  refine ⟨hL.req, ?_, ?_⟩
  · intro c k hk
    rw [pushq_subK hI hT hL ht hk0]
    have hk' : (s.conns.set r0.conn { k0 with subCh := k0.subCh ++ [r0.idx] })[c]? = some k := hk
    rw [get_set hk0] at hk'
    split at hk'
    · rename_i hc
      injection hk' with hk'
      subst hk' hc
      rw [if_pos rfl]
      have := hL.sub _ _ hk0
      simp [this]
    · rename_i hc
      rw [if_neg hc]
      exact hL.sub c k hk'
  · intro c hc
    rw [pushq_subK hI hT hL ht hk0]
    have hlen : (s.conns.set r0.conn { k0 with subCh := k0.subCh ++ [r0.idx] }).length ≤ c := hc
    rw [List.length_set] at hlen
    have hlt := (List.getElem?_eq_some_iff.1 hk0).1
    rw [if_neg (by omega)]
    exact hL.none c hlen

theorem pushq_made (x : Cell) (h : Made s x) : Made { s with conns := s.conns.set r0.conn { k0 with subCh := k0.subCh ++ [r0.idx] }, todo := t0 } x := by
  cases x with
  | sub r =>
    show ∃ y, look (s.conns.set r0.conn { k0 with subCh := k0.subCh ++ [r0.idx] }) r = some y
    rw [look_heap (k' := { k0 with subCh := k0.subCh ++ [r0.idx] }) hk0 rfl]; exact h
  | frame t =>
    show made (s.conns.set r0.conn { k0 with subCh := k0.subCh ++ [r0.idx] }) t = 1
    rw [made_set (k' := { k0 with subCh := k0.subCh ++ [r0.idx] }) hk0 rfl]; exact h

theorem pushq_get {c : Nat} {k' : Conn} (hk' : (s.conns.set r0.conn { k0 with subCh := k0.subCh ++ [r0.idx] })[c]? = some k') :
    ∃ k, s.conns[c]? = some k ∧ k'.subList = k.subList ∧ k'.core.pend = k.core.pend ∧ k'.heap = k.heap ∧ k'.core.ownTags = k.core.ownTags ∧
      ((r0.conn = c ∧ k = k0 ∧ k'.subCh = k.subCh ++ [r0.idx]) ∨ (r0.conn ≠ c ∧ k' = k)) := by
  rw [get_set hk0] at hk'
  split at hk'
  · rename_i hc
    injection hk' with hk'
    subst hk' hc
    exact ⟨k0, hk0, rfl, rfl, rfl, rfl, Or.inl ⟨rfl, rfl, rfl⟩⟩
  · rename_i hc
    exact ⟨k', hk', rfl, rfl, rfl, rfl, Or.inr ⟨hc, rfl⟩⟩

theorem pushq_moves (x : Cell) : Moves s w .push { s with conns := s.conns.set r0.conn { k0 with subCh := k0.subCh ++ [r0.idx] }, todo := t0 } x := by
  intro K' hK'
  refine ⟨Or.inl ?_, fun b hb => by rw [pushq_acc hI hT hL ht hk0] at hb; cases hb⟩
  have hcnt : ∀ x, (todoSubs s.todo).count x = (todoSubs t0).count x + (if r0 = x then 1 else 0) := by
    intro x; rw [ht]; exact count_cons_ref _ _ _
  cases x with
  | sub r =>
    cases hK' with
    | own k' hk' hx =>
      obtain ⟨k, hk, e1, e2, _⟩ := pushq_get hI hT hL ht hk0 hk'
      rw [e1, e2] at hx
      exact ⟨_, SAt.own k hk hx, know_mono _ _ _ _ _⟩
    | dead k' hk' h0 hf =>
      obtain ⟨k, hk, e1, e2, e3, _, hcase⟩ := pushq_get hI hT hL ht hk0 hk'
      rw [e3] at hf
      have h0' : held (s.conns.set r0.conn { k0 with subCh := k0.subCh ++ [r0.idx] }) r + waiting s r + (todoSubs t0).count r = 0 := h0
      rw [held_of hk'] at h0'
      refine ⟨_, SAt.dead k hk ?_ hf, know_mono _ _ _ _ _⟩
      rw [held_of hk, hcnt]
      unfold Core.tok at h0' ⊢
      rw [e2] at h0'
      have e5 : k'.core.subList = k.core.subList := e1
      rw [e5] at h0'
      rcases hcase with ⟨hc, rfl, e4⟩ | ⟨hc, rfl⟩
      · have e6 : k'.core.subCh = k.core.subCh ++ [r0.idx] := e4
        rw [e6, count_snoc] at h0'
        have hne : r0 ≠ r := by
          intro h
          rw [h, if_pos rfl] at h0'
          omega
        rw [if_neg hne]
        omega
      · have hne : r0 ≠ r := fun h => hc (by rw [h])
        rw [if_neg hne]
        omega
    | chan k' hk' K hx =>
      obtain ⟨k, hk, e1, e2, e3, _, hcase⟩ := pushq_get hI hT hL ht hk0 hk'
      rw [pushq_subK hI hT hL ht hk0] at hx
      rcases hcase with ⟨hc, rfl, e4⟩ | ⟨hc, rfl⟩
      · rw [if_pos hc, e4] at hx
        rcases zip_snoc hI hT hL (hL.sub _ _ hk) hx with hx | hx
        · exact ⟨K', SAt.chan k hk K' hx, fun _ h => h⟩
        · injection hx with h1 h2
          subst h2
          refine ⟨_, SAt.proc (Or.inr (Or.inr ?_)), fun _ h => h⟩
          have : r0 = r := by cases r0; cases r; dsimp only at hc h1; rw [hc, h1]
          rw [hcnt, if_pos this]; omega
      · rw [if_neg hc] at hx
        exact ⟨K', SAt.chan k' hk K' hx, fun _ h => h⟩
    | req K hx => exact ⟨K', SAt.req K' hx, fun _ h => h⟩
    | proc hx =>
      refine ⟨_, SAt.proc ?_, know_mono _ _ _ _ _⟩
      rcases hx with h | h | h
      · exact Or.inl h
      · exact Or.inr (Or.inl h)
      · refine Or.inr (Or.inr ?_)
        have h' : 0 < (todoSubs t0).count r := h
        rw [hcnt]; omega
  | frame t =>
    have htags : todoTags s.conns s.todo = ((deref k0.heap r0.idx).frame.map (·.tag)).toList ++ todoTags s.conns t0 := by
      obtain ⟨x, hx, hxf⟩ := hI.full r0 (by rw [hcnt, if_pos rfl]; omega)
      obtain ⟨k1, hk1, hl1, hd1⟩ := look_some hx
      rw [hk0] at hk1; injection hk1 with hk1; subst hk1
      rw [hd1]
      obtain ⟨m, hm⟩ := Option.isSome_iff_exists.1 hxf
      rw [ht]
      unfold todoTags
      rw [List.filterMap_cons_some (b := m.tag)]
      · rw [hm]; rfl
      · dsimp only
        rw [hx]
        show x.frame.map (·.tag) = _
        rw [hm]; rfl
    cases hK' with
    | own c k' hk' hx =>
      obtain ⟨k, hk, _, _, _, e4, _⟩ := pushq_get hI hT hL ht hk0 hk'
      rw [e4] at hx
      exact ⟨_, FAt.own c k hk hx, know_mono _ _ _ _ _⟩
    | chan c k' hk' i K hx hf =>
      obtain ⟨k, hk, e1, e2, e3, _, hcase⟩ := pushq_get hI hT hL ht hk0 hk'
      rw [pushq_subK hI hT hL ht hk0] at hx
      rw [e3] at hf
      rcases hcase with ⟨hc, rfl, e4⟩ | ⟨hc, rfl⟩
      · rw [if_pos hc, e4] at hx
        rcases zip_snoc hI hT hL (hL.sub _ _ hk) hx with hx | hx
        · exact ⟨K', FAt.chan c k hk i K' hx hf, fun _ h => h⟩
        · injection hx with h1 h2
          subst h2
          refine ⟨_, FAt.proc (Or.inr ?_), fun _ h => h⟩
          subst h1
          rw [htags, hf]; simp
      · rw [if_neg hc] at hx
        exact ⟨K', FAt.chan c k' hk i K' hx hf, fun _ h => h⟩
    | req q K hx htq => exact ⟨K', FAt.req q K' hx htq, fun _ h => h⟩
    | proc hx =>
      refine ⟨_, FAt.proc ?_, know_mono _ _ _ _ _⟩
      rcases hx with hx | hx
      · exact Or.inl hx
      · right
        have h1 : todoTags (s.conns.set r0.conn { k0 with subCh := k0.subCh ++ [r0.idx] }) t0 = todoTags s.conns t0 := by
          refine todoTags_congr (fun r hr => ?_)
          rw [look_heap (k' := { k0 with subCh := k0.subCh ++ [r0.idx] }) hk0 rfl]
        have hx' : t ∈ todoTags (s.conns.set r0.conn { k0 with subCh := k0.subCh ++ [r0.idx] }) t0 := hx
        rw [h1] at hx'
        rw [htags]
        exact List.mem_append_right _ hx'

end

/-! ## A frame is pushed into a `writeChannel` -/

section
variable {cfg : Config} {s : Sys} {w : Watch} (hI : SInv cfg s) (hT : ∀ t, total s t = made s.conns t) (hL : Lens s w)
variable {d0 : Bytes} {r0 : SubRef} {m0 m1 : Msg} {t0 : List Delivery} {k0 : Conn} (ht : s.todo = .topic d0 r0 m0 :: t0)
include hI hT hL ht

theorem pusht_acc (s' : Sys) : accesses s .push s' = [(.sub r0, false)] := by
  unfold accesses
  dsimp only
  rw [ht]

theorem pusht_due : 0 < AMap.sum (List.count r0) s.topics := by
  have h1 := hI.due d0 r0 m0 (by rw [ht]; simp)
  have h2 : 0 < (s.topics.list d0).count r0 := List.count_pos_iff.2 h1
  exact Nat.lt_of_lt_of_le h2 (AMap.le_sum_list (List.count r0) rfl s.topics d0)

theorem pusht_knows (s' : Sys) : Knows s w .push s' := by
  intro a ha
  rw [pusht_acc hI hT hL ht, List.mem_singleton] at ha
  subst ha
  exact Or.inl ⟨_, SAt.proc (Or.inr (Or.inl (pusht_due hI hT hL ht))), fun n hn => List.mem_append_left _ hn⟩

theorem pusht_subK (s' : Sys) (c : Nat) : (w.step s .push s').subK c = w.subK c := by
  show w.subK' s .push c = _
  unfold Watch.subK'
  dsimp only
  rw [ht]

theorem pusht_moves {s' : Sys} (hk0 : s.conns[r0.conn]? = some k0) (hc' : s'.conns = s.conns.set r0.conn { k0 with writeCh := k0.writeCh ++ [m1] })
    (hq : s'.reqCh = s.reqCh) (hqs : s'.queues = s.queues) (hts : s'.topics = s.topics) (hst : s'.store = s.store) (hto : s'.todo = t0) :
    WInv s w → WInv s' (w.step s .push s') := by
  have hlk : ∀ r', look s'.conns r' = look s.conns r' := fun r' => by rw [hc']; exact look_heap hk0 rfl
  have hget : ∀ {c : Nat} {k' : Conn}, s'.conns[c]? = some k' → ∃ k : Conn, s.conns[c]? = some k ∧ k'.core.pend = k.core.pend ∧ k'.core.subList = k.core.subList ∧
      k'.core.subCh = k.core.subCh ∧ k'.core.heap = k.core.heap ∧ k'.core.ownTags = k.core.ownTags := by
    intro c k' hk'
    rw [hc', get_set hk0] at hk'
    split at hk'
    · rename_i hc
      injection hk' with hk'
      subst hk' hc
      exact ⟨k0, hk0, rfl, rfl, rfl, rfl, rfl⟩
    · exact ⟨k', hk', rfl, rfl, rfl, rfl, rfl⟩
  have hheld : ∀ r, held s'.conns r = held s.conns r := by
    intro x; rw [hc', held_set hk0]; split
    · rename_i hc; rw [held_of (k := k0) (by rw [← hc]; exact hk0)]; rfl
    · rfl
  have hsubs : todoSubs s.todo = todoSubs t0 := by rw [ht]; rfl
  have htags : todoTags s'.conns s'.todo = todoTags s.conns s.todo := by
    rw [ht, hto]
    show _ = todoTags s.conns t0
    exact todoTags_congr (fun r hr => by rw [hlk])
  have hwait : ∀ r, waiting s' r = waiting s r := by intro r; unfold waiting; rw [hq, hqs, hts]
  intro hW
  refine hW.step ?_ ?_ ?_ ?_
  · refine ⟨?_, ?_, ?_⟩
    · show w.reqK.length = _; rw [hq]; exact hL.req
    · intro c k' hk'
      rw [pusht_subK hI hT hL ht]
      obtain ⟨k, hk, _, _, e, _⟩ := hget hk'
      have e' : k'.subCh = k.subCh := e
      rw [e']; exact hL.sub c k hk
    · intro c hc
      rw [pusht_subK hI hT hL ht]
      rw [hc', List.length_set] at hc
      exact hL.none c hc
  · intro x hx
    cases x with
    | sub r => show ∃ y, look s'.conns r = some y; rw [hlk]; exact hx
    | frame t =>
      show made s'.conns t = 1
      rw [hc', made_set (k' := { k0 with writeCh := k0.writeCh ++ [m1] }) hk0 rfl]; exact hx
  · intro a ha
    rw [pusht_acc hI hT hL ht, List.mem_singleton] at ha
    subst ha
    show ∃ y, look s'.conns r0 = some y
    rw [hlk]
    have h1 := pusht_due hI hT hL ht
    obtain ⟨y, hy, _⟩ := hI.empty r0 (by unfold waiting; omega)
    exact ⟨y, hy⟩
  · intro x K' hK'
    cases x with
    | frame t =>
      refine ⟨Or.inl ?_, fun b hb => by rw [pusht_acc hI hT hL ht] at hb; simp at hb⟩
      cases hK' with
      | own c k' hk' hx =>
        obtain ⟨k, hk, _, _, _, _, e⟩ := hget hk'
        rw [e] at hx
        exact ⟨_, FAt.own c k hk hx, know_mono _ _ _ _ _⟩
      | chan c k' hk' i K hx hf =>
        obtain ⟨k, hk, _, _, e, e2, _⟩ := hget hk'
        have e' : k'.subCh = k.subCh := e
        have e2' : k'.heap = k.heap := e2
        rw [pusht_subK hI hT hL ht, e'] at hx
        rw [e2'] at hf
        exact ⟨K', FAt.chan c k hk i K' hx hf, fun _ h => h⟩
      | req q K hx htq =>
        rw [hq] at hx
        exact ⟨K', FAt.req q K' hx htq, fun _ h => h⟩
      | proc hx =>
        rw [hst, htags] at hx
        exact ⟨_, FAt.proc hx, know_mono _ _ _ _ _⟩
    | sub r =>
      have hacc : ∀ {b}, (Cell.sub r, b) ∈ accesses s .push s' → held s.conns r = 0 ∧ waiting s r = 1 ∧ (reqSubs s.reqCh).count r = 0 := by
        intro b hb
        rw [pusht_acc hI hT hL ht, List.mem_singleton] at hb
        injection hb with hb _
        injection hb with hb
        subst hb
        have h1 := pusht_due hI hT hL ht
        have h2 := hI.tok r
        unfold waiting at h2 ⊢
        omega
      cases hK' with
      | own k' hk' hx =>
        obtain ⟨k, hk, e1, e2, _⟩ := hget hk'
        have e2' : k'.subList = k.subList := e2
        rw [e1, e2'] at hx
        refine ⟨Or.inl ⟨_, SAt.own k hk hx, know_mono _ _ _ _ _⟩, fun b hb => ?_⟩
        have h4 := (hacc hb).1
        rw [held_of hk] at h4
        have := tok_pos_iff.2 (Or.inr hx : r.idx ∈ k.core.subCh ∨ r.idx ∈ k.core.subList ∨ r.idx ∈ subIdx k.core.pend)
        omega
      | dead k' hk' h0 hf =>
        obtain ⟨k, hk, _, _, _, e2, _⟩ := hget hk'
        have e2' : k'.heap = k.heap := e2
        rw [hheld, hwait, hto, ← hsubs] at h0
        rw [e2'] at hf
        refine ⟨Or.inl ⟨_, SAt.dead k hk h0 hf, know_mono _ _ _ _ _⟩, fun b hb => ?_⟩
        have h4 := (hacc hb).2.1
        omega
      | chan k' hk' K hx =>
        obtain ⟨k, hk, _, _, e, _⟩ := hget hk'
        have e' : k'.subCh = k.subCh := e
        rw [pusht_subK hI hT hL ht, e'] at hx
        refine ⟨Or.inl ⟨K', SAt.chan k hk K' hx, fun _ h => h⟩, fun b hb => ?_⟩
        have h4 := (hacc hb).1
        rw [held_of hk] at h4
        have h5 : r.idx ∈ k.core.subCh := (List.of_mem_zip hx).1
        have := tok_pos_iff.2 (Or.inl h5)
        omega
      | req K hx =>
        rw [hq] at hx
        refine ⟨Or.inl ⟨K', SAt.req K' hx, fun _ h => h⟩, fun b hb => ?_⟩
        have h4 := (hacc hb).2.2
        have := count_reqSubs_mem (List.of_mem_zip hx).1
        omega
      | proc hx =>
        rw [hqs, hts, hto, ← hsubs] at hx
        exact ⟨Or.inl ⟨_, SAt.proc hx, know_mono _ _ _ _ _⟩, fun b hb => know_now w s .push s'⟩

end
end Stomp.Server
