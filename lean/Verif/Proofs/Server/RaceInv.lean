import Verif.Proofs.Server.RaceConn
/-! # Where the shared cells are, and what whoever gets hold of them knows -/
namespace Stomp.Server
open Stomp

/-- The tags of the messages a connection has, except those still in its `subChannel`. -/
def Core.ownTags (a : Core) : List Tag :=
  reqTags a.pend ++ Conn.frameTags a.heap a.subList ++ a.acked ++ a.autoDone ++ a.lost

theorem tags_own (a : Core) (t : Tag) : a.tags.count t = a.ownTags.count t + (Conn.frameTags a.heap a.subCh).count t := by
  unfold Core.tags Core.ownTags
  simp only [List.count_append]
  omega

/-- Where a subscription is, and what is known there. -/
inductive SAt (s : Sys) (w : Watch) (r : SubRef) : List Nat → Prop
  | own (k : Conn) (hk : s.conns[r.conn]? = some k) (h : r.idx ∈ k.subList ∨ r.idx ∈ subIdx k.core.pend) : SAt s w r (w.know (.loop r.conn))
  | dead (k : Conn) (hk : s.conns[r.conn]? = some k) (h0 : held s.conns r + waiting s r + (todoSubs s.todo).count r = 0)
      (hf : (deref k.heap r.idx).frame.isSome) : SAt s w r (w.know (.loop r.conn))
  | chan (k : Conn) (hk : s.conns[r.conn]? = some k) (K : List Nat) (h : (r.idx, K) ∈ k.subCh.zip (w.subK r.conn)) : SAt s w r K
  | req (K : List Nat) (h : (.subscribe r, K) ∈ s.reqCh.zip w.reqK) : SAt s w r K
  | proc (h : 0 < AMap.sum (List.count r) s.queues ∨ 0 < AMap.sum (List.count r) s.topics ∨ 0 < (todoSubs s.todo).count r) :
      SAt s w r (w.know .processor)

/-- Where a frame is, and what is known there. -/
inductive FAt (s : Sys) (w : Watch) (t : Tag) : List Nat → Prop
  | own (c : Nat) (k : Conn) (hk : s.conns[c]? = some k) (h : t ∈ k.core.ownTags) : FAt s w t (w.know (.loop c))
  | chan (c : Nat) (k : Conn) (hk : s.conns[c]? = some k) (i : Nat) (K : List Nat) (h : (i, K) ∈ k.subCh.zip (w.subK c))
      (hf : (deref k.heap i).frame.map (·.tag) = some t) : FAt s w t K
  | req (q : Req) (K : List Nat) (h : (q, K) ∈ s.reqCh.zip w.reqK) (ht : t ∈ reqTags [q]) : FAt s w t K
  | proc (h : 0 < storeSum s.store t ∨ t ∈ todoTags s.conns s.todo) : FAt s w t (w.know .processor)

/-- Where a cell is. -/
def At (s : Sys) (w : Watch) : Cell → List Nat → Prop
  | .sub r, K => SAt s w r K
  | .frame t, K => FAt s w t K

/-- The cell exists. -/
def Made (s : Sys) : Cell → Prop
  | .sub r => ∃ x, look s.conns r = some x
  | .frame t => made s.conns t = 1

/-- Each element of a channel has its knowledge. -/
structure Lens (s : Sys) (w : Watch) : Prop where
  req : w.reqK.length = s.reqCh.length
  sub : ∀ c k, s.conns[c]? = some k → (w.subK c).length = k.subCh.length
  none : ∀ c, s.conns.length ≤ c → w.subK c = []

/-- Whoever gets hold of a cell knows of all earlier accesses. -/
structure WInv (s : Sys) (w : Watch) : Prop where
  lens : Lens s w
  made : ∀ b ∈ w.hist, Made s b.cell
  known : ∀ x K, At s w x K → ∀ b ∈ w.hist, b.cell = x → b.at_ ∈ K

theorem made_le (conns : List Conn) (t : Tag) : made conns t ≤ 1 := by
  unfold made
  split
  · omega
  · split <;> omega

theorem connSum_ge {conns : List Conn} {c : Nat} {k : Conn} (hk : conns[c]? = some k) (t : Tag) : k.core.tags.count t ≤ connSum conns t := by
  have h := connSum_set (k' := Conn.init c) hk t
  have h0 : (Conn.init c).core.tags.count t = 0 := by
    simp [Conn.init, Conn.core, Core.tags, reqTags, pending, Conn.frameTags]
  omega

theorem connSum_two {conns : List Conn} {c c' : Nat} {k k' : Conn} (hk : conns[c]? = some k) (hk' : conns[c']? = some k') (hc : c ≠ c') (t : Tag) :
    k.core.tags.count t + k'.core.tags.count t ≤ connSum conns t := by
  have h := connSum_set (k' := Conn.init c) hk t
  have h0 : (Conn.init c).core.tags.count t = 0 := by
    simp [Conn.init, Conn.core, Core.tags, reqTags, pending, Conn.frameTags]
  have h1 := connSum_ge (conns := conns.set c (Conn.init c)) (c := c') (k := k') (by rw [get_set hk, if_neg hc]; exact hk') t
  omega

section
variable {s : Sys} (hT : ∀ t, total s t = made s.conns t)
include hT

theorem tot1 (t : Tag) : total s t ≤ 1 := by rw [hT]; exact made_le _ _

theorem tot_conn {c : Nat} {k : Conn} (hk : s.conns[c]? = some k) (t : Tag) : k.core.tags.count t ≤ 1 := by
  have h1 := tot1 hT t
  have h2 := connSum_ge hk t
  unfold total at h1
  omega

theorem tot_conns {c c' : Nat} {k k' : Conn} (hk : s.conns[c]? = some k) (hk' : s.conns[c']? = some k') {t : Tag}
    (h : 0 < k.core.tags.count t) (h' : 0 < k'.core.tags.count t) : c = c' := by
  apply Classical.byContradiction
  intro hc
  have h1 := tot1 hT t
  have h2 := connSum_two hk hk' hc t
  unfold total at h1
  omega

theorem tot_else {c : Nat} {k : Conn} (hk : s.conns[c]? = some k) {t : Tag} (h : 0 < k.core.tags.count t) :
    t ∉ reqTags s.reqCh ∧ storeSum s.store t = 0 ∧ t ∉ todoTags s.conns s.todo := by
  have h1 := tot1 hT t
  have h2 := connSum_ge hk t
  unfold total at h1
  refine ⟨fun h3 => ?_, by omega, fun h3 => ?_⟩
  · have := List.count_pos_iff.2 h3; omega
  · have := List.count_pos_iff.2 h3; omega

theorem tot_zero {t : Tag} (h : ¬ Made s (.frame t)) : total s t = 0 := by
  rw [hT]
  have := made_le s.conns t
  have h' : ¬ made s.conns t = 1 := h
  omega

/-- A frame that does not exist is nowhere. -/
theorem fat_made {w : Watch} {t : Tag} {K : List Nat} (h : FAt s w t K) : Made s (.frame t) := by
  apply Classical.byContradiction
  intro hn
  have h0 := tot_zero hT hn
  unfold total at h0
  cases h with
  | own c k hk h =>
    have h1 := connSum_ge hk t
    have h2 := tags_own k.core t
    have h3 := List.count_pos_iff.2 h
    omega
  | chan c k hk i K h hf =>
    have h1 := connSum_ge hk t
    have h2 := tags_own k.core t
    have h3 : 0 < (Conn.frameTags k.core.heap k.core.subCh).count t :=
      List.count_pos_iff.2 (List.mem_filterMap.2 ⟨i, (List.of_mem_zip h).1, hf⟩)
    omega
  | req q K h ht =>
    have : t ∈ reqTags s.reqCh := by
      unfold reqTags at ht ⊢
      obtain ⟨q', hq, hq'⟩ := List.mem_filterMap.1 ht
      rw [List.mem_singleton] at hq; subst hq
      exact List.mem_filterMap.2 ⟨_, (List.of_mem_zip h).1, hq'⟩
    have := List.count_pos_iff.2 this
    omega
  | proc h =>
    rcases h with h | h
    · omega
    · have := List.count_pos_iff.2 h; omega

end

theorem mem_reqTags {l : List Req} {q : Req} {t : Tag} (hq : q ∈ l) (ht : t ∈ reqTags [q]) : t ∈ reqTags l := by
  unfold reqTags at ht ⊢
  obtain ⟨q', hq1, hq'⟩ := List.mem_filterMap.1 ht
  rw [List.mem_singleton] at hq1; subst hq1
  exact List.mem_filterMap.2 ⟨_, hq, hq'⟩

/-! ## The knowledge after a step -/

section
variable (w : Watch) (s : Sys) (e : Sys.Ev) (s' : Sys)

theorem know_mono (h : Goroutine) : ∀ x ∈ w.know h, x ∈ (w.step s e s').know h := by
  intro x hx
  show x ∈ if h = e.goroutine then _ else _
  split
  · rename_i hg; subst hg; simp [hx]
  · exact hx

theorem know_now : w.now ∈ (w.step s e s').know e.goroutine := by
  show w.now ∈ if e.goroutine = e.goroutine then _ else _
  rw [if_pos rfl]; simp

theorem know_gained : ∀ x ∈ w.gained s e, x ∈ (w.step s e s').know e.goroutine := by
  intro x hx
  show x ∈ if e.goroutine = e.goroutine then _ else _
  rw [if_pos rfl]; simp [hx]

end

/-- How the cells move in a step. -/
def Moves (s : Sys) (w : Watch) (e : Sys.Ev) (s' : Sys) (x : Cell) : Prop :=
  ∀ K', At s' (w.step s e s') x K' →
    ((∃ K, At s w x K ∧ ∀ n ∈ K, n ∈ K') ∨ ¬ Made s x) ∧ (∀ b, (x, b) ∈ accesses s e s' → w.now ∈ K')

/-- The accesses of a step are known. -/
def Knows (s : Sys) (w : Watch) (e : Sys.Ev) (s' : Sys) : Prop :=
  ∀ a ∈ accesses s e s', (∃ K, At s w a.1 K ∧ ∀ n ∈ K, n ∈ w.know e.goroutine ++ w.gained s e) ∨ ¬ Made s a.1

theorem Knows.no_race {s : Sys} {w : Watch} {e : Sys.Ev} {s' : Sys} (h : Knows s w e s') (hw : WInv s w) (h0 : w.race = false) :
    (w.step s e s').race = false := by
  show (w.race || Watch.races _ _ _ _) = false
  rw [h0, Bool.false_or]
  unfold Watch.races
  rw [List.any_eq_false]
  intro a ha
  rw [Bool.not_eq_true, List.any_eq_false]
  intro b hb
  rw [Bool.not_eq_true]
  by_cases hc : b.cell = a.1
  · have : b.at_ ∈ w.know e.goroutine ++ w.gained s e := by
      rcases h a ha with ⟨K, hK, hs⟩ | hn
      · exact hs _ (hw.known _ _ hK b hb hc)
      · exact absurd (hc ▸ hw.made b hb) hn
    rw [List.contains_iff_mem.2 this]
    simp
  · simp [hc]

theorem WInv.step {s : Sys} {w : Watch} {e : Sys.Ev} {s' : Sys} (hw : WInv s w) (hl : Lens s' (w.step s e s'))
    (hm : ∀ x, Made s x → Made s' x) (ha : ∀ a ∈ accesses s e s', Made s' a.1) (hv : ∀ x, Moves s w e s' x) : WInv s' (w.step s e s') := by
  have hh : (w.step s e s').hist = w.hist ++ (accesses s e s').map (fun a => ⟨w.now, e.goroutine, a.1, a.2⟩) := rfl
  refine ⟨hl, ?_, ?_⟩
  · intro b hb
    rw [hh] at hb
    rcases List.mem_append.1 hb with hb | hb
    · exact hm _ (hw.made b hb)
    · obtain ⟨a, h1, rfl⟩ := List.mem_map.1 hb
      exact ha a h1
  · intro x K hK b hb hc
    obtain ⟨h1, h2⟩ := hv x K hK
    rw [hh] at hb
    rcases List.mem_append.1 hb with hb | hb
    · rcases h1 with ⟨K0, h3, h4⟩ | hn
      · exact h4 _ (hw.known _ _ h3 b hb hc)
      · exact absurd (hc ▸ hw.made b hb) hn
    · obtain ⟨⟨y, z⟩, h3, rfl⟩ := List.mem_map.1 hb
      dsimp only at hc
      subst hc
      exact h2 z h3

end Stomp.Server
