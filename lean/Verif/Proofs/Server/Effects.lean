import Verif.Spec.Effects
/-! # What a session does is what the positions of its frames say -/
namespace Stomp.Server
open Stomp Stomp.Server.Spec

/-- Frame number `i` waits for the end of transaction `t`. -/
def Held (t : Bytes) (h : List Frame) (i : Nat) : Prop :=
  ∃ f, h[i]? = some f ∧ operation f ∧ hdr f b!"transaction" = some t ∧ ∀ x y, i < x → h[x]? = some y → ¬boundary t y

theorem get_snoc {α : Type} {h : List α} {f g : α} {i : Nat} : (h ++ [f])[i]? = some g ↔ h[i]? = some g ∨ (i = h.length ∧ g = f) := by
  rcases Nat.lt_trichotomy i h.length with hi | hi | hi
  · rw [List.getElem?_append_left hi]
    exact ⟨Or.inl, fun h1 => h1.elim id fun h2 => absurd h2.1 (by omega)⟩
  · subst hi
    rw [List.getElem?_append_right (Nat.le_refl _), Nat.sub_self]
    constructor
    · intro e; injection e with e; exact Or.inr ⟨rfl, e.symm⟩
    · rintro (h1 | ⟨_, rfl⟩)
      · rw [List.getElem?_eq_none (Nat.le_refl _)] at h1; cases h1
      · rfl
  · rw [List.getElem?_eq_none (by rw [List.length_append, List.length_singleton]; omega), List.getElem?_eq_none (by omega)]
    simp; omega

theorem get_lt {α : Type} {h : List α} {g : α} {i : Nat} (e : h[i]? = some g) : i < h.length := (List.getElem?_eq_some_iff.1 e).1

theorem held_snoc {t : Bytes} {h : List Frame} {f : Frame} {i : Nat} :
    Held t (h ++ [f]) i ↔ (Held t h i ∧ ¬boundary t f) ∨ (i = h.length ∧ operation f ∧ hdr f b!"transaction" = some t) := by
  constructor
  · rintro ⟨g, h1, h2, h3, h4⟩
    rcases get_snoc.1 h1 with h5 | ⟨h5, rfl⟩
    · refine Or.inl ⟨⟨g, h5, h2, h3, fun x y hx hy => h4 x y hx (get_snoc.2 (Or.inl hy))⟩, ?_⟩
      exact h4 h.length f (get_lt h5) (get_snoc.2 (Or.inr ⟨rfl, rfl⟩))
    · exact Or.inr ⟨h5, h2, h3⟩
  · rintro (⟨⟨g, h1, h2, h3, h4⟩, hb⟩ | ⟨rfl, h2, h3⟩)
    · refine ⟨g, get_snoc.2 (Or.inl h1), h2, h3, fun x y hx hy => ?_⟩
      rcases get_snoc.1 hy with h5 | ⟨_, rfl⟩
      · exact h4 x y hx h5
      · exact hb
    · refine ⟨f, get_snoc.2 (Or.inr ⟨rfl, rfl⟩), h2, h3, fun x y hx hy => ?_⟩
      rcases get_snoc.1 hy with h5 | ⟨h5, _⟩
      · exact absurd (get_lt h5) (by omega)
      · omega

theorem operation_not {f : Frame} (h : operation f) {x : Bytes} (hx : f.command = x) (hn : x ≠ b!"SEND" ∧ x ≠ b!"ACK" ∧ x ≠ b!"NACK") : False := by
  rcases h with h | h | h
  · exact hn.1 (hx.symm.trans h)
  · exact hn.2.1 (hx.symm.trans h)
  · exact hn.2.2 (hx.symm.trans h)

theorem takes_snoc {h : List Frame} {f : Frame} {i j : Nat} :
    TakesEffect (h ++ [f]) i j ↔ TakesEffect h i j ∨ (i = h.length ∧ j = h.length ∧ operation f ∧ hdr f b!"transaction" = none) ∨
      (j = h.length ∧ f.command = b!"COMMIT" ∧ ∃ t, hdr f b!"transaction" = some t ∧ Held t h i) := by
  constructor
  · rintro ⟨g, h1, h2, ⟨h3, rfl⟩ | ⟨t, k, h3, h4, h5, h6, h7, h8⟩⟩
    · rcases get_snoc.1 h1 with h4 | ⟨rfl, rfl⟩
      · exact Or.inl ⟨g, h4, h2, Or.inl ⟨h3, rfl⟩⟩
      · exact Or.inr (Or.inl ⟨rfl, rfl, h2, h3⟩)
    · rcases get_snoc.1 h1 with h9 | ⟨rfl, _⟩
      · rcases get_snoc.1 h5 with h10 | ⟨rfl, rfl⟩
        · exact Or.inl ⟨g, h9, h2, Or.inr ⟨t, k, h3, h4, h10, h6, h7, fun x y hx hy hz => h8 x y hx hy (get_snoc.2 (Or.inl hz))⟩⟩
        · refine Or.inr (Or.inr ⟨rfl, h6, t, h7, g, h9, h2, h3, fun x y hx hy => h8 x y hx (get_lt hy) (get_snoc.2 (Or.inl hy))⟩)
      · rcases get_snoc.1 h5 with h10 | ⟨rfl, _⟩
        · exact absurd (get_lt h10) (by omega)
        · omega
  · rintro (⟨g, h1, h2, ⟨h3, rfl⟩ | ⟨t, k, h3, h4, h5, h6, h7, h8⟩⟩ | ⟨rfl, rfl, h1, h2⟩ | ⟨rfl, h1, t, h2, g, h3, h4, h5, h6⟩)
    · exact ⟨g, get_snoc.2 (Or.inl h1), h2, Or.inl ⟨h3, rfl⟩⟩
    · refine ⟨g, get_snoc.2 (Or.inl h1), h2, Or.inr ⟨t, k, h3, h4, get_snoc.2 (Or.inl h5), h6, h7, fun x y hx hy hz => ?_⟩⟩
      rcases get_snoc.1 hz with h9 | ⟨rfl, _⟩
      · exact h8 x y hx hy h9
      · exact absurd (get_lt h5) (by omega)
    · exact ⟨f, get_snoc.2 (Or.inr ⟨rfl, rfl⟩), h1, Or.inl ⟨h2, rfl⟩⟩
    · refine ⟨g, get_snoc.2 (Or.inl h3), h4, Or.inr ⟨t, f, h5, get_lt h3, get_snoc.2 (Or.inr ⟨rfl, rfl⟩), h1, h2, fun x y hx hy hz => ?_⟩⟩
      rcases get_snoc.1 hz with h9 | ⟨rfl, _⟩
      · exact h6 x y hx h9
      · omega

theorem takes_le {h : List Frame} {i j : Nat} (ht : TakesEffect h i j) : i < h.length ∧ j < h.length := by
  obtain ⟨g, h1, _, ⟨_, rfl⟩ | ⟨_, _, _, _, h5, _⟩⟩ := ht
  · exact ⟨get_lt h1, get_lt h1⟩
  · exact ⟨get_lt h1, get_lt h5⟩

theorem takes_prefix {h l : List Frame} (hp : h <+: l) {i j : Nat} (ht : TakesEffect h i j) : TakesEffect l i j := by
  obtain ⟨z, rfl⟩ := hp
  have hl := takes_le ht
  have e : ∀ {x : Nat}, x < h.length → (h ++ z)[x]? = h[x]? := fun hx => List.getElem?_append_left hx
  obtain ⟨g, h1, h2, ⟨h3, rfl⟩ | ⟨t, k, h3, h4, h5, h6, h7, h8⟩⟩ := ht
  · exact ⟨g, by rw [e hl.1]; exact h1, h2, Or.inl ⟨h3, rfl⟩⟩
  · refine ⟨g, by rw [e hl.1]; exact h1, h2, Or.inr ⟨t, k, h3, h4, by rw [e hl.2]; exact h5, h6, h7, fun x y hx hy hz => ?_⟩⟩
    rw [e (by omega)] at hz
    exact h8 x y hx hy hz

/-- A frame takes effect with one frame only. -/
theorem takes_unique {h : List Frame} {i j j' : Nat} (h1 : TakesEffect h i j) (h2 : TakesEffect h i j') : j = j' := by
  obtain ⟨f, a1, a2, a3⟩ := h1
  obtain ⟨f', b1, b2, b3⟩ := h2
  rw [a1] at b1; injection b1 with b1; subst b1
  rcases a3 with ⟨a4, rfl⟩ | ⟨t, g, a4, a5, a6, a7, a8, a9⟩ <;> rcases b3 with ⟨b4, rfl⟩ | ⟨t', g', b4, b5, b6, b7, b8, b9⟩
  · rfl
  · rw [a4] at b4; cases b4
  · rw [a4] at b4; cases b4
  · rw [a4] at b4; injection b4 with b4; subst b4
    rcases Nat.lt_trichotomy j j' with hj | hj | hj
    · exact absurd ⟨Or.inr (Or.inl a7), a8⟩ (b9 j g a5 hj a6)
    · exact hj
    · exact absurd ⟨Or.inr (Or.inl b7), b8⟩ (a9 j' g' b5 hj b6)

theorem effects_nodup {h : List Frame} {ps : List (Nat × Nat)} (he : Effects h ps) : (ps.map (·.1)).Nodup := by
  rw [List.nodup_iff_pairwise_ne, List.pairwise_map]
  have : ps.Pairwise fun p q => (p ∈ ps ∧ q ∈ ps) ∧ Before p q := List.Pairwise.and (List.pairwise_iff_forall_sublist.2 fun hs => ⟨hs.subset (by simp), hs.subset (by simp)⟩) he.order
  refine this.imp ?_
  rintro ⟨i, j⟩ ⟨i', j'⟩ ⟨⟨h1, h2⟩, h3⟩ e
  dsimp only at e
  subst e
  have := takes_unique ((he.mem _ _).1 h1) ((he.mem _ _).1 h2)
  subst this
  rcases h3 with h3 | h3 <;> dsimp only at h3 <;> omega

theorem pick_snoc {h : List Frame} {f : Frame} {ps : List (Nat × Nat)} (hp : ∀ p ∈ ps, p.1 < h.length) : pick (h ++ [f]) ps = pick h ps := by
  unfold pick
  induction ps with
  | nil => rfl
  | cons p ps ih =>
    rw [List.filterMap_cons, List.filterMap_cons, ih fun q hq => hp q (List.mem_cons_of_mem _ hq), List.getElem?_append_left (hp p List.mem_cons_self)]

structure EffInv (h : List Frame) (st : St) : Prop where
  done : ∃ ps, Effects h ps ∧ st.done = (pick h ps).map clean
  tx : ∀ t l, st.tx t = some l → ∃ is : List Nat, is.Pairwise (· < ·) ∧ (∀ i, i ∈ is ↔ Held t h i) ∧ l = (is.filterMap fun i => h[i]?).map clean

theorem effects_lt {h : List Frame} {ps : List (Nat × Nat)} (he : Effects h ps) : ∀ p ∈ ps, p.1 < h.length := fun p hp => (takes_le ((he.mem p.1 p.2).1 hp)).1

/-- A frame with which nothing takes effect. -/
theorem eff_same {h : List Frame} {f : Frame} {st : St} (hi : EffInv h st) (hn : operation f → hdr f b!"transaction" ≠ none) (hc : f.command ≠ b!"COMMIT") :
    ∃ ps, Effects (h ++ [f]) ps ∧ st.done = (pick (h ++ [f]) ps).map clean := by
  obtain ⟨ps, he, hd⟩ := hi.done
  refine ⟨ps, ⟨fun i j => ?_, he.order⟩, by rw [pick_snoc (effects_lt he)]; exact hd⟩
  rw [he.mem, takes_snoc]
  constructor
  · exact Or.inl
  · rintro (h1 | ⟨_, _, h1, h2⟩ | ⟨_, h1, _⟩)
    · exact h1
    · exact absurd h2 (hn h1)
    · exact absurd h1 hc

theorem held_keep {t : Bytes} {h : List Frame} {f : Frame} (hb : ¬boundary t f) (ho : operation f → hdr f b!"transaction" ≠ some t) (i : Nat) : Held t (h ++ [f]) i ↔ Held t h i := by
  rw [held_snoc]
  constructor
  · rintro (⟨h1, _⟩ | ⟨_, h1, h2⟩)
    · exact h1
    · exact absurd h2 (ho h1)
  · exact fun h1 => Or.inl ⟨h1, hb⟩

theorem held_list {t : Bytes} {h : List Frame} {f : Frame} {l : List Frame} {is : List Nat} (hm : ∀ i, i ∈ is ↔ Held t h i) (hl : l = (is.filterMap fun i => h[i]?).map clean) :
    l = (is.filterMap fun i => (h ++ [f])[i]?).map clean := by
  rw [hl]
  congr 1
  have : ∀ is : List Nat, (∀ i ∈ is, i < h.length) → (is.filterMap fun i => h[i]?) = is.filterMap fun i => (h ++ [f])[i]? := by
    intro is
    induction is with
    | nil => intro _; rfl
    | cons i is ih =>
      intro hi
      rw [List.filterMap_cons, List.filterMap_cons, ih fun j hj => hi j (List.mem_cons_of_mem _ hj), List.getElem?_append_left (hi i List.mem_cons_self)]
  exact this is fun i hi => by obtain ⟨f, h1, _⟩ := (hm i).1 hi; exact get_lt h1

theorem tx_keep {t : Bytes} {h : List Frame} {f : Frame} {st : St} {l : List Frame} (hi : EffInv h st) (hl : st.tx t = some l) (hb : ¬boundary t f)
    (ho : operation f → hdr f b!"transaction" ≠ some t) :
    ∃ is : List Nat, is.Pairwise (· < ·) ∧ (∀ i, i ∈ is ↔ Held t (h ++ [f]) i) ∧ l = (is.filterMap fun i => (h ++ [f])[i]?).map clean := by
  obtain ⟨is, h1, h2, h3⟩ := hi.tx t l hl
  exact ⟨is, h1, fun i => by rw [h2, held_keep hb ho], held_list h2 h3⟩

theorem transactional_operation {f : Frame} (h : transactional f) : operation f := by
  rcases h with h | ⟨h | h, _⟩
  · exact Or.inl h
  · exact Or.inr (Or.inl h)
  · exact Or.inr (Or.inr h)

/-- Frames that are neither operations nor boundaries change nothing. -/
theorem eff_inert {h : List Frame} {f : Frame} {st st' : St} (hi : EffInv h st) (ho : ¬operation f) (hb : f.command ≠ b!"BEGIN" ∧ f.command ≠ b!"COMMIT" ∧ f.command ≠ b!"ABORT")
    (hd : st'.done = st.done) (ht : st'.tx = st.tx) : EffInv (h ++ [f]) st' := by
  constructor
  · rw [hd]; exact eff_same hi (fun h => absurd h ho) hb.2.1
  · intro t l hl
    rw [ht] at hl
    exact tx_keep hi hl (fun h => h.1.elim hb.1 (fun h => h.elim hb.2.1 hb.2.2)) (fun h => absurd h ho)

theorem eff_step {auth : Bytes → Bytes → Bool} {h : List Frame} {f : Frame} {st st' : St} (hi : EffInv h st) (hs : Spec.Step auth st f st') : EffInv (h ++ [f]) st' := by
  cases hs with
  | connect ho ha =>
    rcases ha.command with hc | hc <;>
    exact eff_inert hi (fun h => operation_not h hc (by decide)) (by rw [hc]; decide) rfl rfl
  | disconnect ho hc => exact eff_inert hi (fun h => operation_not h hc (by decide)) (by rw [hc]; decide) rfl rfl
  | subscribe id dest ho hc => exact eff_inert hi (fun h => operation_not h hc (by decide)) (by rw [hc]; decide) rfl rfl
  | unsubscribe id ho hc => exact eff_inert hi (fun h => operation_not h hc (by decide)) (by rw [hc]; decide) rfl rfl
  | begin_ t ho hc ht hn =>
    have hop : ¬operation f := fun h => operation_not h hc (by decide)
    refine ⟨eff_same (st := st) hi (fun h => absurd h hop) (by rw [hc]; decide), ?_⟩
    intro t' l hl
    dsimp only at hl
    unfold upd at hl
    split at hl
    · rename_i e; subst e
      injection hl with hl; subst hl
      refine ⟨[], List.Pairwise.nil, fun i => ?_, rfl⟩
      rw [held_snoc]
      constructor
      · intro h; cases h
      · rintro (⟨_, h1⟩ | ⟨_, h1, _⟩)
        · exact absurd ⟨Or.inl hc, ht⟩ h1
        · exact absurd h1 hop
    · rename_i e
      exact tx_keep hi hl (fun h => e (by have := h.2; rw [ht] at this; injection this with this; exact this.symm)) (fun h => absurd h hop)
  | abort t l ho hc ht hl0 =>
    have hop : ¬operation f := fun h => operation_not h hc (by decide)
    refine ⟨eff_same (st := st) hi (fun h => absurd h hop) (by rw [hc]; decide), ?_⟩
    intro t' l hl
    dsimp only at hl
    unfold upd at hl
    split at hl
    · cases hl
    · rename_i e
      exact tx_keep hi hl (fun h => e (by have := h.2; rw [ht] at this; injection this with this; exact this.symm)) (fun h => absurd h hop)
  | commit t l ho hc ht hl0 =>
    have hop : ¬operation f := fun h => operation_not h hc (by decide)
    constructor
    · obtain ⟨ps, he, hd⟩ := hi.done
      obtain ⟨is, h1, h2, h3⟩ := hi.tx t l hl0
      refine ⟨ps ++ is.map fun i => (i, h.length), ⟨fun i j => ?_, ?_⟩, ?_⟩
      · rw [List.mem_append, he.mem, takes_snoc, List.mem_map]
        constructor
        · rintro (h4 | ⟨i', h4, h5⟩)
          · exact Or.inl h4
          · injection h5 with h5 h6; subst h5; subst h6
            exact Or.inr (Or.inr ⟨rfl, hc, t, ht, (h2 _).1 h4⟩)
        · rintro (h4 | ⟨_, _, h4, _⟩ | ⟨rfl, _, t', h4, h5⟩)
          · exact Or.inl h4
          · exact absurd h4 hop
          · rw [ht] at h4; injection h4 with h4; subst h4
            exact Or.inr ⟨i, (h2 i).2 h5, rfl⟩
      · rw [List.pairwise_append]
        refine ⟨he.order, ?_, ?_⟩
        · rw [List.pairwise_map]
          exact h1.imp fun h => Or.inr ⟨rfl, h⟩
        · rintro ⟨i, j⟩ hp q hq
          obtain ⟨i', _, rfl⟩ := List.mem_map.1 hq
          exact Or.inl (takes_le ((he.mem i j).1 hp)).2
      · show st.done ++ l = _
        have e : ∀ a b, pick (h ++ [f]) (a ++ b) = pick (h ++ [f]) a ++ pick (h ++ [f]) b := fun a b => List.filterMap_append
        rw [e, List.map_append, pick_snoc (effects_lt he), ← hd, held_list (f := f) h2 h3]
        unfold pick
        rw [List.filterMap_map]
        rfl
    · intro t' l hl
      dsimp only at hl
      unfold upd at hl
      split at hl
      · cases hl
      · rename_i e
        exact tx_keep hi hl (fun h => e (by have := h.2; rw [ht] at this; injection this with this; exact this.symm)) (fun h => absurd h hop)
  | hold t l ho hc ht hl0 =>
    have hop := transactional_operation hc
    have hnb : ∀ t, ¬boundary t f := by
      rintro t ⟨h1 | h1 | h1, _⟩ <;> exact operation_not hop h1 (by decide)
    refine ⟨eff_same (st := st) hi (fun _ => by rw [ht]; simp) (fun h => operation_not hop h (by decide)), ?_⟩
    intro t' l' hl
    dsimp only at hl
    unfold upd at hl
    split at hl
    · rename_i e; subst e
      injection hl with hl; subst hl
      obtain ⟨is, h1, h2, h3⟩ := hi.tx t' l hl0
      refine ⟨is ++ [h.length], ?_, fun i => ?_, ?_⟩
      · rw [List.pairwise_append]
        refine ⟨h1, by simp, fun i hi j hj => ?_⟩
        rw [List.mem_singleton] at hj; subst hj
        obtain ⟨g, h4, _⟩ := (h2 i).1 hi
        exact get_lt h4
      · rw [List.mem_append, h2, held_snoc, List.mem_singleton]
        constructor
        · rintro (h4 | h4)
          · exact Or.inl ⟨h4, hnb _⟩
          · exact Or.inr ⟨h4, hop, ht⟩
        · rintro (⟨h4, _⟩ | ⟨h4, _⟩)
          · exact Or.inl h4
          · exact Or.inr h4
      · rw [List.filterMap_append, List.map_append, ← held_list (f := f) h2 h3]
        congr 1
        have : (h ++ [f])[h.length]? = some f := get_snoc.2 (Or.inr ⟨rfl, rfl⟩)
        rw [List.filterMap_cons, this]
        rfl
    · rename_i e
      exact tx_keep hi hl (hnb _) (fun _ h => e (by rw [ht] at h; injection h with h; exact h.symm))
  | now ho hc ht =>
    have hop := transactional_operation hc
    have hnb : ∀ t, ¬boundary t f := by
      rintro t ⟨h1 | h1 | h1, _⟩ <;> exact operation_not hop h1 (by decide)
    constructor
    · obtain ⟨ps, he, hd⟩ := hi.done
      refine ⟨ps ++ [(h.length, h.length)], ⟨fun i j => ?_, ?_⟩, ?_⟩
      · rw [List.mem_append, he.mem, takes_snoc, List.mem_singleton]
        constructor
        · rintro (h4 | h4)
          · exact Or.inl h4
          · injection h4 with h4 h5; subst h4; subst h5
            exact Or.inr (Or.inl ⟨rfl, rfl, hop, ht⟩)
        · rintro (h4 | ⟨rfl, rfl, _⟩ | ⟨_, h4, _⟩)
          · exact Or.inl h4
          · exact Or.inr rfl
          · exact (operation_not hop h4 (by decide)).elim
      · rw [List.pairwise_append]
        refine ⟨he.order, by simp, ?_⟩
        rintro ⟨i, j⟩ hp q hq
        rw [List.mem_singleton] at hq; subst hq
        exact Or.inl (takes_le ((he.mem i j).1 hp)).2
      · show st.done ++ [clean f] = _
        have e : ∀ a b, pick (h ++ [f]) (a ++ b) = pick (h ++ [f]) a ++ pick (h ++ [f]) b := fun a b => List.filterMap_append
        rw [e, List.map_append, pick_snoc (effects_lt he), ← hd]
        have : (h ++ [f])[h.length]? = some f := get_snoc.2 (Or.inr ⟨rfl, rfl⟩)
        unfold pick
        rw [List.filterMap_cons]
        dsimp only
        rw [this]
        rfl
    · intro t l hl
      exact tx_keep hi hl (hnb _) (fun _ h => by rw [ht] at h; cases h)

theorem eff_after {auth : Bytes → Bytes → Bool} {h : List Frame} {st : St} (ha : After auth h st) : EffInv h st := by
  induction ha with
  | nil =>
    refine ⟨⟨[], ⟨fun i j => ?_, List.Pairwise.nil⟩, rfl⟩, fun t l hl => by cases hl⟩
    constructor
    · intro h; cases h
    · rintro ⟨f, h1, _⟩; cases h1
  | snoc _ hs ih => exact eff_step ih hs

end Stomp.Server
