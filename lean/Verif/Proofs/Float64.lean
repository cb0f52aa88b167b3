import Verif.Spec.Float64
/-! # Rounding to a float64 -/
namespace Stomp.F64
open Stomp Spec

theorem excess_bounds {n : Nat} (h : 2 ^ 53 ≤ n) : 2 ^ (52 + excess n) ≤ n ∧ n < 2 ^ (53 + excess n) ∧ 0 < excess n := by
  have hn : n ≠ 0 := by
    intro e; subst e; simp at h
  have h53 : 53 ≤ n.log2 := (Nat.le_log2 hn).2 h
  have he : excess n = n.log2 - 52 := by
    unfold excess
    rw [if_neg (by omega)]
  rw [he]
  refine ⟨?_, ?_, by omega⟩
  · have := Nat.log2_self_le hn
    rwa [show 52 + (n.log2 - 52) = n.log2 by omega]
  · have := Nat.lt_log2_self (n := n)
    rwa [show 53 + (n.log2 - 52) = n.log2 + 1 by omega]

/-- Above `2 ^ (52 + k)` the float64 values are multiples of `2 ^ k`. -/
theorem rep_multiple {x k : Nat} (hx : Representable x) (h : 2 ^ (52 + k) ≤ x) : 2 ^ k ∣ x := by
  obtain ⟨a, j, ha, rfl⟩ := hx
  have hj : k ≤ j := by
    apply Classical.byContradiction
    intro hj
    have h1 : a * 2 ^ j < 2 ^ 53 * 2 ^ j := Nat.mul_lt_mul_of_pos_right ha (Nat.pow_pos (by decide))
    rw [← Nat.pow_add] at h1
    have h2 : (2 : Nat) ^ (53 + j) ≤ 2 ^ (52 + k) := Nat.pow_le_pow_right (by decide) (by omega)
    omega
  exact Nat.dvd_trans (Nat.pow_dvd_pow 2 hj) (Nat.dvd_mul_left ..)

theorem rep_small {n : Nat} (h : n ≤ 2 ^ 53) : Representable n := by
  by_cases h1 : n = 2 ^ 53
  · exact ⟨1, 53, by decide, by rw [h1]⟩
  · exact ⟨n, 0, by omega, by simp⟩

theorem rep_mul {n : Nat} (h : Representable n) (j : Nat) : Representable (n * 2 ^ j) := by
  obtain ⟨a, i, ha, rfl⟩ := h
  exact ⟨a, i + j, ha, by rw [Nat.pow_add, Nat.mul_assoc]⟩

theorem rep_of {q k : Nat} (h : q ≤ 2 ^ 53) : Representable (q * 2 ^ k) := rep_mul (rep_small h) k

theorem round_small {n : Nat} (h : n < 2 ^ 53) : round n = n := by
  unfold round excess roundAt
  rw [if_pos h]
  have h1 : n % 2 ^ 0 = 0 := by simp [Nat.mod_one]
  rw [h1]
  simp

/-- The parts of `n`, and the rounded number. -/
theorem round_parts {n : Nat} (h : 2 ^ 53 ≤ n) : ∃ k q r p, p = 2 ^ k ∧ 0 < k ∧ n = q * p + r ∧ r < p ∧ 2 ^ 52 ≤ q ∧ q < 2 ^ 53 ∧ 2 ^ 52 * p ≤ n ∧
    2 ^ (52 + k) ≤ n ∧
    ((round n = q * p + p ∧ (p < 2 * r ∨ (p = 2 * r ∧ q % 2 = 1))) ∨ (round n = q * p ∧ ¬ (p < 2 * r ∨ (p = 2 * r ∧ q % 2 = 1)))) := by
  obtain ⟨h1, h2, h3⟩ := excess_bounds h
  have hp : 0 < 2 ^ excess n := Nat.pow_pos (by decide)
  rw [Nat.pow_add] at h1 h2
  refine ⟨excess n, n / 2 ^ excess n, n % 2 ^ excess n, 2 ^ excess n, rfl, h3, ?_, Nat.mod_lt _ hp, ?_, ?_, ?_, ?_, ?_⟩
  · rw [Nat.mul_comm]; exact (Nat.div_add_mod n _).symm
  · exact (Nat.le_div_iff_mul_le hp).2 h1
  · exact (Nat.div_lt_iff_lt_mul hp).2 h2
  · exact h1
  · rw [Nat.pow_add]; exact h1
  · unfold round roundAt
    split
    · rename_i hc
      exact .inl ⟨by rw [Nat.add_mul, Nat.one_mul], hc⟩
    · rename_i hc
      exact .inr ⟨rfl, hc⟩

theorem dist_self (n : Nat) : dist n n = 0 := by simp [dist]

theorem round_nearest (n : Nat) : Nearest n (round n) := by
  by_cases h : n < 2 ^ 53
  · rw [round_small h]
    refine ⟨rep_small (by omega), fun r' _ => ⟨by rw [dist_self]; omega, fun he hne => ?_⟩⟩
    rw [dist_self] at he
    unfold dist at he
    omega
  · obtain ⟨k, q, r, p, hp, hk, hn, hr, hq1, hq2, hn1, hn2, hround⟩ := round_parts (Nat.le_of_not_lt h)
    have hpp : 0 < p := by rw [hp]; exact Nat.pow_pos (by decide)
    have hrep : Representable (round n) := by
      rcases hround with ⟨e, _⟩ | ⟨e, _⟩
      · rw [e, hp, show q * 2 ^ k + 2 ^ k = (q + 1) * 2 ^ k by rw [Nat.add_mul, Nat.one_mul]]
        exact rep_of (by omega)
      · rw [e, hp]; exact rep_of (by omega)
    refine ⟨hrep, fun r' hr' => ?_⟩
    have hgap : r' ≤ q * p ∨ q * p + p ≤ r' := by
      apply Classical.byContradiction
      intro hg
      have hg1 : q * p < r' := by omega
      have hg2 : r' < q * p + p := by omega
      have hge : 2 ^ (52 + k) ≤ r' := by
        rw [Nat.pow_add, ← hp]
        have : 2 ^ 52 * p ≤ q * p := Nat.mul_le_mul_right _ hq1
        omega
      have hdvd := rep_multiple hr' hge
      rw [← hp] at hdvd
      obtain ⟨c, hc⟩ := hdvd
      rw [Nat.mul_comm] at hc
      subst hc
      have h1 : q < c := Nat.lt_of_mul_lt_mul_right hg1
      have h2 : c < q + 1 := by
        apply Nat.lt_of_mul_lt_mul_right (a := p)
        rw [Nat.add_mul, Nat.one_mul]
        exact hg2
      omega
    have hhalf : ∃ u, p = 2 * u := ⟨2 ^ (k - 1), by
      rw [hp]
      have : k = (k - 1) + 1 := by omega
      rw [this, Nat.pow_succ]
      simp
      omega⟩
    generalize hqp : q * p = w at *
    rcases hround with ⟨e, hc⟩ | ⟨e, hc⟩
    · rw [e]
      refine ⟨by unfold dist; omega, fun he hne => ?_⟩
      -- a tie: q is odd
      have htie : p = 2 * r ∧ r' = w := by
        unfold dist at he
        omega
      obtain ⟨ht, hw⟩ := htie
      have hodd : q % 2 = 1 := by omega
      subst hw
      have hd : dist (r' + p) r' = p := by unfold dist; omega
      rw [hd]
      refine ⟨(q + 1) / 2, ?_⟩
      have : q + 1 = 2 * ((q + 1) / 2) := by omega
      rw [← hqp, show q * p + p = (q + 1) * p by rw [Nat.add_mul, Nat.one_mul]]
      rw [this]
      generalize (q + 1) / 2 = z
      rw [Nat.mul_div_cancel_left _ (by decide : 0 < 2), Nat.mul_assoc, Nat.mul_assoc, Nat.mul_comm z p]
    · rw [e]
      refine ⟨by unfold dist; omega, fun he hne => ?_⟩
      have htie : p = 2 * r ∧ r' = w + p := by
        unfold dist at he
        omega
      obtain ⟨ht, hw⟩ := htie
      have heven : q % 2 = 0 := by omega
      subst hw
      have hd : dist w (w + p) = p := by unfold dist; omega
      rw [hd, ← hqp]
      refine ⟨q / 2, ?_⟩
      have : q = 2 * (q / 2) := by omega
      rw [this]
      generalize q / 2 = z
      rw [Nat.mul_div_cancel_left _ (by decide : 0 < 2), Nat.mul_assoc, Nat.mul_assoc, Nat.mul_comm z p]

theorem round_rep {n : Nat} (h : Representable n) : round n = n := by
  have := ((round_nearest n).2 n h).1
  rw [dist_self] at this
  unfold dist at this
  omega

theorem round_mono {m n : Nat} (h : m ≤ n) : round m ≤ round n := by
  apply Classical.byContradiction
  intro hlt
  have h1 := ((round_nearest m).2 _ (round_nearest n).1).1
  have h2 := ((round_nearest n).2 _ (round_nearest m).1).1
  unfold dist at h1 h2
  have : m = n := by omega
  subst this
  omega

/-- The error of rounding. -/
theorem round_error (n : Nat) : 2 ^ 53 * round n ≤ (2 ^ 53 + 1) * n ∧ (2 ^ 53 - 1) * n ≤ 2 ^ 53 * round n := by
  by_cases h : n < 2 ^ 53
  · rw [round_small h]; omega
  · obtain ⟨k, q, r, p, hp, hk, hn, hr, hq1, hq2, hn1, hn2, hround⟩ := round_parts (Nat.le_of_not_lt h)
    generalize hqp : q * p = w at *
    rcases hround with ⟨e, hc⟩ | ⟨e, hc⟩
    · rw [e]; omega
    · rw [e]; omega

theorem scale_eq (n : Nat) (e : Int) : scale n e = n * 2 ^ e.toNat / 2 ^ (-e).toNat := by
  unfold scale
  split
  · rename_i h
    have : (-e).toNat = 0 := by omega
    rw [this]; simp
  · rename_i h
    have : e.toNat = 0 := by omega
    rw [this]; simp

theorem den_pos (g : F64) : 0 < den g := Nat.pow_pos (by decide)

theorem mulInt_eq (g : F64) (d : Nat) : g.mulInt d = round (round d * g.m) * 2 ^ g.e.toNat / den g := scale_eq ..

theorem mulInt_mono {g : F64} {d d' : Nat} (h : d ≤ d') : g.mulInt d ≤ g.mulInt d' := by
  rw [mulInt_eq, mulInt_eq]
  exact Nat.div_le_div_right (Nat.mul_le_mul_right _ (round_mono (Nat.mul_le_mul_right _ (round_mono h))))

/-- A power of two for the mantissa: the product is exact. -/
theorem mulInt_one {g : F64} {d : Nat} (h : num g = den g) : g.mulInt d = round d := by
  rw [mulInt_eq]
  have hm : ∃ j, g.m = 2 ^ j := by
    unfold num den at h
    by_cases he : 0 ≤ g.e
    · have : (-g.e).toNat = 0 := by omega
      rw [this, Nat.pow_zero] at h
      exact ⟨0, Nat.eq_one_of_mul_eq_one_right h⟩
    · have : g.e.toNat = 0 := by omega
      rw [this, Nat.pow_zero, Nat.mul_one] at h
      exact ⟨_, h⟩
  obtain ⟨j, hj⟩ := hm
  rw [hj, round_rep (rep_mul (round_nearest d).1 j), ← hj, Nat.mul_assoc]
  show round d * num g / den g = _
  rw [h, Nat.mul_div_cancel _ (den_pos g)]

/-- A multiplier that is at least 1 does not make a timeout shorter. -/
theorem mulInt_ge {g : F64} {d : Nat} (h : den g ≤ num g) : round d ≤ g.mulInt d := by
  rw [mulInt_eq, Nat.le_div_iff_mul_le (den_pos g)]
  unfold num at h
  by_cases he : 0 ≤ g.e
  · have h0 : (-g.e).toNat = 0 := by omega
    have hd : den g = 1 := by unfold den; rw [h0]
    rw [hd] at h ⊢
    have hm : 1 ≤ g.m := by
      rcases Nat.eq_zero_or_pos g.m with h1 | h1
      · rw [h1] at h; simp at h
      · exact h1
    have h1 : round d ≤ round (round d * g.m) := by
      have := round_mono (Nat.mul_le_mul_left (round d) hm)
      rwa [Nat.mul_one, round_rep (round_nearest d).1] at this
    have h2 : 0 < 2 ^ g.e.toNat := Nat.pow_pos (by decide)
    calc round d * 1 = round d := Nat.mul_one _
      _ ≤ round (round d * g.m) := h1
      _ ≤ round (round d * g.m) * 2 ^ g.e.toNat := Nat.le_mul_of_pos_right _ h2
  · have h0 : g.e.toNat = 0 := by omega
    rw [h0, Nat.pow_zero, Nat.mul_one] at h ⊢
    have := round_mono (Nat.mul_le_mul_left (round d) h)
    unfold den at this ⊢
    rwa [round_rep (rep_mul (round_nearest d).1 _)] at this

/-- The error of the whole expression: two roundings, and the fraction. -/
theorem mulInt_error (g : F64) (d : Nat) :
    2 ^ 106 * (g.mulInt d * den g) ≤ (2 ^ 53 + 1) ^ 2 * (d * num g) ∧ (2 ^ 53 - 1) ^ 2 * (d * num g) < 2 ^ 106 * ((g.mulInt d + 1) * den g) := by
  rw [mulInt_eq]
  have h1 := round_error d
  have h2 := round_error (round d * g.m)
  have hD := den_pos g
  have hnum : d * num g = d * g.m * 2 ^ g.e.toNat := (Nat.mul_assoc ..).symm
  have key : ∀ (P a x y m E : Nat), P * x ≤ a * d → P * y ≤ a * (x * m) → P * P * (y * E) ≤ a * a * (d * m * E) := by
    intro P a x y m E k1 k2
    calc P * P * (y * E) = P * (P * y) * E := by simp only [Nat.mul_assoc]
      _ ≤ P * (a * (x * m)) * E := Nat.mul_le_mul_right _ (Nat.mul_le_mul_left _ k2)
      _ = a * (P * x) * m * E := by simp only [Nat.mul_assoc, Nat.mul_left_comm]
      _ ≤ a * (a * d) * m * E := Nat.mul_le_mul_right _ (Nat.mul_le_mul_right _ (Nat.mul_le_mul_left _ k1))
      _ = a * a * (d * m * E) := by simp only [Nat.mul_assoc]
  have key' : ∀ (P a x y m E : Nat), a * d ≤ P * x → a * (x * m) ≤ P * y → a * a * (d * m * E) ≤ P * P * (y * E) := by
    intro P a x y m E k1 k2
    calc a * a * (d * m * E) = a * (a * d) * m * E := by simp only [Nat.mul_assoc]
      _ ≤ a * (P * x) * m * E := Nat.mul_le_mul_right _ (Nat.mul_le_mul_right _ (Nat.mul_le_mul_left _ k1))
      _ = P * (a * (x * m)) * E := by simp only [Nat.mul_assoc, Nat.mul_left_comm]
      _ ≤ P * (P * y) * E := Nat.mul_le_mul_right _ (Nat.mul_le_mul_left _ k2)
      _ = P * P * (y * E) := by simp only [Nat.mul_assoc]
  have u := key _ _ _ _ g.m (2 ^ g.e.toNat) h1.1 h2.1
  have l := key' _ _ _ _ g.m (2 ^ g.e.toNat) h1.2 h2.2
  rw [hnum]
  generalize round (round d * g.m) * 2 ^ g.e.toNat = y at *
  generalize d * g.m * 2 ^ g.e.toNat = z at *
  constructor
  · have := Nat.div_mul_le_self y (den g)
    generalize y / den g * den g = w at *
    omega
  · have : y < (y / den g + 1) * den g := by
      rw [Nat.add_mul, Nat.one_mul, Nat.mul_comm]
      exact Nat.lt_mul_div_succ y hD
    generalize (y / den g + 1) * den g = w at *
    omega

/-- Where the product is in the range of int64. -/
theorem mulInt_fits {g : F64} {d : Nat} (h : d * num g < 2 ^ 62 * den g) : g.mulInt d < 2 ^ 63 := by
  have := (mulInt_error g d).1
  apply Classical.byContradiction
  intro hge
  have h1 : 2 ^ 63 * den g ≤ g.mulInt d * den g := Nat.mul_le_mul_right _ (Nat.le_of_not_lt hge)
  generalize g.mulInt d * den g = w at *
  generalize d * num g = z at *
  generalize den g = u at *
  omega

end Stomp.F64
