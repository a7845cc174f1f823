import Verif.Lemmas.DoublePositions
import Verif.Lemmas.Geodetic

/-!
# Error analysis of the conversion to geodetic coordinates in double precision
-/

namespace Openspace.F64

open Real

/-! ## rounding is monotone -/

theorem rnd_mono {x y : ℝ} (h : x ≤ y) : rnd x ≤ rnd y := by
  by_contra hlt
  push Not at hlt
  have h1 := rnd_nearest x (rnd_binary64 y)
  have h2 := rnd_nearest y (rnd_binary64 x)
  have h3 : rnd x + rnd y ≤ 2 * x := by
    have := abs_le_abs_of_sq h1
    exact this hlt
  have h4 : 2 * y ≤ rnd x + rnd y := by
    have := abs_le_abs_of_sq' h2
    exact this hlt
  have : x = y := by linarith
  rw [this] at hlt
  exact lt_irrefl _ hlt
where
  abs_le_abs_of_sq {a b c : ℝ} (h : |a - c| ≤ |b - c|) (hba : b < a) : a + b ≤ 2 * c := by
    have := sq_le_sq.mpr h
    nlinarith
  abs_le_abs_of_sq' {a b c : ℝ} (h : |b - c| ≤ |a - c|) (hba : b < a) : 2 * c ≤ a + b := by
    have := sq_le_sq.mpr h
    nlinarith

theorem rnd_int (n : ℤ) (h : |n| < 2 ^ 53) : rnd n = n := by
  simpa using rnd_exact n 0 h

theorem le_rnd {x y : ℝ} (hx : IsDouble x) (h : x ≤ y) : x ≤ rnd y := by
  rw [← hx]; exact rnd_mono h

theorem rnd_le {x y : ℝ} (hy : IsDouble y) (h : x ≤ y) : rnd x ≤ y := by
  rw [← hy]; exact rnd_mono h

theorem isDouble_rnd (x : ℝ) : IsDouble (rnd x) := (isDouble_iff _).mpr (rnd_binary64 x)

theorem isDouble_one : IsDouble 1 := by have := rnd_int 1 (by norm_num); simpa [IsDouble] using this

theorem isDouble_two : IsDouble 2 := by have := rnd_int 2 (by norm_num); simpa [IsDouble] using this

theorem isDouble_three : IsDouble 3 := by have := rnd_int 3 (by norm_num); simpa [IsDouble] using this

theorem isDouble_half : IsDouble (1 / 2) := by
  have := rnd_exact 1 (-1) (by norm_num); norm_num [IsDouble] at this ⊢; exact this

theorem isDouble_neg_one : IsDouble (-1) := by have := rnd_int (-1) (by norm_num); simpa [IsDouble] using this

/-- half way between two doubles below three, rounding goes to three, which is even -/
theorem rnd_below_three : rnd (3 - 1 / 2 ^ 52) = 3 := by
  have hx : (0 : ℝ) < 3 - 1 / 2 ^ 52 := by norm_num
  have hl : Int.log 2 (3 - 1 / 2 ^ 52 : ℝ) = 1 := by
    apply le_antisymm
    · rw [← Int.lt_add_one_iff, ← Int.lt_zpow_iff_log_lt (by norm_num) hx]; norm_num
    · rw [← Int.zpow_le_iff_le_log (by norm_num) hx]; norm_num
  rw [rnd, if_neg hx.ne', ulp, abs_of_pos hx, hl]
  have e : (3 - 1 / 2 ^ 52 : ℝ) / 2 ^ (1 - 52 : ℤ) = ((3 * 2 ^ 51 - 1 : ℤ) : ℝ) + 1 / 2 := by norm_num
  rw [e]
  obtain ⟨h1, h2⟩ := roundEven_half (3 * 2 ^ 51 - 1)
  have h3 : roundEven (((3 * 2 ^ 51 - 1 : ℤ) : ℝ) + 1 / 2) = 3 * 2 ^ 51 := by
    rcases h2 with h | h
    · rw [h] at h1; exact absurd h1 (by decide)
    · rw [h]; norm_num
  rw [h3]
  norm_num

/-- `1.0 + q + 1.0 / q` is at least 3 also when rounded -/
theorem three_le {Q : ℝ} (hQ : IsDouble Q) (h1 : 1 ≤ Q) : 3 ≤ rnd (rnd (1 + Q) + rnd (1 / Q)) := by
  have hQ0 : 0 < Q := by linarith
  have hinv : 0 ≤ rnd (1 / Q) := rnd_nonneg (by positivity)
  rcases le_or_gt 2 Q with h2 | h2
  · have := le_rnd isDouble_three (show (3 : ℝ) ≤ 1 + Q by linarith)
    exact le_rnd isDouble_three (by linarith)
  · -- `Q = 1 + k 2^-52`
    obtain ⟨k, hk⟩ : ∃ k : ℤ, Q = 1 + k * 2⁻¹ ^ 52 := by
      have hl : Int.log 2 Q = 0 := by
        apply le_antisymm
        · rw [← Int.lt_add_one_iff, ← Int.lt_zpow_iff_log_lt (by norm_num) hQ0]; norm_num; exact h2
        · rw [← Int.zpow_le_iff_le_log (by norm_num) hQ0]; norm_num; exact h1
      have h3 := hQ
      rw [IsDouble, rnd, if_neg hQ0.ne', ulp, abs_of_pos hQ0, hl] at h3
      refine ⟨roundEven (Q / 2 ^ (0 - 52 : ℤ)) - 2 ^ 52, ?_⟩
      conv_lhs => rw [← h3]
      push_cast
      norm_num
      ring
    have hk0 : 0 ≤ k := by
      have : (0 : ℝ) ≤ k := by
        have : (0 : ℝ) ≤ k * 2⁻¹ ^ 52 := by linarith
        by_contra hn
        push Not at hn
        have := mul_neg_of_neg_of_pos hn (show (0 : ℝ) < 2⁻¹ ^ 52 by positivity)
        linarith
      exact_mod_cast this
    have hk1 : k < 2 ^ 52 := by
      have : (k : ℝ) < 2 ^ 52 := by
        have : (k : ℝ) * 2⁻¹ ^ 52 < 1 := by linarith
        have := mul_lt_mul_of_pos_right this (show (0 : ℝ) < 2 ^ 52 by positivity)
        norm_num at this ⊢
        linarith
      exact_mod_cast this
    have hd : IsDouble (1 - k * 2⁻¹ ^ 52) := by
      have := rnd_exact (2 ^ 52 - k) (-52) (by rw [abs_lt]; constructor <;> linarith)
      rw [IsDouble]
      have e : ((2 ^ 52 - k : ℤ) : ℝ) * 2 ^ (-52 : ℤ) = 1 - k * 2⁻¹ ^ 52 := by push_cast; norm_num; ring
      rwa [e] at this
    have hi : 1 - k * 2⁻¹ ^ 52 ≤ rnd (1 / Q) := by
      apply le_rnd hd
      rw [le_div_iff₀ hQ0, hk]
      nlinarith [sq_nonneg ((k : ℝ) * 2⁻¹ ^ 52)]
    have hs : 1 + Q - 1 / 2 ^ 52 ≤ rnd (1 + Q) := by
      -- the lower neighbour is a double
      rcases Int.even_or_odd k with ⟨j, hj⟩ | ⟨j, hj⟩
      · have hdd : IsDouble (1 + Q) := by
          have := rnd_exact (2 ^ 52 + j) (-51) (by rw [abs_lt]; constructor <;> linarith)
          rw [IsDouble]
          have e : ((2 ^ 52 + j : ℤ) : ℝ) * 2 ^ (-51 : ℤ) = 1 + Q := by
            rw [hk, hj]; push_cast; norm_num; ring
          rwa [e] at this
        have := le_rnd hdd le_rfl
        have : (0 : ℝ) < 1 / 2 ^ 52 := by positivity
        linarith
      · have hdd : IsDouble (1 + Q - 1 / 2 ^ 52) := by
          have := rnd_exact (2 ^ 52 + j) (-51) (by rw [abs_lt]; constructor <;> linarith)
          rw [IsDouble]
          have e : ((2 ^ 52 + j : ℤ) : ℝ) * 2 ^ (-51 : ℤ) = 1 + Q - 1 / 2 ^ 52 := by
            rw [hk, hj]; push_cast; norm_num; ring
          rwa [e] at this
        exact le_rnd hdd (by have : (0 : ℝ) < 1 / 2 ^ 52 := by positivity
                             linarith)
    rw [← rnd_below_three]
    apply rnd_mono
    linarith

/-! ## errors of any size -/

theorem Near.round' {y x k : ℝ} (h : Near y x k) (hk0 : 0 ≤ k) (hk : k ≤ 1e5) : Near (rnd y) x (k + 1.001) := by
  have h1 := abs_le_of_near h
  have h2 := rnd_u y
  have hu := u_pos
  have hu' := u_small
  have h3 := abs_sub_le (rnd y) y x
  unfold Near at h ⊢
  have h4 : u * |y| ≤ u * ((1 + k * u) * |x|) := by gcongr
  have h5 : (1 + k * u) ≤ 1.001 := by nlinarith
  have h6 : u * ((1 + k * u) * |x|) ≤ u * (1.001 * |x|) := by gcongr
  linarith

theorem Near.mul' {y x y' x' k l : ℝ} (h : Near y x k) (h' : Near y' x' l) (hl0 : 0 ≤ l) (hk0 : 0 ≤ k) (hk : k ≤ 1e5)
    (hl : l ≤ 1e5) : Near (y * y') (x * x') (k + l + 0.001) := by
  have h1 := abs_le_of_near h'
  have hu := u_pos
  have hu' := u_small
  unfold Near at *
  rw [show y * y' - x * x' = (y - x) * y' + x * (y' - x') by ring, abs_mul x x']
  have h2 := abs_add_le ((y - x) * y') (x * (y' - x'))
  rw [abs_mul, abs_mul] at h2
  have h3 : |y - x| * |y'| ≤ (k * u * |x|) * ((1 + l * u) * |x'|) := by gcongr
  have h4 : |x| * |y' - x'| ≤ |x| * (l * u * |x'|) := by gcongr
  have h5 : k * (l * u) ≤ 0.001 := by
    have : l * u ≤ 1e5 * u := by gcongr
    have : k * (l * u) ≤ 1e5 * (1e5 * u) := by gcongr
    linarith
  have h6 : k * (l * u) * (u * (|x| * |x'|)) ≤ 0.001 * (u * (|x| * |x'|)) := by gcongr
  linarith

theorem near_inv' {y x k : ℝ} (h : Near y x k) (hx : x ≠ 0) (hk0 : 0 ≤ k) (hk : k ≤ 1e5) :
    y ≠ 0 ∧ Near (1 / y) (1 / x) (k + 0.001) := by
  have hu := u_pos
  have hu' := u_small
  have hx0 := abs_pos.mpr hx
  unfold Near at *
  have hku : k * u ≤ 2e-11 := by
    have : k * u ≤ 1e5 * u := by gcongr
    linarith
  have h1 : (1 - k * u) * |x| ≤ |y| := by
    have := abs_sub_abs_le_abs_sub x y
    rw [abs_sub_comm] at this
    linarith
  have hy0 : 0 < |y| := lt_of_lt_of_le (mul_pos (by linarith) hx0) h1
  have hy : y ≠ 0 := abs_pos.mp hy0
  refine ⟨hy, ?_⟩
  rw [div_sub_div _ _ hy hx, abs_div, abs_div, abs_one, abs_mul, div_le_iff₀ (by positivity)]
  rw [show 1 * x - y * 1 = -(y - x) by ring, abs_neg]
  have e : (k + 0.001) * u * (1 / |x|) * (|y| * |x|) = (k + 0.001) * u * |y| := by field_simp
  rw [e]
  have h2 : (k + 0.001) * u * ((1 - k * u) * |x|) ≤ (k + 0.001) * u * |y| := by gcongr
  have h3 : k ≤ (k + 0.001) * (1 - k * u) := by
    have : k * (k * u) ≤ 1e5 * 2e-11 := mul_le_mul hk hku (by positivity) (by norm_num)
    nlinarith
  have h4 : k * (u * |x|) ≤ (k + 0.001) * (1 - k * u) * (u * |x|) := by gcongr
  linarith

theorem Near.div' {y x y' x' k l : ℝ} (h : Near y x k) (h' : Near y' x' l) (hx' : x' ≠ 0) (hl0 : 0 ≤ l) (hk0 : 0 ≤ k)
    (hk : k ≤ 1e5) (hl : l ≤ 9e4) : y' ≠ 0 ∧ Near (y / y') (x / x') (k + l + 0.002) := by
  obtain ⟨h1, h2⟩ := near_inv' h' hx' hl0 (by linarith)
  refine ⟨h1, ?_⟩
  have := h.mul' h2 (by linarith) hk0 hk (by linarith)
  rw [← mul_one_div y, ← mul_one_div x]
  exact this.mono (by linarith)

theorem u_tiny : u ≤ 12 / 10 ^ 17 := by have := u_small; norm_num at this ⊢; exact this

/-- rounding, with the error as an absolute one -/
theorem rabs {y x E M : ℝ} (h : |y - x| ≤ E) (hM : |x| + E ≤ M) : |rnd y - x| ≤ E + M * u := by
  have h1 := rnd_u y
  have h2 := abs_sub_le (rnd y) y x
  have h3 := abs_sub_abs_le_abs_sub y x
  have hu := u_pos
  have h4 : u * |y| ≤ u * M := by gcongr; linarith
  linarith

theorem Near.le {y x k E : ℝ} (h : Near y x k) (hx : k * |x| ≤ E) : |y - x| ≤ E * u := by
  unfold Near at h
  have hu := u_pos
  have : k * |x| * u ≤ E * u := by gcongr
  linarith

/-! ## the constants -/

theorem near_eps : Near geoEps2 gEps 107 := by
  rw [Near, geoEps2_value]
  norm_num [u, gEps, gb, Earth.RADIUS, Earth.FLATTENING, abs_of_pos, abs_of_neg]

theorem near_ee : Near (rnd (geoE2 * geoEps2)) (Openspace.geoE2 * gEps) 260 := by
  have h1 : Near geoE2 Openspace.geoE2 148 := by
    rw [Near, geoE2_value]
    norm_num [u, Openspace.geoE2, Earth.FLATTENING, abs_of_pos, abs_of_neg]
  exact ((h1.mul' near_eps (by norm_num) (by norm_num) (by norm_num) (by norm_num)).round' (by norm_num)
    (by norm_num)).mono (by norm_num)

theorem near_b2 : Near geoB2 (gb * gb) 1 := by
  rw [Near, geoB2_value]
  norm_num [u, gb, Earth.RADIUS, Earth.FLATTENING, abs_of_pos, abs_of_neg]

theorem near_eps1 : Near (rnd (geoEps2 + 1)) (gEps + 1) 3 := by
  have h : Near (geoEps2 + 1) (gEps + 1) 1 := by
    rw [Near, geoEps2_value]
    norm_num [u, gEps, gb, Earth.RADIUS, Earth.FLATTENING, abs_of_pos, abs_of_neg]
  exact (h.round' (by norm_num) (by norm_num)).mono (by norm_num)

theorem near_a : Near geoA Earth.RADIUS 1 := near_rnd _

/-! ## the intermediate values -/

section chain

variable {p s q B p' s' B' q' : ℝ}

theorem foot_q (hp' : Near p' p 110) (hs' : Near s' s 275) (hB' : Near B' B 1) (hp : 0 ≤ p) (hs : 0 ≤ s) (hB : 0 < B)
    (hBq : B ≤ 1e-4 * q) (hq : q = p * p - B + s) : Near (rnd (rnd (rnd (p' * p') - B') + s')) q 280 := by
  have hu := u_pos
  have hu' := u_small
  have h1 : Near (rnd (p' * p')) (p * p) 222 :=
    ((hp'.mul' hp' (by norm_num) (by norm_num) (by norm_num) (by norm_num)).round' (by norm_num)
      (by norm_num)).mono (by norm_num)
  unfold Near at *
  have hpp : 0 ≤ p * p := mul_self_nonneg p
  have hq0 : 0 < q := by linarith
  rw [abs_of_nonneg hpp] at h1
  rw [abs_of_nonneg hs] at hs'
  rw [abs_of_pos hB] at hB'
  rw [abs_of_pos hq0]
  have uB : 0 ≤ u * B := by positivity
  have up : 0 ≤ u * (p * p) := by positivity
  have us : 0 ≤ u * s := by positivity
  have uuB : u * (u * B) ≤ 1e-9 * (u * B) := mul_le_mul_of_nonneg_right (by linarith) uB
  have uup : u * (u * (p * p)) ≤ 1e-9 * (u * (p * p)) := mul_le_mul_of_nonneg_right (by linarith) up
  have uus : u * (u * s) ≤ 1e-9 * (u * s) := mul_le_mul_of_nonneg_right (by linarith) us
  have h2 : |rnd (p' * p') - B' - (p * p - B)| ≤ 222 * u * (p * p) + 1 * u * B := by
    rw [abs_le] at *; constructor <;> linarith
  have h3 := rabs h2 (M := 1.001 * (p * p) + 1.001 * B) (by
    have := abs_sub (p * p) B
    rw [abs_of_nonneg hpp, abs_of_pos hB] at this
    nlinarith)
  have h4 : |rnd (rnd (p' * p') - B') + s' - q| ≤ 222 * u * (p * p) + 1 * u * B + (1.001 * (p * p) + 1.001 * B) * u
      + 275 * u * s := by
    rw [hq]; rw [abs_le] at *; constructor <;> linarith
  have h5 := rabs h4 (M := 1.001 * q + 1e-3 * (p * p) + 1e-3 * B + 1e-3 * s) (by
    rw [abs_of_pos hq0]; nlinarith)
  refine h5.trans ?_
  have hps : p * p + s ≤ 1.0001 * q := by linarith
  have k1 : u * (p * p + s) ≤ u * (1.0001 * q) := mul_le_mul_of_nonneg_left hps hu.le
  have k2 : u * B ≤ u * (1e-4 * q) := mul_le_mul_of_nonneg_left hBq hu.le
  linarith

theorem foot_u (hp' : Near p' p 110) (hq' : Near q' q 280) (hq : 0 < q) (hq0 : 0 ≤ q') :
    Near (rnd √q') (√q) 282 ∧ rnd √q' ≠ 0 ∧ Near (rnd (p' / rnd √q')) (p / √q) 394 := by
  have h1 : Near (rnd √q') (√q) 282 :=
    ((near_sqrt hq' hq.le hq0).round' (by norm_num) (by norm_num)).mono (by norm_num)
  obtain ⟨h2, h3⟩ := hp'.div' h1 (Real.sqrt_pos.mpr hq).ne' (by norm_num) (by norm_num) (by norm_num) (by norm_num)
  exact ⟨h1, h2, (h3.round' (by norm_num) (by norm_num)).mono (by norm_num)⟩

theorem foot_v {U u' : ℝ} (hB' : Near B' B 1) (hu' : Near u' U 394) (hq' : Near q' q 280) (hq : 0 < q) :
    Near (rnd (rnd (rnd (B' * u') * u') / q')) (B * U * U / q) 1075 := by
  have h1 := ((hB'.mul' hu' (by norm_num) (by norm_num) (by norm_num) (by norm_num)).round' (by norm_num)
      (by norm_num)).mono (show _ ≤ (397 : ℝ) by norm_num)
  have h2 := ((h1.mul' hu' (by norm_num) (by norm_num) (by norm_num) (by norm_num)).round' (by norm_num)
      (by norm_num)).mono (show _ ≤ (793 : ℝ) by norm_num)
  exact (((h2.div' hq' hq.ne' (by norm_num) (by norm_num) (by norm_num) (by norm_num)).2).round' (by norm_num)
    (by norm_num)).mono (by norm_num)

theorem foot_P {v v' : ℝ} (hv' : Near v' v 1075) (hs' : Near s' s 275) (hq' : Near q' q 280) (hq : 0 < q) :
    Near (rnd (rnd (rnd (27 * v') * s') / q')) (27 * v * s / q) 1640 := by
  have h0 := (((Near.refl 27).mul' hv' (by norm_num) (by norm_num) (by norm_num) (by norm_num)).round' (by norm_num)
      (by norm_num)).mono (show _ ≤ (1077 : ℝ) by norm_num)
  have h2 := ((h0.mul' hs' (by norm_num) (by norm_num) (by norm_num) (by norm_num)).round' (by norm_num)
      (by norm_num)).mono (show _ ≤ (1354 : ℝ) by norm_num)
  exact (((h2.div' hq' hq.ne' (by norm_num) (by norm_num) (by norm_num) (by norm_num)).2).round' (by norm_num)
    (by norm_num)).mono (by norm_num)

theorem foot_G {P P' : ℝ} (hP' : Near P' P 1640) (hP0 : 0 ≤ P) (hP : P ≤ 3.6e-3) (hP'0 : 0 ≤ P') :
    |rnd (rnd √(rnd (P' + 1)) + rnd √P') - (√(P + 1) + √P)| ≤ 120 * u ∧ √(P + 1) + √P ≤ 1.07 ∧ 1 ≤ √(P + 1) + √P := by
  have hu := u_pos
  have hu' := u_small
  have s0 : √P ≤ 0.0601 := by rw [Real.sqrt_le_left (by norm_num)]; norm_num at hP ⊢; linarith
  have s00 := Real.sqrt_nonneg P
  have s1 : √(P + 1) ≤ 1.002 := by rw [Real.sqrt_le_left (by norm_num)]; norm_num at hP ⊢; linarith
  have s2 : 1 ≤ √(P + 1) := by rw [Real.one_le_sqrt]; linarith
  have h1 : |P' + 1 - (P + 1)| ≤ 6 * u := by
    have := hP'.le (E := 6) (by rw [abs_of_nonneg hP0]; norm_num at hP ⊢; linarith)
    rwa [add_sub_add_right_eq_sub]
  have h2 := rabs h1 (M := 1.01) (by rw [abs_of_nonneg (by linarith)]; norm_num at hP hu' ⊢; linarith)
  have h3 : Near (rnd (P' + 1)) (P + 1) 8 := by
    unfold Near; rw [abs_of_nonneg (show 0 ≤ P + 1 by linarith)]
    have : u * 1 ≤ u * (P + 1) := by gcongr; linarith
    norm_num at h2 ⊢; linarith
  have h4 := ((near_sqrt h3 (by linarith) (rnd_nonneg (by linarith))).round' (by norm_num) (by norm_num)).le (E := 10)
    (by rw [abs_of_nonneg (Real.sqrt_nonneg _)]; norm_num at s1 ⊢; linarith)
  have h5 := ((near_sqrt hP' hP0 hP'0).round' (by norm_num) (by norm_num)).le (E := 100)
    (by rw [abs_of_nonneg (Real.sqrt_nonneg _)]; norm_num at s0 ⊢; linarith)
  have h6 : |rnd √(rnd (P' + 1)) + rnd √P' - (√(P + 1) + √P)| ≤ 110 * u := by
    rw [abs_le] at *; constructor <;> linarith
  refine ⟨(rabs h6 (M := 2) (by rw [abs_of_nonneg (by linarith)]; norm_num at *; linarith)).trans (by linarith), ?_, ?_⟩
  · norm_num at *; linarith
  · linarith

/-- what the error analysis needs of `pow` in the C library: its results are doubles, correct to one unit in the
last place, and no power of a number above one with a positive exponent is below one -/
structure PowAccurate (lib : Libm) : Prop where
  double : ∀ x y, Spec.IsBinary64 (lib.pow x y)
  close : ∀ x y, 0 < x → |lib.pow x y - x ^ y| ≤ 1 / 2 ^ 52 * x ^ y
  above : ∀ x y, 1 ≤ x → 0 ≤ y → 1 ≤ lib.pow x y

theorem third_near : |rnd (2 / 3) - 2 / 3| ≤ u := by
  have := rnd_u (2 / 3)
  have hu := u_pos
  rw [abs_of_pos (by norm_num : (0 : ℝ) < 2 / 3)] at this
  linarith

theorem third_bounds : 0 ≤ rnd (2 / 3) ∧ rnd (2 / 3) ≤ 1 := by
  have := third_near
  have hu' := u_small
  rw [abs_le] at this
  norm_num at hu'
  constructor <;> linarith

/-- powers between 0 and 1 do not spread numbers above one -/
theorem rpow_spread {G G' y : ℝ} (h1 : 1 ≤ G) (h1' : 1 ≤ G') (hy0 : 0 ≤ y) (hy1 : y ≤ 1) : |G' ^ y - G ^ y| ≤ |G' - G| := by
  have key : ∀ a b : ℝ, 1 ≤ a → a ≤ b → b ^ y - a ^ y ≤ b - a := by
    intro a b ha hab
    have ha0 : 0 < a := by linarith
    have hb : b = a * (b / a) := by field_simp
    have hr : 1 ≤ b / a := by rw [le_div_iff₀ ha0]; linarith
    have e : b ^ y = a ^ y * (b / a) ^ y := by
      conv_lhs => rw [hb]
      exact Real.mul_rpow ha0.le (by linarith)
    have h3 : (b / a) ^ y ≤ b / a := Real.rpow_le_self_of_one_le hr hy1
    have h4 : a ^ y ≤ a := Real.rpow_le_self_of_one_le ha hy1
    have h5 : 0 ≤ a ^ y := Real.rpow_nonneg ha0.le y
    have h6 : 1 ≤ (b / a) ^ y := Real.one_le_rpow hr hy0
    rw [e]
    have h7 : a ^ y * ((b / a) ^ y - 1) ≤ a * (b / a - 1) :=
      mul_le_mul h4 (by linarith) (by linarith) ha0.le
    have h8 : a * (b / a - 1) = b - a := by field_simp
    linarith
  rcases le_total G G' with h | h
  · rw [abs_of_nonneg (by linarith [Real.rpow_le_rpow (by linarith) h hy0]), abs_of_nonneg (by linarith)]
    exact key _ _ h1 h
  · rw [abs_sub_comm, abs_sub_comm G', abs_of_nonneg (by linarith [Real.rpow_le_rpow (by linarith) h hy0]),
      abs_of_nonneg (by linarith)]
    exact key _ _ h1' h

theorem rpow_exponent {G a b : ℝ} (h1 : 1 ≤ G) (h2 : G ≤ 2) (ha : 0 ≤ a) (hab : a ≤ b) (hb : b ≤ 1) :
    |G ^ b - G ^ a| ≤ 2 * (b - a) := by
  have hG : 0 < G := by linarith
  have e : G ^ b = G ^ a * G ^ (b - a) := by rw [← Real.rpow_add hG]; congr 1; ring
  have h3 : (1 + (G - 1)) ^ (b - a) ≤ 1 + (b - a) * (G - 1) :=
    rpow_one_add_le_one_add_mul_self (by linarith) (by linarith) (by linarith)
  rw [show 1 + (G - 1) = G by ring] at h3
  have h4 : 1 ≤ G ^ (b - a) := Real.one_le_rpow h1 (by linarith)
  have h5 : G ^ a ≤ G := Real.rpow_le_self_of_one_le h1 (by linarith)
  have h6 : 0 < G ^ a := Real.rpow_pos_of_pos hG a
  have h7 : G ^ (b - a) - 1 ≤ b - a := by nlinarith
  rw [e, abs_of_nonneg (by nlinarith)]
  nlinarith

theorem foot_Q {lib : Libm} (hlib : PowAccurate lib) {G G' : ℝ} (h : |G' - G| ≤ 120 * u) (h1 : 1 ≤ G) (h2 : G ≤ 1.07)
    (h1' : 1 ≤ G') : |lib.pow G' (rnd (2 / 3)) - G ^ ((2 : ℝ) / 3)| ≤ 126 * u ∧ 1 ≤ G ^ ((2 : ℝ) / 3) ∧
      G ^ ((2 : ℝ) / 3) ≤ 1.07 := by
  have hu := u_pos
  have hu' := u_small
  obtain ⟨t0, t1⟩ := third_bounds
  have h3 := hlib.close G' (rnd (2 / 3)) (by linarith)
  have h4 := (rpow_spread h1 h1' t0 t1).trans h
  have h5 : |G ^ rnd (2 / 3) - G ^ ((2 : ℝ) / 3)| ≤ 2 * u := by
    have := third_near
    norm_num at h2
    rcases le_total (rnd (2 / 3)) (2 / 3) with hh | hh
    · rw [abs_sub_comm]
      refine (rpow_exponent h1 (by linarith) t0 hh (by norm_num)).trans ?_
      rw [abs_le] at this; linarith
    · refine (rpow_exponent h1 (by linarith) (by norm_num) hh t1).trans ?_
      rw [abs_le] at this; linarith
  have h6 : G' ^ rnd (2 / 3) ≤ 1.1 := by
    refine (Real.rpow_le_self_of_one_le h1' t1).trans ?_
    rw [abs_le] at h
    norm_num at *; linarith
  have h7 : (1 / 2 ^ 52 : ℝ) = 2 * u := by norm_num [u]
  rw [h7] at h3
  have h8 : 2 * u * G' ^ rnd (2 / 3) ≤ 2 * u * 1.1 := by gcongr
  refine ⟨?_, Real.one_le_rpow h1 (by norm_num), (Real.rpow_le_self_of_one_le h1 (by norm_num)).trans h2⟩
  norm_num at h8
  rw [abs_le] at *; constructor <;> linarith

/-- `t` is never below a half -/
theorem foot_t_ge {Q' : ℝ} (hd : IsDouble Q') (h1' : 1 ≤ Q') :
    1 / 2 ≤ rnd (rnd (rnd (1 + Q') + rnd (1 / Q')) / 6) :=
  le_rnd isDouble_half (by linarith [three_le hd h1'])

theorem foot_t {Q Q' : ℝ} (h : |Q' - Q| ≤ 126 * u) (h1 : 1 ≤ Q) (h2 : Q ≤ 1.07) (h1' : 1 ≤ Q') :
    |rnd (rnd (rnd (1 + Q') + rnd (1 / Q')) / 6) - (1 + Q + 1 / Q) / 6| ≤ 45 * u ∧
      (1 + Q + 1 / Q) / 6 ≤ 26 / 50 := by
  have hu := u_pos
  have hu' := u_tiny
  replace h2 : Q ≤ 107 / 100 := by norm_num at h2 ⊢; exact h2
  have hQ0 : 0 < Q := by linarith
  have hQ0' : 0 < Q' := by linarith
  have i1 : 1 / Q ≤ 1 := by rw [div_le_one hQ0]; exact h1
  have i0 : 0 < 1 / Q := by positivity
  have a1 : |1 + Q' - (1 + Q)| ≤ 126 * u := by rwa [add_sub_add_left_eq_sub]
  have a2 := rabs a1 (M := 21 / 10) (by rw [abs_of_pos (by linarith)]; linarith)
  have a3 : |1 / Q' - 1 / Q| ≤ 126 * u := by
    rw [div_sub_div _ _ hQ0'.ne' hQ0.ne', abs_div, abs_of_pos (mul_pos hQ0' hQ0), div_le_iff₀ (by positivity),
      show 1 * Q - Q' * 1 = -(Q' - Q) by ring, abs_neg]
    nlinarith [mul_le_mul h1' h1 (by norm_num) hQ0'.le]
  have a4 := rabs a3 (M := 11 / 10) (by rw [abs_of_pos i0]; linarith)
  have a5 : |rnd (1 + Q') + rnd (1 / Q') - (1 + Q + 1 / Q)| ≤ 256 * u := by
    rw [abs_le] at *; constructor <;> linarith
  have a6 := rabs a5 (M := 32 / 10) (by rw [abs_of_pos (by linarith)]; linarith)
  have a7 : |rnd (rnd (1 + Q') + rnd (1 / Q')) / 6 - (1 + Q + 1 / Q) / 6| ≤ 44 * u := by
    rw [abs_le] at *; constructor <;> linarith
  have a8 := rabs a7 (M := 9 / 10) (by rw [abs_of_pos (by linarith)]; linarith)
  exact ⟨by linarith, by linarith⟩

theorem sqrt_diff_mul {a b : ℝ} (ha : 0 ≤ a) (hb : 0 ≤ b) : |√a - √b| * √b ≤ |a - b| := by
  have h : a - b = (√a - √b) * (√a + √b) := by
    have h1 := Real.mul_self_sqrt ha
    have h2 := Real.mul_self_sqrt hb
    linear_combination -h1 + h2
  rw [h, abs_mul]
  have h3 := Real.sqrt_nonneg a
  have h4 := Real.sqrt_nonneg b
  rw [abs_of_nonneg (show 0 ≤ √a + √b by linarith)]
  gcongr
  linarith

theorem sqrt_diff_sq {a b : ℝ} (ha : 0 ≤ a) (hb : 0 ≤ b) : |√a - √b| ^ 2 ≤ |a - b| := by
  have h : a - b = (√a - √b) * (√a + √b) := by
    have h1 := Real.mul_self_sqrt ha
    have h2 := Real.mul_self_sqrt hb
    linear_combination -h1 + h2
  rw [h, abs_mul, sq]
  have h3 := Real.sqrt_nonneg a
  have h4 := Real.sqrt_nonneg b
  rw [abs_of_nonneg (show 0 ≤ √a + √b by linarith)]
  gcongr
  rw [abs_le]
  constructor <;> linarith

/-- the radicand of `c` is not negative -/
theorem foot_c_nonneg {t' : ℝ} (u' : ℝ) (ht : 1 / 2 ≤ t') : 0 ≤ rnd (rnd (rnd (u' * u') - 1) + rnd (2 * t')) := by
  apply rnd_nonneg
  have h1 : -1 ≤ rnd (rnd (u' * u') - 1) := by
    apply le_rnd isDouble_neg_one
    linarith [rnd_nonneg (mul_self_nonneg u')]
  have h2 : 1 ≤ rnd (2 * t') := le_rnd isDouble_one (by linarith)
  linarith

theorem foot_c2 {U u' t t' : ℝ} (hU0 : 0 ≤ U) (hU : U ≤ 10001 / 10000) (hu' : Near u' U 394) (ht0 : 1 / 2 ≤ t)
    (ht : t ≤ 26 / 50) (ht' : |t' - t| ≤ 45 * u) :
    |rnd (rnd (rnd (u' * u') - 1) + rnd (2 * t')) - (U ^ 2 - 1 + 2 * t)| ≤ 885 * u := by
  have hu := u_pos
  have hut := u_tiny
  have hUU : U ^ 2 ≤ 10003 / 10000 := by nlinarith
  have hUU0 : 0 ≤ U ^ 2 := sq_nonneg U
  have a1 := ((hu'.mul' hu' (by norm_num) (by norm_num) (by norm_num) (by norm_num)).round' (by norm_num)
    (by norm_num)).mono (show _ ≤ (790 : ℝ) by norm_num)
  rw [← sq U] at a1
  have a2 := a1.le (E := 791) (by rw [abs_of_nonneg hUU0]; linarith)
  have a3 : |rnd (u' * u') - 1 - (U ^ 2 - 1)| ≤ 791 * u := by rwa [sub_sub_sub_cancel_right]
  have a4 := rabs a3 (M := 11 / 10) (by
    have : |U ^ 2 - 1| ≤ 1 := by rw [abs_le]; constructor <;> linarith
    linarith)
  have a5 : |2 * t' - 2 * t| ≤ 90 * u := by rw [abs_le] at *; constructor <;> linarith
  have a6 := rabs a5 (M := 11 / 10) (by rw [abs_of_pos (by linarith)]; linarith)
  have a7 : |rnd (rnd (u' * u') - 1) + rnd (2 * t') - (U ^ 2 - 1 + 2 * t)| ≤ (8832 / 10) * u := by
    rw [abs_le] at *; constructor <;> linarith
  have a8 := rabs a7 (M := 11 / 10) (by rw [abs_of_nonneg (by linarith)]; linarith)
  linarith

theorem foot_w {U u' c c2' D : ℝ} (hU0 : 0 ≤ U) (hU : U ≤ 10001 / 10000) (hu' : Near u' U 394) (hUc : U ≤ c)
    (hc : c ≤ U + 1 / 5) (hc1 : c ≤ 103 / 100) (hD : D = |√c2' - c|) (hDU : U * D ≤ 885 * u)
    (hD1 : D ≤ 1 / 10 ^ 6) :
    |rnd (rnd (rnd √c2' - u') / 2) - (c - U) / 2| ≤ D / 2 + 200 * u ∧
    |rnd (u' * rnd (rnd (rnd √c2' - u') / 2)) - U * ((c - U) / 2)| ≤ 688 * u := by
  have hu := u_pos
  have hut := u_tiny
  have hc0 : 0 ≤ c := hU0.trans hUc
  have a0 := hu'.le (E := 395) (by rw [abs_of_nonneg hU0]; linarith)
  have a1 := rabs hD.ge (M := 11 / 10) (by rw [abs_of_nonneg hc0]; linarith)
  have a2 : |rnd √c2' - u' - (c - U)| ≤ D + (3961 / 10) * u := by rw [abs_le] at *; constructor <;> linarith
  have a3 := rabs a2 (M := 11 / 10) (by rw [abs_of_nonneg (by linarith)]; linarith)
  have a4 : |rnd (rnd √c2' - u') / 2 - (c - U) / 2| ≤ D / 2 + (1987 / 10) * u := by
    rw [abs_le] at *; constructor <;> linarith
  have a5 := rabs a4 (M := 6 / 10) (by rw [abs_of_nonneg (by linarith)]; linarith)
  obtain ⟨w', hw'⟩ : ∃ w', w' = rnd (rnd (rnd √c2' - u') / 2) := ⟨_, rfl⟩
  obtain ⟨w, hw⟩ : ∃ w, w = (c - U) / 2 := ⟨_, rfl⟩
  rw [← hw', ← hw] at a5 ⊢
  have a6 : |w' - w| ≤ D / 2 + 200 * u := by linarith
  refine ⟨a6, ?_⟩
  have w0 : 0 ≤ w := by linarith
  have w1 : w ≤ 1 / 10 := by linarith
  have w2 : |w'| ≤ 11 / 100 := by
    rw [abs_le] at a6 ⊢; constructor <;> linarith
  have a7 : |u' * w' - U * w| ≤ 687 * u := by
    rw [show u' * w' - U * w = (u' - U) * w' + U * (w' - w) by ring]
    have b1 := abs_add_le ((u' - U) * w') (U * (w' - w))
    rw [abs_mul, abs_mul, abs_of_nonneg hU0] at b1
    have b2 : |u' - U| * |w'| ≤ (395 * u) * (11 / 100) := by gcongr
    have b3 : U * |w' - w| ≤ U * (D / 2 + 200 * u) := by gcongr
    have b4 : U * u ≤ 10001 / 10000 * u := by gcongr
    linarith
  have a8 := rabs a7 (M := 2 / 10) (by
    rw [abs_of_nonneg (mul_nonneg hU0 w0)]
    have : U * w ≤ 10001 / 10000 * (1 / 10) := by gcongr
    linarith)
  linarith

theorem foot_m {t t' v v' : ℝ} (ht0 : 1 / 2 ≤ t) (ht : t ≤ 26 / 50) (ht' : |t' - t| ≤ 45 * u) (hv0 : 0 ≤ v)
    (hv : v ≤ 101 / 10 ^ 6) (hv' : Near v' v 1075) (hv0' : 0 ≤ v') :
    |rnd √(rnd (rnd (t' * t') + v')) - √(t ^ 2 + v)| ≤ 99 * u ∧ √(t ^ 2 + v) ≤ 53 / 100 := by
  have hu := u_pos
  have hut := u_tiny
  have a1 : |t' * t' - t ^ 2| ≤ (473 / 10) * u := by
    rw [show t' * t' - t ^ 2 = (t' - t) * (t' + t) by ring, abs_mul]
    have b1 : |t' + t| ≤ 1051 / 1000 := by rw [abs_le] at *; constructor <;> linarith
    have b2 : |t' - t| * |t' + t| ≤ 45 * u * (1051 / 1000) := by gcongr
    linarith
  have tt : t ^ 2 ≤ 271 / 1000 := by nlinarith
  have tt0 : 1 / 4 ≤ t ^ 2 := by nlinarith
  have a2 := rabs a1 (M := 3 / 10) (by rw [abs_of_nonneg (by linarith)]; linarith)
  have a3 := hv'.le (E := 2 / 10) (by rw [abs_of_nonneg hv0]; linarith)
  have a4 : |rnd (t' * t') + v' - (t ^ 2 + v)| ≤ (478 / 10) * u := by rw [abs_le] at *; constructor <;> linarith
  have a5 := rabs a4 (M := 3 / 10) (by rw [abs_of_nonneg (by linarith)]; linarith)
  have n1 : 0 ≤ rnd (rnd (t' * t') + v') := rnd_nonneg (add_nonneg (rnd_nonneg (mul_self_nonneg _)) hv0')
  have a6 := (sqrt_diff_mul n1 (show 0 ≤ t ^ 2 + v by linarith)).trans a5
  have m0 : 1 / 2 ≤ √(t ^ 2 + v) := by rw [Real.le_sqrt' (by norm_num)]; linarith
  have m1 : √(t ^ 2 + v) ≤ 53 / 100 := by rw [Real.sqrt_le_left (by norm_num)]; norm_num; linarith
  have a7 : |√(rnd (rnd (t' * t') + v')) - √(t ^ 2 + v)| ≤ 98 * u := by
    have := mul_le_mul_of_nonneg_left m0 (abs_nonneg (√(rnd (rnd (t' * t') + v')) - √(t ^ 2 + v)))
    linarith
  refine ⟨?_, m1⟩
  have a8 := rabs a7 (M := 6 / 10) (by rw [abs_of_nonneg (by linarith)]; linarith)
  linarith

theorem foot_base {m m' X X' t t' base : ℝ} (hm : |m' - m| ≤ 99 * u) (hm0 : 1 / 2 ≤ m) (hm1 : m ≤ 53 / 100)
    (hX : |X' - X| ≤ 688 * u) (hX0 : 0 ≤ X) (hX1 : X ≤ 1 / 9) (ht0 : 1 / 2 ≤ t) (ht : t ≤ 26 / 50)
    (ht' : |t' - t| ≤ 45 * u) (hb : base = m - X - t / 2 - 1 / 4) (hb0 : 0 ≤ base) :
    |(if rnd (rnd (rnd (m' - X') - rnd (t' / 2)) - 0.25) < 0 then 0 else
      rnd (rnd (rnd (m' - X') - rnd (t' / 2)) - 0.25)) - base| ≤ 813 * u := by
  have hu := u_pos
  have hut := u_tiny
  have a1 : |m' - X' - (m - X)| ≤ 787 * u := by rw [abs_le] at *; constructor <;> linarith
  have a2 := rabs a1 (M := 6 / 10) (by rw [abs_of_nonneg (by linarith)]; linarith)
  have a3 : |t' / 2 - t / 2| ≤ (225 / 10) * u := by rw [abs_le] at *; constructor <;> linarith
  have a4 := rabs a3 (M := 3 / 10) (by rw [abs_of_nonneg (by linarith)]; linarith)
  have a5 : |rnd (m' - X') - rnd (t' / 2) - (m - X - t / 2)| ≤ (8105 / 10) * u := by
    rw [abs_le] at *; constructor <;> linarith
  have a6 := rabs a5 (M := 6 / 10) (by rw [abs_of_nonneg (by linarith)]; linarith)
  have a7 : |rnd (rnd (m' - X') - rnd (t' / 2)) - 0.25 - base| ≤ (8111 / 10) * u := by
    rw [hb]; norm_num at a6 ⊢; rw [abs_le] at *; constructor <;> linarith
  have a8 := rabs a7 (M := 6 / 10) (by rw [abs_of_nonneg hb0]; linarith)
  split_ifs with h
  · rw [abs_le] at a8 ⊢; constructor <;> linarith
  · linarith

theorem foot_last {w w' base bb D : ℝ} (w0 : 0 ≤ w) (w1 : w ≤ 1 / 10) (hb0 : 0 ≤ base) (sb1 : √base ≤ 6 / 10)
    (nb : 0 ≤ bb) (B : |bb - base| ≤ 813 * u) (d3 : D ≤ 33 / 10 ^ 8)
    (W1 : |w' - w| ≤ D / 2 + 200 * u) :
    ∃ e, |rnd (w' + rnd √bb) - (w + √base)| ≤ e ∧ e ≤ 5 / 10 ^ 7 ∧
      (3 / 10 ^ 4 ≤ √base → D ≤ 1770 * u → e ≤ 4 / 10 ^ 10) ∧
      ∀ g, 0 < g → g ≤ √base → e ≤ D / 2 + 813 * u / g + 202 * u := by
  have hu := u_pos
  have hut := u_tiny
  obtain ⟨F, hF⟩ : ∃ F, F = |√bb - √base| := ⟨_, rfl⟩
  have hF0 : 0 ≤ F := hF ▸ abs_nonneg _
  have f1 : F * √base ≤ 813 * u := by rw [hF]; exact (sqrt_diff_mul nb hb0).trans B
  have f2 : F ^ 2 ≤ 813 * u := by rw [hF]; exact (sqrt_diff_sq nb hb0).trans B
  have f3 : F ≤ 32 / 10 ^ 8 := by
    by_contra hn; push Not at hn
    have : (32 / 10 ^ 8 : ℝ) ^ 2 < F ^ 2 := pow_lt_pow_left₀ hn (by norm_num) (by norm_num)
    norm_num at this hut; linarith
  have sb0 := Real.sqrt_nonneg base
  have g1 := rabs hF.ge (M := 1) (by rw [abs_of_nonneg sb0]; linarith)
  have g2 : |w' + rnd √bb - (w + √base)| ≤ D / 2 + F + 201 * u := by rw [abs_le] at *; constructor <;> linarith
  have g3 := rabs g2 (M := 1) (by rw [abs_of_nonneg (by linarith)]; linarith)
  refine ⟨_, g3, by linarith, fun hbase hD => ?_, fun g hg hgb => ?_⟩
  · have k2 : F ≤ 2710000 * u := by
      have := mul_le_mul_of_nonneg_left hbase hF0
      linarith
    linarith
  · have k3 : F ≤ 813 * u / g := by
      rw [le_div_iff₀ hg]
      have := mul_le_mul_of_nonneg_left hgb hF0
      linarith
    linarith

/-- the error of `arg`: crude, or relative to the size of the last square root -/
theorem foot_arg {U u' t t' v v' base : ℝ} (hU0 : 0 ≤ U) (hU : U ≤ 10001 / 10000) (hu' : Near u' U 394)
    (ht0 : 1 / 2 ≤ t) (ht : t ≤ 26 / 50) (ht' : |t' - t| ≤ 45 * u) (ht0' : 1 / 2 ≤ t') (hv0 : 0 ≤ v)
    (hv : v ≤ 101 / 10 ^ 6) (hv' : Near v' v 1075) (hv0' : 0 ≤ v')
    {c w m : ℝ} (hc : c = √(U ^ 2 - 1 + 2 * t)) (hw : w = (c - U) / 2) (hm : m = √(t ^ 2 + v))
    (hb : base = m - U * w - t / 2 - 1 / 4) (hb0 : 0 ≤ base)
    {w' b' : ℝ} (hw' : w' = rnd (rnd (rnd √(rnd (rnd (rnd (u' * u') - 1) + rnd (2 * t'))) - u') / 2))
    (hb' : b' = rnd (rnd (rnd (rnd √(rnd (rnd (t' * t') + v')) - rnd (u' * w')) - rnd (t' / 2)) - 0.25)) :
    ∃ e, |rnd (w' + rnd √(if b' < 0 then 0 else b')) - (w + √base)| ≤ e ∧ e ≤ 5 / 10 ^ 7 ∧
      (1 / 2 ≤ U → 3 / 10 ^ 4 ≤ √base → e ≤ 4 / 10 ^ 10) ∧
      ∀ g, 0 < U → 0 < g → g ≤ √base → e ≤ 443 * u / U + 813 * u / g + 202 * u := by
  have hu := u_pos
  have hut := u_tiny
  have c2 := foot_c2 hU0 hU hu' ht0 ht ht'
  have n2 := foot_c_nonneg u' ht0'
  have hC0 : U ^ 2 ≤ U ^ 2 - 1 + 2 * t := by linarith
  have hC0' : 0 ≤ U ^ 2 - 1 + 2 * t := (sq_nonneg U).trans hC0
  have hUc : U ≤ c := by rw [hc]; exact Real.le_sqrt_of_sq_le hC0
  have hcs : c ^ 2 = U ^ 2 - 1 + 2 * t := by rw [hc, Real.sq_sqrt hC0']
  have hc5 : c ≤ U + 1 / 5 := by
    by_contra hn; push Not at hn; nlinarith
  have hc1 : c ≤ 103 / 100 := by
    by_contra hn; push Not at hn; nlinarith
  obtain ⟨c2', hc2'⟩ : ∃ c2', c2' = rnd (rnd (rnd (u' * u') - 1) + rnd (2 * t')) := ⟨_, rfl⟩
  rw [← hc2'] at c2 n2 hw'
  obtain ⟨D, hD⟩ : ∃ D, D = |√c2' - c| := ⟨_, rfl⟩
  have hD0 : 0 ≤ D := hD ▸ abs_nonneg _
  have d1 : D * c ≤ 885 * u := by rw [hD, hc]; exact (sqrt_diff_mul n2 hC0').trans c2
  have d2 : D ^ 2 ≤ 885 * u := by rw [hD, hc]; exact (sqrt_diff_sq n2 hC0').trans c2
  have d3 : D ≤ 33 / 10 ^ 8 := by
    by_contra hn; push Not at hn
    have : (33 / 10 ^ 8 : ℝ) ^ 2 < D ^ 2 := pow_lt_pow_left₀ hn (by norm_num) (by norm_num)
    norm_num at this hut; linarith
  have d4 : U * D ≤ 885 * u := by
    have := mul_le_mul_of_nonneg_left hUc hD0; linarith
  obtain ⟨W1, W2⟩ := foot_w hU0 hU hu' hUc hc5 hc1 hD d4 (by norm_num at d3 ⊢; linarith)
  rw [← hw', ← hw] at W1 W2
  obtain ⟨M1, M2⟩ := foot_m ht0 ht ht' hv0 hv hv' hv0'
  have w0 : 0 ≤ w := by linarith
  have w1 : w ≤ 1 / 10 := by linarith
  have hm0 : 1 / 2 ≤ m := by rw [hm, Real.le_sqrt' (by norm_num)]; nlinarith
  have X1 : U * w ≤ 1 / 9 := by
    have : U * w ≤ 10001 / 10000 * (1 / 10) := by gcongr
    linarith
  rw [← hm] at M1 M2
  have B := foot_base M1 hm0 M2 W2 (mul_nonneg hU0 w0) X1 ht0 ht ht' hb hb0
  rw [← hb'] at B
  have nb : 0 ≤ (if b' < 0 then 0 else b') := by split_ifs with h <;> [rfl; exact not_lt.mp h]
  obtain ⟨bb, hbb⟩ : ∃ bb, bb = (if b' < 0 then 0 else b') := ⟨_, rfl⟩
  rw [← hbb] at B nb ⊢
  have sb1 : √base ≤ 6 / 10 := by
    rw [Real.sqrt_le_left (by norm_num)]
    have := mul_nonneg hU0 w0
    norm_num; linarith
  obtain ⟨e, e1, e2, e3, e4⟩ := foot_last w0 w1 hb0 sb1 nb B d3 W1
  refine ⟨e, e1, e2, fun hU2 hbase => e3 hbase ?_, fun g hUp hg hgb => ?_⟩
  · have := mul_le_mul_of_nonneg_right hU2 hD0
    linarith
  · have k : D / 2 ≤ 443 * u / U := by
      rw [le_div_iff₀ hUp]
      linarith
    have := e4 g hg hgb
    linarith

end chain

/-! ## the closed form as a whole -/

theorem eps2_pos : 0 < geoEps2 := by rw [geoEps2_value]; norm_num
theorem e2_pos : 0 < geoE2 := by rw [geoE2_value]; norm_num
theorem b2_pos : 0 < geoB2 := by rw [geoB2_value]; norm_num
theorem a_pos : 0 < geoA := by rw [geoA_value]; norm_num
theorem a2_pos : 0 < geoA2 := by rw [geoA2_value]; norm_num

/-- no operation before the arcsine raises once `q` is positive -/
theorem footHeight_value {lib : Libm} (hdouble : ∀ x y, IsDouble (lib.pow x y))
    (habove : ∀ x y, 1 ≤ x → 0 ≤ y → 1 ≤ lib.pow x y) {rho z p s q u' v P Q t w b : ℝ}
    (hp : p = rnd (|z| / geoEps2)) (hs : s = rnd (rnd (rho * rho) / rnd (geoE2 * geoEps2)))
    (hq : q = rnd (rnd (rnd (p * p) - geoB2) + s)) (hu : u' = rnd (p / rnd √q))
    (hv : v = rnd (rnd (rnd (geoB2 * u') * u') / q)) (hP : P = rnd (rnd (rnd (27 * v) * s) / q))
    (hQ : Q = lib.pow (rnd (rnd √(rnd (P + 1)) + rnd √P)) (rnd (2 / 3)))
    (ht : t = rnd (rnd (rnd (1 + Q) + rnd (1 / Q)) / 6))
    (hw : w = rnd (rnd (rnd √(rnd (rnd (rnd (u' * u') - 1) + rnd (2 * t))) - u') / 2))
    (hb : b = rnd (rnd (rnd (rnd √(rnd (rnd (t * t) + v)) - rnd (u' * w)) - rnd (t / 2)) - 0.25)) (hq0 : 0 < q) :
    footHeight lib rho z = .ok (rnd (rnd (pySign z * rnd √q) * rnd (w + rnd √(if b < 0 then 0 else b)))) ∧
      0 ≤ v ∧ 0 ≤ P ∧ 1 ≤ rnd (rnd √(rnd (P + 1)) + rnd √P) ∧ 1 ≤ Q ∧ 1 / 2 ≤ t := by
  have sq0 : 0 < rnd √q := rnd_pos (Real.sqrt_pos.mpr hq0)
  have p0 : 0 ≤ p := hp ▸ rnd_nonneg (div_nonneg (abs_nonneg _) eps2_pos.le)
  have s0 : 0 ≤ s := hs ▸ rnd_nonneg (div_nonneg (rnd_nonneg (mul_self_nonneg _))
    (rnd_nonneg (mul_pos e2_pos eps2_pos).le))
  have u0 : 0 ≤ u' := hu ▸ rnd_nonneg (div_nonneg p0 sq0.le)
  have v0 : 0 ≤ v := hv ▸ rnd_nonneg (div_nonneg (rnd_nonneg (mul_nonneg (rnd_nonneg (mul_nonneg b2_pos.le u0)) u0))
    hq0.le)
  have P0 : 0 ≤ P := hP ▸ rnd_nonneg (div_nonneg (rnd_nonneg (mul_nonneg (rnd_nonneg (by linarith)) s0)) hq0.le)
  have P1 : 1 ≤ rnd (P + 1) := le_rnd isDouble_one (by linarith)
  have r1 : 1 ≤ rnd √(rnd (P + 1)) := le_rnd isDouble_one (Real.one_le_sqrt.mpr P1)
  have r0 : 0 ≤ rnd √P := rnd_nonneg (Real.sqrt_nonneg _)
  have G1 : 1 ≤ rnd (rnd √(rnd (P + 1)) + rnd √P) := le_rnd isDouble_one (by linarith)
  have Q1 : 1 ≤ Q := hQ ▸ habove _ _ G1 third_bounds.1
  have t1 : 1 / 2 ≤ t := ht ▸ foot_t_ge (hQ ▸ hdouble _ _) Q1
  have c0 := foot_c_nonneg u' t1
  have m0 : 0 ≤ rnd (rnd (t * t) + v) := rnd_nonneg (add_nonneg (rnd_nonneg (mul_self_nonneg _)) v0)
  have nb : 0 ≤ (if b < 0 then 0 else b) := by split_ifs with h <;> [rfl; exact not_lt.mp h]
  refine ⟨?_, v0, P0, G1, Q1, t1⟩
  simp only [footHeight, ← hp, ← hs, ← hq]
  rw [sqrt_ok hq0.le, ok_bind, div_ok sq0.ne', ok_bind, ← hu, div_ok hq0.ne', ok_bind, ← hv, div_ok hq0.ne', ok_bind,
    ← hP, sqrt_ok (by linarith), ok_bind, sqrt_ok P0, ok_bind, pow23, if_neg (by linarith), ok_bind, ← hQ,
    div_ok (by linarith), ok_bind, ← ht, sqrt_ok c0, ok_bind, ← hw, sqrt_ok m0, ok_bind, ← hb, sqrt_ok nb, ok_bind,
    pure_eq_ok]

/-- the end of the conversion raises only in the arcsine, and not there if its argument is small enough -/
theorem itrfToLla_end (lib : Libm) (pos : Vec3) {rho d : ℝ}
    (hrho : rho = rnd √(rnd (rnd (pos.x * pos.x) + rnd (pos.y * pos.y)))) (hd : footHeight lib rho pos.z = .ok d) :
    ((∃ l, itrfToLla lib pos = .ok l) ∨ itrfToLla lib pos = .error .valueError) ∧
    (|rnd (rnd (geoEps2 + 1) * rnd (d / rnd (geoA * rnd √(rnd (1 + rnd (rnd (rnd (geoEps2 * d) * d) / geoB2))))))| ≤ 1 →
      ∃ l, itrfToLla lib pos = .ok l) := by
  have n0 : 0 ≤ rnd (rnd (rnd (geoEps2 * d) * d) / geoB2) := by
    apply rnd_nonneg
    apply div_nonneg _ b2_pos.le
    apply rnd_nonneg
    rcases le_total 0 d with h | h
    · exact mul_nonneg (rnd_nonneg (mul_nonneg eps2_pos.le h)) h
    · rcases h.eq_or_lt with h | h
      · simp [h]
      · exact mul_nonneg_of_nonpos_of_nonpos (rnd_neg (mul_neg_of_pos_of_neg eps2_pos h)).le h.le
  have n1 : 0 < rnd (1 + rnd (rnd (rnd (geoEps2 * d) * d) / geoB2)) := rnd_pos (by linarith)
  have n2 : 0 < rnd (geoA * rnd √(rnd (1 + rnd (rnd (rnd (geoEps2 * d) * d) / geoB2)))) :=
    rnd_pos (mul_pos a_pos (rnd_pos (Real.sqrt_pos.mpr n1)))
  simp only [itrfToLla, sqrtNN, ← hrho, hd, ok_bind]
  rw [sqrt_ok n1.le, ok_bind, div_ok n2.ne', ok_bind, asin]
  obtain ⟨A, hA⟩ : ∃ A, A = rnd (rnd (geoEps2 + 1) *
      rnd (d / rnd (geoA * rnd √(rnd (1 + rnd (rnd (rnd (geoEps2 * d) * d) / geoB2)))))) := ⟨_, rfl⟩
  rw [← hA]
  constructor
  · by_cases h : A < -1 ∨ 1 < A
    · right; rw [if_pos h, error_bind]
    · left; rw [if_neg h, ok_bind, div_ok n2.ne', ok_bind]; exact ⟨_, rfl⟩
  · intro h
    rw [abs_le] at h
    rw [if_neg (by push Not; exact h), ok_bind, div_ok n2.ne', ok_bind]
    exact ⟨_, rfl⟩

/-- the argument of the arcsine, for the foot found -/
theorem arc_near (d : ℝ) :
    Near (rnd (geoA * rnd √(rnd (1 + rnd (rnd (rnd (geoEps2 * d) * d) / geoB2)))))
      (Earth.RADIUS * √(1 + gEps * d * d / (gb * gb))) 121 ∧
    Near (rnd (rnd (geoEps2 + 1) * rnd (d / rnd (geoA * rnd √(rnd (1 + rnd (rnd (rnd (geoEps2 * d) * d) / geoB2)))))))
      ((gEps + 1) * (d / (Earth.RADIUS * √(1 + gEps * d * d / (gb * gb))))) 128 := by
  have hu := u_pos
  have hut := u_tiny
  have hb := gb_pos
  have he := gEps_pos
  have he1 : gEps ≤ 7 / 1000 := by norm_num [gEps, gb, Earth.RADIUS, Earth.FLATTENING]
  have dd : 0 ≤ gEps * d * d := by rw [mul_assoc]; exact mul_nonneg he.le (mul_self_nonneg d)
  have k0 : 0 ≤ gEps * d * d / (gb * gb) := div_nonneg dd (by positivity)
  have a1 := ((near_eps.mul' (Near.refl d) (by norm_num) (by norm_num) (by norm_num) (by norm_num)).round' (by norm_num)
    (by norm_num)).mono (show _ ≤ (109 : ℝ) by norm_num)
  have a2 := ((a1.mul' (Near.refl d) (by norm_num) (by norm_num) (by norm_num) (by norm_num)).round' (by norm_num)
    (by norm_num)).mono (show _ ≤ (111 : ℝ) by norm_num)
  have a3 := (((a2.div' near_b2 (by positivity) (by norm_num) (by norm_num) (by norm_num) (by norm_num)).2).round'
    (by norm_num) (by norm_num)).mono (show _ ≤ (114 : ℝ) by norm_num)
  have a4 := ((((Near.refl 1).mono (show (0 : ℝ) ≤ 114 by norm_num)).add a3 (by norm_num) k0).round' (by norm_num)
    (by norm_num)).mono (show _ ≤ (116 : ℝ) by norm_num)
  have n0 : 0 ≤ rnd (1 + rnd (rnd (rnd (geoEps2 * d) * d) / geoB2)) := by
    by_contra hn
    push Not at hn
    unfold Near at a4
    rw [abs_of_pos (show 0 < 1 + gEps * d * d / (gb * gb) by linarith)] at a4
    have := (abs_le.mp a4).1
    have h3 : 116 * u * (1 + gEps * d * d / (gb * gb)) ≤ 1 / 2 * (1 + gEps * d * d / (gb * gb)) := by
      gcongr; linarith
    linarith
  have a5 := ((near_sqrt a4 (by linarith) n0).round' (by norm_num) (by norm_num)).mono (show _ ≤ (118 : ℝ) by norm_num)
  have a6 := ((near_a.mul' a5 (by norm_num) (by norm_num) (by norm_num) (by norm_num)).round' (by norm_num)
    (by norm_num)).mono (show _ ≤ (121 : ℝ) by norm_num)
  have hn := geo_n_pos d
  have a7 := ((((Near.refl d).div' a6 hn.ne' (by norm_num) (by norm_num) (by norm_num) (by norm_num)).2).round'
    (by norm_num) (by norm_num)).mono (show _ ≤ (123 : ℝ) by norm_num)
  have a8 := ((near_eps1.mul' a7 (by norm_num) (by norm_num) (by norm_num) (by norm_num)).round' (by norm_num)
    (by norm_num)).mono (show _ ≤ (128 : ℝ) by norm_num)
  exact ⟨a6, a8⟩

/-- a foot a little below the pole's gives an argument the arcsine accepts -/
theorem arc_ok {d : ℝ} (hd : |d| ≤ gb * (1 - 1 / 10 ^ 6)) :
    |rnd (rnd (geoEps2 + 1) * rnd (d / rnd (geoA * rnd √(rnd (1 + rnd (rnd (rnd (geoEps2 * d) * d) / geoB2))))))| ≤ 1 := by
  have hu := u_pos
  have hut := u_tiny
  have hb := gb_pos
  have he := gEps_pos
  have hn := geo_n_pos d
  have a8 := (arc_near d).2
  refine (abs_le_of_near a8).trans ?_
  -- the exact value
  have hn2 := geo_n_sq d
  obtain ⟨n, hne⟩ : ∃ n, n = Earth.RADIUS * √(1 + gEps * d * d / (gb * gb)) := ⟨_, rfl⟩
  rw [← hne] at hn hn2 ⊢
  have hd2 : d ^ 2 ≤ gb ^ 2 * (1 - 19 / 10 ^ 7) := by
    have := pow_le_pow_left₀ (abs_nonneg d) hd 2
    rw [sq_abs, mul_pow] at this
    have h3 : (0 : ℝ) ≤ gb ^ 2 := sq_nonneg _
    have h4 : gb ^ 2 * (1 - 1 / 10 ^ 6) ^ 2 ≤ gb ^ 2 * (1 - 19 / 10 ^ 7) :=
      mul_le_mul_of_nonneg_left (by norm_num) h3
    linarith
  have h1 := one_sub_geoE2_pos
  have hg := geoE2_pos
  have hE : gEps + 1 = 1 / (1 - Openspace.geoE2) := by rw [gEps_eq]; field_simp; ring
  have hbs := gb_sq
  have hf : ((gEps + 1) * (d / n)) ^ 2 ≤ (1 - 1 / 10 ^ 7) ^ 2 := by
    rw [hE, mul_pow, div_pow, div_pow, div_mul_div_comm, one_pow, one_mul, div_le_iff₀ (by positivity), hn2]
    have hA : (Openspace.geoE2 * d ^ 2 / (1 - Openspace.geoE2) ^ 2) * (1 - Openspace.geoE2) ^ 2
        = Openspace.geoE2 * d ^ 2 := by field_simp
    have hB : (1 - Openspace.geoE2) ^ 2 * (Earth.RADIUS ^ 2 + Openspace.geoE2 * d ^ 2 / (1 - Openspace.geoE2) ^ 2)
        = (1 - Openspace.geoE2) * gb ^ 2 + Openspace.geoE2 * d ^ 2 := by
      rw [mul_add, mul_comm _ (_ / _), hA, sq gb, hbs]; ring
    rw [hB]
    have hlt : Openspace.geoE2 ≤ 1 / 100 := by norm_num [Openspace.geoE2, Earth.FLATTENING]
    have hb2 : (0 : ℝ) ≤ gb ^ 2 := sq_nonneg _
    have e1 : (1 - Openspace.geoE2) * d ^ 2 ≤ (1 - Openspace.geoE2) * (gb ^ 2 * (1 - 19 / 10 ^ 7)) :=
      mul_le_mul_of_nonneg_left hd2 h1.le
    have e2 : Openspace.geoE2 * d ^ 2 ≤ 1 / 100 * gb ^ 2 := by
      have : Openspace.geoE2 * d ^ 2 ≤ 1 / 100 * (gb ^ 2 * (1 - 19 / 10 ^ 7)) := by gcongr
      linarith
    have e3 : 99 / 100 * gb ^ 2 ≤ (1 - Openspace.geoE2) * gb ^ 2 := by gcongr; linarith
    have e4 : (0 : ℝ) ≤ (1 - Openspace.geoE2) * gb ^ 2 := by positivity
    norm_num at *
    linarith
  have hf' : |(gEps + 1) * (d / n)| ≤ 1 - 1 / 10 ^ 7 := by
    have := abs_le_of_sq_le_sq hf (by norm_num)
    exact this
  have : (1 + 128 * u) * |(gEps + 1) * (d / n)| ≤ (1 + 128 * u) * (1 - 1 / 10 ^ 7) := by gcongr
  refine this.trans ?_
  norm_num at hut ⊢
  linarith

/-! ## the exact values -/

theorem rho_mul_self (v : Vec3) : rho v * rho v = v.x ^ 2 + v.y ^ 2 := by
  unfold rho; rw [Real.mul_self_sqrt (add_nonneg (mul_self_nonneg _) (mul_self_nonneg _))]; ring

theorem gQ_bounds {v : Vec3} {r : ℝ} (hr : r ^ 2 = v.x ^ 2 + v.y ^ 2 + v.z ^ 2) :
    22000 * r ^ 2 - gb * gb ≤ gQ v ∧ gQ v ≤ 22200 * r ^ 2 := by
  have he := gEps_pos
  have he2 := geoE2_pos
  have hp : gP v * gP v = v.z ^ 2 * (1 / gEps ^ 2) := by
    unfold gP; rw [div_mul_div_comm, abs_mul_abs_self]; ring
  have hs : gS v = (v.x ^ 2 + v.y ^ 2) * (1 / (Openspace.geoE2 * gEps)) := by
    unfold gS; rw [rho_mul_self]; ring
  have k1 : 22000 ≤ 1 / gEps ^ 2 ∧ 1 / gEps ^ 2 ≤ 22200 := by
    norm_num [gEps, gb, Earth.RADIUS, Earth.FLATTENING]
  have k2 : 22000 ≤ 1 / (Openspace.geoE2 * gEps) ∧ 1 / (Openspace.geoE2 * gEps) ≤ 22200 := by
    norm_num [gEps, gb, Openspace.geoE2, Earth.RADIUS, Earth.FLATTENING]
  have z0 := sq_nonneg v.z
  have xy0 : 0 ≤ v.x ^ 2 + v.y ^ 2 := by positivity
  have l1 := mul_le_mul_of_nonneg_left k1.1 z0
  have l2 := mul_le_mul_of_nonneg_left k1.2 z0
  have l3 := mul_le_mul_of_nonneg_left k2.1 xy0
  have l4 := mul_le_mul_of_nonneg_left k2.2 xy0
  have hb := mul_pos gb_pos gb_pos
  unfold gQ
  rw [hp, hs, hr]
  constructor <;> linarith

/-- the position of the foot in units of the polar radius -/
theorem foot_ratio {U β S x : ℝ} (hS : S = 1 - U ^ 2 + β) (h : quartic U β x = 0) :
    x ^ 2 * ((x + U) ^ 2 + S) = β * (x + U) ^ 2 := by
  unfold quartic at h
  rw [hS]
  linear_combination h

theorem foot_low {U β S x : ℝ} (hS : S = 1 - U ^ 2 + β) (h : quartic U β x = 0) (hU0 : 0 ≤ U) (hU : U ≤ 1 / 2)
    (hβ0 : 0 < β) (hβ : β ≤ 1 / 10 ^ 4) (hx : 0 ≤ x) : x ^ 2 ≤ (52 / 100) ^ 2 * β := by
  have hr := foot_ratio hS h
  have hS0 : 3 / 4 ≤ S := by rw [hS]; nlinarith
  have x1 : x ^ 2 ≤ β := by
    by_contra hn
    push Not at hn
    have : β * (x + U) ^ 2 ≤ x ^ 2 * (x + U) ^ 2 := by gcongr
    have h3 : 0 < x ^ 2 * S := by
      apply mul_pos _ (by linarith)
      linarith
    linarith
  have x2 : x ≤ 1 / 100 := by
    by_contra hn
    push Not at hn
    have : (1 / 100 : ℝ) ^ 2 < x ^ 2 := pow_lt_pow_left₀ hn (by norm_num) (by norm_num)
    norm_num at this hβ; linarith
  have y1 : (x + U) ^ 2 ≤ (51 / 100) ^ 2 := pow_le_pow_left₀ (by linarith) (by linarith) 2
  have y0 : 0 ≤ (x + U) ^ 2 := sq_nonneg _
  -- `x² (Y + S) = β Y`, `Y ≤ 0.2601`, `S ≥ 0.75`
  have z1 : x ^ 2 * ((x + U) ^ 2 + 3 / 4) ≤ β * (x + U) ^ 2 := by
    have := mul_le_mul_of_nonneg_left hS0 (sq_nonneg x)
    linarith
  by_contra hn
  push Not at hn
  have z2 : (52 / 100) ^ 2 * β * ((x + U) ^ 2 + 3 / 4) < x ^ 2 * ((x + U) ^ 2 + 3 / 4) :=
    mul_lt_mul_of_pos_right hn (by linarith)
  have z3 : β * (x + U) ^ 2 ≤ β * (51 / 100) ^ 2 := by gcongr
  have z4 : 0 ≤ β * (x + U) ^ 2 := by positivity
  norm_num at *
  nlinarith

theorem foot_high {U β S x t c w base : ℝ} (hS : S = 1 - U ^ 2 + β) (h : quartic U β x = 0) (hU0 : 1 / 2 ≤ U)
    (hU : U ≤ 10001 / 10000) (hS0 : 0 ≤ S)
    (hβ0 : 7 / 10 ^ 7 ≤ β) (hβ : β ≤ 1 / 10 ^ 4) (hx : 0 ≤ x) (ht : 1 / 2 ≤ t)
    (hres : 2 * t ^ 3 - t ^ 2 = β * U ^ 2 * (1 - U ^ 2 + β)) (hc : c = √(U ^ 2 - 1 + 2 * t)) (hw : w = (c - U) / 2)
    (hxb : x = w + √base) : 3 / 10 ^ 4 ≤ √base := by
  have hr := foot_ratio hS h
  have hS1 : S ≤ 7501 / 10000 := by rw [hS]; nlinarith
  have y0 : 1 / 4 ≤ (x + U) ^ 2 := by nlinarith
  have hβp : 0 < β := by linarith
  have x1 : (4 / 10 ^ 4) ^ 2 ≤ x ^ 2 := by
    by_contra hn
    push Not at hn
    have z1 : x ^ 2 * ((x + U) ^ 2 + S) ≤ (4 / 10 ^ 4) ^ 2 * ((x + U) ^ 2 + 7501 / 10000) := by
      gcongr
    have z2 : 7 / 10 ^ 7 * (x + U) ^ 2 ≤ β * (x + U) ^ 2 := by gcongr
    norm_num at *
    linarith
  have x2 : 4 / 10 ^ 4 ≤ x := by
    by_contra hn; push Not at hn
    have := pow_lt_pow_left₀ hn hx (two_ne_zero)
    linarith
  have hcs : c ^ 2 = U ^ 2 - 1 + 2 * t := by rw [hc, Real.sq_sqrt]; nlinarith
  have hUc : U ≤ c := by rw [hc]; apply Real.le_sqrt_of_sq_le; linarith
  -- `t² (2t - 1) = β U² S`
  have t1 : (2 * t - 1) ≤ 4 * (β * U ^ 2 * S) := by
    have e : t ^ 2 * (2 * t - 1) = β * U ^ 2 * S := by rw [hS, ← hres]; ring
    have t2 : 1 / 4 ≤ t ^ 2 := by nlinarith
    have := mul_le_mul_of_nonneg_right t2 (show 0 ≤ 2 * t - 1 by linarith)
    linarith
  have w1 : w ≤ 8 / 10 ^ 5 := by
    have e : 2 * w * (c + U) = 2 * t - 1 := by rw [hw]; linear_combination hcs
    have w0 : 0 ≤ w := by rw [hw]; linarith
    have e2 : 2 * w * (2 * U) ≤ 2 * w * (c + U) := by gcongr; linarith
    have e3 : w * U ≤ (β * U * S) * U := by nlinarith
    have e4 : w ≤ β * U * S := le_of_mul_le_mul_right e3 (by linarith)
    have e5 : β * U * S ≤ 1 / 10 ^ 4 * (10001 / 10000) * (7501 / 10000) := by gcongr
    norm_num at e5 ⊢; linarith
  norm_num at *
  linarith

end Openspace.F64
