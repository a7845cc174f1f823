import Mathlib.Analysis.Convex.SpecificFunctions.Basic
import Verif.Lemmas.DoubleGeodetic

/-!
# Geodetic coordinates in double precision: a position near the equator
-/

namespace Openspace.F64

theorem roundEven_neg (y : ℝ) : roundEven (-y) = -roundEven y := by
  have h := roundEven_near y
  rcases lt_or_eq_of_le h with h | h
  · apply roundEven_eq
    push_cast
    rw [show -y - -(roundEven y : ℝ) = (roundEven y : ℝ) - y by ring]; exact h
  · have key : ∃ n : ℤ, y = n + 1 / 2 := by
      rcases (abs_eq (by norm_num)).mp h with h | h
      · exact ⟨roundEven y - 1, by push_cast; linarith⟩
      · exact ⟨roundEven y, by linarith⟩
    obtain ⟨n, rfl⟩ := key
    obtain ⟨⟨j, a⟩, b⟩ := roundEven_half n
    obtain ⟨⟨k, c⟩, d⟩ := roundEven_half (-n - 1)
    rw [show -((n : ℝ) + 1 / 2) = ((-n - 1 : ℤ) : ℝ) + 1 / 2 by push_cast; ring]
    omega

/-- rounding is symmetric -/
theorem rnd_opp (x : ℝ) : rnd (-x) = -rnd x := by
  unfold rnd
  by_cases hx : x = 0
  · simp [hx]
  · rw [if_neg hx, if_neg (neg_ne_zero.mpr hx), ulp, ulp, abs_neg, neg_div, roundEven_neg]
    push_cast
    ring

/-- the doubles from one half to the next one -/
theorem double_half {t : ℝ} (hd : IsDouble t) (h1 : 1 / 2 ≤ t) (h2 : t ≤ 1 / 2 + 1 / 2 ^ 53) : t = 1 / 2 ∨ t = 1 / 2 + 1 / 2 ^ 53 := by
  obtain ⟨m, e, hm, rfl⟩ := (isDouble_iff t).mp hd
  have he : -53 ≤ e := by
    by_contra hn
    push Not at hn
    have h3 : (2 : ℝ) ^ e ≤ 2 ^ (-54 : ℤ) := zpow_le_zpow_right₀ (by norm_num) (by omega)
    have h4 : (m : ℝ) < 2 ^ 53 := by exact_mod_cast (abs_lt.mp hm).2
    have hp : (0 : ℝ) < 2 ^ e := zpow_pos (by norm_num) _
    have : (m : ℝ) * 2 ^ e < 2 ^ 53 * 2 ^ (-54 : ℤ) := by
      calc (m : ℝ) * 2 ^ e < 2 ^ 53 * 2 ^ e := by gcongr
        _ ≤ 2 ^ 53 * 2 ^ (-54 : ℤ) := by gcongr
    norm_num at this h1
    linarith
  obtain ⟨k, rfl⟩ : ∃ k : ℕ, e = -53 + k := ⟨(e + 53).toNat, by omega⟩
  have ex : (m : ℝ) * 2 ^ (-53 + (k : ℤ)) = ((m * 2 ^ k : ℤ) : ℝ) / 2 ^ 53 := by
    rw [zpow_add₀ (by norm_num)]; push_cast; rw [zpow_natCast, zpow_neg]; norm_num; ring
  rw [ex] at h1 h2 ⊢
  rw [le_div_iff₀ (by norm_num)] at h1
  rw [div_le_iff₀ (by norm_num)] at h2
  have h1' : (2 : ℤ) ^ 52 ≤ m * 2 ^ k := by
    have : ((2 ^ 52 : ℤ) : ℝ) ≤ ((m * 2 ^ k : ℤ) : ℝ) := by push_cast at h1 ⊢; norm_num at h1 ⊢; linarith
    exact_mod_cast this
  have h2' : m * 2 ^ k ≤ (2 : ℤ) ^ 52 + 1 := by
    have : ((m * 2 ^ k : ℤ) : ℝ) ≤ ((2 ^ 52 + 1 : ℤ) : ℝ) := by push_cast at h2 ⊢; norm_num at h2 ⊢; linarith
    exact_mod_cast this
  obtain h | h : m * 2 ^ k = 2 ^ 52 ∨ m * 2 ^ k = 2 ^ 52 + 1 := by omega
  · left; rw [h]; push_cast; norm_num
  · right; rw [h]; push_cast; norm_num

/-- the auxiliary number `t` when the power is close to one -/
theorem t_half {Q : ℝ} (hd : IsDouble Q) (h1 : 1 ≤ Q) (h2 : Q ≤ 1 + 1 / 10 ^ 9) :
    rnd (rnd (rnd (1 + Q) + rnd (1 / Q)) / 6) = 1 / 2 ∨ rnd (rnd (rnd (1 + Q) + rnd (1 / Q)) / 6) = 1 / 2 + 1 / 2 ^ 53 := by
  apply double_half (isDouble_rnd _) (foot_t_ge hd h1)
  have a1 := (_root_.abs_le.mp (rnd_near (1 + Q))).2
  have a2 := (_root_.abs_le.mp (rnd_near (1 / Q))).2
  have q0 : 0 < Q := by linarith
  have i1 : 1 / Q ≤ 1 := by rw [div_le_one q0]; exact h1
  have i2 : Q + 1 / Q ≤ 2 + 1 / 10 ^ 18 := by
    have e : Q + 1 / Q = 2 + (Q - 1) ^ 2 / Q := by field_simp; ring
    rw [e]
    have : (Q - 1) ^ 2 / Q ≤ (1 / 10 ^ 9) ^ 2 / 1 := by gcongr; linarith
    norm_num at this ⊢
    linarith
  rw [abs_of_pos (by linarith)] at a1
  rw [abs_of_pos (by positivity)] at a2
  have a3 : rnd (1 + Q) + rnd (1 / Q) ≤ 3 + 1 / 2 ^ 51 := by norm_num at *; linarith
  have d3 : rnd (3 + 1 / 2 ^ 51) = 3 + 1 / 2 ^ 51 := by
    rw [rnd_eq 6755399441055745 (-51)] <;> norm_num [abs_lt]
  have a4 : rnd (rnd (1 + Q) + rnd (1 / Q)) ≤ 3 + 1 / 2 ^ 51 := by rw [← d3]; exact rnd_mono a3
  have d4 : rnd ((3 + 1 / 2 ^ 51) / 6) = 1 / 2 + 1 / 2 ^ 53 := by
    rw [rnd_eq 4503599627370497 (-53)] <;> norm_num [abs_lt]
  rw [← d4]
  exact rnd_mono (by linarith)

/-! ## 4.6 cm north of the equatorial plane, 6380 km from the axis -/

theorem eq_p : rnd ((3 / 2 ^ 16) / (3793999377953 / 2 ^ 49)) = (1957733646155673 / 2 ^ 58) := by
  rw [rnd_eq 7830934584622692 (-60)] <;> norm_num [abs_lt]

theorem eq_ee : rnd ((15074403617717 / 2 ^ 51) * (3793999377953 / 2 ^ 49)) = (1664514360851339 / 2 ^ 65) := by
  rw [rnd_eq 6658057443405356 (-67)] <;> norm_num [abs_lt]

theorem eq_s : rnd (40704400 / (1664514360851339 / 2 ^ 65)) = (3695417210665675 / 2 ^ 12) := by
  rw [rnd_eq 7390834421331350 (-13)] <;> norm_num [abs_lt]

theorem eq_pp : rnd ((1957733646155673 / 2 ^ 58) * (1957733646155673 / 2 ^ 58)) = (3404140106946217 / 2 ^ 66) := by
  rw [rnd_eq 6808280213892434 (-67)] <;> norm_num [abs_lt]

theorem eq_q1 : rnd ((3404140106946217 / 2 ^ 66) - (2711755108137993 / 2 ^ 26)) = -(2711755108134897 / 2 ^ 26) := by
  rw [← neg_sub, rnd_opp, rnd_eq 5423510216269794 (-27)] <;> norm_num [abs_lt]

theorem eq_q : rnd (-(2711755108134897 / 2 ^ 26) + (3695417210665675 / 2 ^ 12)) = (7390503396537877 / 2 ^ 13) := by
  rw [rnd_eq 7390503396537877 (-13)] <;> norm_num [abs_lt]

theorem eq_sq : rnd √(7390503396537877 / 2 ^ 13) = (8158905360736619 / 2 ^ 33) := by
  have l1 : (8158905360736619 - 49 / 100) * 2 ^ (-33 : ℤ) < √((7390503396537877 / 2 ^ 13) : ℝ) := Real.lt_sqrt_of_sq_lt (by norm_num)
  have l2 : √((7390503396537877 / 2 ^ 13) : ℝ) < (8158905360736619 + 49 / 100) * 2 ^ (-33 : ℤ) := (Real.sqrt_lt' (by norm_num)).mpr (by norm_num)
  rw [rnd_eq 8158905360736619 (-33)]
  · norm_num
  · refine le_trans ?_ l1.le; norm_num
  · refine l2.trans ?_; norm_num
  · rw [abs_lt]
    norm_num at l1 l2 ⊢
    constructor <;> linarith

theorem eq_u : rnd ((1957733646155673 / 2 ^ 58) / (8158905360736619 / 2 ^ 33)) = (1080641106801777 / 2 ^ 77) := by
  rw [rnd_eq 8645128854414216 (-80)] <;> norm_num [abs_lt]

theorem eq_b2u : rnd ((2711755108137993 / 2 ^ 26) * (1080641106801777 / 2 ^ 77)) = (1301374137977979 / 2 ^ 52) := by
  rw [rnd_eq 5205496551911916 (-54)] <;> norm_num [abs_lt]

theorem eq_b2uu : rnd ((1301374137977979 / 2 ^ 52) * (1080641106801777 / 2 ^ 77)) = (1249061644184241 / 2 ^ 79) := by
  rw [rnd_eq 4996246576736964 (-81)] <;> norm_num [abs_lt]

theorem eq_v : rnd ((1249061644184241 / 2 ^ 79) / (7390503396537877 / 2 ^ 13)) = (6089191226617789 / 2 ^ 121) := by
  rw [rnd_eq 6089191226617789 (-121)] <;> norm_num [abs_lt]

theorem eq_v27 : rnd (27 * (6089191226617789 / 2 ^ 121)) = (5137755097458759 / 2 ^ 116) := by
  rw [rnd_eq 5137755097458759 (-116)] <;> norm_num [abs_lt]

theorem eq_v27s : rnd ((5137755097458759 / 2 ^ 116) * (3695417210665675 / 2 ^ 12)) = (8431543734903357 / 2 ^ 77) := by
  rw [rnd_eq 8431543734903357 (-77)] <;> norm_num [abs_lt]

theorem eq_P : rnd ((8431543734903357 / 2 ^ 77) / (7390503396537877 / 2 ^ 13)) = (2568992610196021 / 2 ^ 115) := by
  rw [rnd_eq 5137985220392042 (-116)] <;> norm_num [abs_lt]

theorem eq_P1 : rnd ((2568992610196021 / 2 ^ 115) + 1) = 1 := by
  rw [rnd_eq 4503599627370496 (-52)] <;> norm_num [abs_lt]

theorem eq_sp : rnd √(2568992610196021 / 2 ^ 115) = (1202586491795723 / 2 ^ 82) := by
  have l1 : (4810345967182892 - 49 / 100) * 2 ^ (-84 : ℤ) < √((2568992610196021 / 2 ^ 115) : ℝ) := Real.lt_sqrt_of_sq_lt (by norm_num)
  have l2 : √((2568992610196021 / 2 ^ 115) : ℝ) < (4810345967182892 + 49 / 100) * 2 ^ (-84 : ℤ) := (Real.sqrt_lt' (by norm_num)).mpr (by norm_num)
  rw [rnd_eq 4810345967182892 (-84)]
  · norm_num
  · refine le_trans ?_ l1.le; norm_num
  · refine l2.trans ?_; norm_num
  · rw [abs_lt]
    norm_num at l1 l2 ⊢
    constructor <;> linarith

theorem eq_G : rnd (1 + (1202586491795723 / 2 ^ 82)) = (1125899907122623 / 2 ^ 50) := by
  rw [rnd_eq 4503599628490492 (-52)] <;> norm_num [abs_lt]

theorem eq_uu : rnd ((1080641106801777 / 2 ^ 77) * (1080641106801777 / 2 ^ 77)) = (8297612920030201 / 2 ^ 107) := by
  rw [rnd_eq 8297612920030201 (-107)] <;> norm_num [abs_lt]

theorem eq_uum : rnd ((8297612920030201 / 2 ^ 107) - 1) = -1 := by
  rw [← neg_sub, rnd_opp, rnd_eq 9007199254740992 (-53)] <;> norm_num [abs_lt]

theorem eq_ua : rnd ((1080641106801777 / 2 ^ 77)) = (1080641106801777 / 2 ^ 77) := by
  rw [rnd_eq 8645128854414216 (-80)] <;> norm_num [abs_lt]

theorem eq_ua2 : rnd ((1080641106801777 / 2 ^ 78)) = (1080641106801777 / 2 ^ 78) := by
  rw [rnd_eq 8645128854414216 (-81)] <;> norm_num [abs_lt]

theorem eq_uwA : rnd ((1080641106801777 / 2 ^ 77) * (1080641106801777 / 2 ^ 78)) = (8297612920030201 / 2 ^ 108) := by
  rw [rnd_eq 8297612920030201 (-108)] <;> norm_num [abs_lt]

theorem eq_tvA : rnd (1 / 4 + (6089191226617789 / 2 ^ 121)) = (1 / 2 ^ 2) := by
  rw [rnd_eq 4503599627370496 (-54)] <;> norm_num [abs_lt]

theorem eq_mA : rnd (1 / 2 + (8297612920030201 / 2 ^ 108)) = (1 / 2 ^ 1) := by
  rw [rnd_eq 4503599627370496 (-53)] <;> norm_num [abs_lt]

theorem eq_sq2 : rnd ((8158905360736619 / 2 ^ 33)) = (8158905360736619 / 2 ^ 33) := by
  rw [rnd_eq 8158905360736619 (-33)] <;> norm_num [abs_lt]

theorem eq_dA : rnd ((8158905360736619 / 2 ^ 33) * (1080641106801777 / 2 ^ 78)) = (1957733646155673 / 2 ^ 59) := by
  rw [rnd_eq 7830934584622692 (-61)] <;> norm_num [abs_lt]

theorem eq_TB2 : rnd (2 * (4503599627370497 / 2 ^ 53)) = (4503599627370497 / 2 ^ 52) := by
  rw [rnd_eq 4503599627370497 (-52)] <;> norm_num [abs_lt]

theorem eq_c2B : rnd (-1 + (4503599627370497 / 2 ^ 52)) = (1 / 2 ^ 52) := by
  rw [rnd_eq 4503599627370496 (-104)] <;> norm_num [abs_lt]

theorem eq_cB : rnd √(1 / 2 ^ 52) = (1 / 2 ^ 26) := by
  rw [show (1 : ℝ) / 2 ^ 52 = (1 / 2 ^ 26) ^ 2 by norm_num, Real.sqrt_sq (by norm_num), rnd_eq 4503599627370496 (-78)] <;> norm_num [abs_lt]

theorem eq_w1 : rnd ((1 / 2 ^ 26) - (1080641106801777 / 2 ^ 77)) = (1171158706883471 / 2 ^ 77) := by
  rw [rnd_eq 4684634827533884 (-79)] <;> norm_num [abs_lt]

theorem eq_w : rnd ((1171158706883471 / 2 ^ 77) / 2) = (1171158706883471 / 2 ^ 78) := by
  rw [rnd_eq 4684634827533884 (-80)] <;> norm_num [abs_lt]

theorem eq_uwB : rnd ((1080641106801777 / 2 ^ 77) * (1171158706883471 / 2 ^ 78)) = (8992644788798231 / 2 ^ 108) := by
  rw [rnd_eq 8992644788798231 (-108)] <;> norm_num [abs_lt]

theorem eq_ttB : rnd ((4503599627370497 / 2 ^ 53) * (4503599627370497 / 2 ^ 53)) = (2251799813685249 / 2 ^ 53) := by
  rw [rnd_eq 4503599627370498 (-54)] <;> norm_num [abs_lt]

theorem eq_tvB : rnd ((2251799813685249 / 2 ^ 53) + (6089191226617789 / 2 ^ 121)) = (2251799813685249 / 2 ^ 53) := by
  rw [rnd_eq 4503599627370498 (-54)] <;> norm_num [abs_lt]

theorem eq_stB : rnd √(2251799813685249 / 2 ^ 53) = (4503599627370497 / 2 ^ 53) := by
  have l1 : (4503599627370497 - 49 / 100) * 2 ^ (-53 : ℤ) < √((2251799813685249 / 2 ^ 53) : ℝ) := Real.lt_sqrt_of_sq_lt (by norm_num)
  have l2 : √((2251799813685249 / 2 ^ 53) : ℝ) < (4503599627370497 + 49 / 100) * 2 ^ (-53 : ℤ) := (Real.sqrt_lt' (by norm_num)).mpr (by norm_num)
  rw [rnd_eq 4503599627370497 (-53)]
  · norm_num
  · refine le_trans ?_ l1.le; norm_num
  · refine l2.trans ?_; norm_num
  · rw [abs_lt]
    norm_num at l1 l2 ⊢
    constructor <;> linarith

theorem eq_mB : rnd ((4503599627370497 / 2 ^ 53) - (8992644788798231 / 2 ^ 108)) = (4503599627370497 / 2 ^ 53) := by
  rw [rnd_eq 4503599627370497 (-53)] <;> norm_num [abs_lt]

theorem eq_hB : rnd ((4503599627370497 / 2 ^ 53) / 2) = (4503599627370497 / 2 ^ 54) := by
  rw [rnd_eq 4503599627370497 (-54)] <;> norm_num [abs_lt]

theorem eq_b1B : rnd ((4503599627370497 / 2 ^ 53) - (4503599627370497 / 2 ^ 54)) = (4503599627370497 / 2 ^ 54) := by
  rw [rnd_eq 4503599627370497 (-54)] <;> norm_num [abs_lt]

theorem eq_bB : rnd ((4503599627370497 / 2 ^ 54) - 0.25) = (1 / 2 ^ 54) := by
  rw [rnd_eq 4503599627370496 (-106)] <;> norm_num [abs_lt]

theorem eq_sbB : rnd √(1 / 2 ^ 54) = (1 / 2 ^ 27) := by
  rw [show (1 : ℝ) / 2 ^ 54 = (1 / 2 ^ 27) ^ 2 by norm_num, Real.sqrt_sq (by norm_num), rnd_eq 4503599627370496 (-79)] <;> norm_num [abs_lt]

theorem eq_agB : rnd ((1171158706883471 / 2 ^ 78) + (1 / 2 ^ 27)) = (3422958520568719 / 2 ^ 78) := by
  rw [rnd_eq 6845917041137438 (-79)] <;> norm_num [abs_lt]

theorem eq_dB : rnd ((8158905360736619 / 2 ^ 33) * (3422958520568719 / 2 ^ 78)) = (3100585857290473 / 2 ^ 58) := by
  rw [rnd_eq 6201171714580946 (-59)] <;> norm_num [abs_lt]


theorem rnd_quarter : rnd (1 / 4) = 1 / 4 := by rw [rnd_eq 4503599627370496 (-54)] <;> norm_num [abs_lt]

theorem rnd_equator_half : rnd (1 / 2) = 1 / 2 := isDouble_half

/-- the foot of the perpendicular when `t` is one half: south of the equator -/
theorem foot_south :
    rnd (rnd (1 * (8158905360736619 / 2 ^ 33)) *
      rnd (rnd (rnd (rnd √(rnd (-1 + rnd (2 * (1 / 2)))) - 1080641106801777 / 2 ^ 77) / 2) +
        rnd √(if rnd (rnd (rnd (rnd √(rnd (rnd (1 / 2 * (1 / 2)) + 6089191226617789 / 2 ^ 121)) -
          rnd (1080641106801777 / 2 ^ 77 * rnd (rnd (rnd √(rnd (-1 + rnd (2 * (1 / 2)))) - 1080641106801777 / 2 ^ 77) / 2))) -
            rnd (1 / 2 / 2)) - 0.25) < 0 then 0 else
          rnd (rnd (rnd (rnd √(rnd (rnd (1 / 2 * (1 / 2)) + 6089191226617789 / 2 ^ 121)) -
          rnd (1080641106801777 / 2 ^ 77 * rnd (rnd (rnd √(rnd (-1 + rnd (2 * (1 / 2)))) - 1080641106801777 / 2 ^ 77) / 2))) -
            rnd (1 / 2 / 2)) - 0.25)))) = -(1957733646155673 / 2 ^ 59) := by
  have e1 : rnd (2 * (1 / 2)) = 1 := by
    rw [show (2 : ℝ) * (1 / 2) = 1 by norm_num]; exact isDouble_one
  have e2 : rnd (rnd (rnd √(rnd (-1 + rnd (2 * (1 / 2)))) - 1080641106801777 / 2 ^ 77) / 2) =
      -(1080641106801777 / 2 ^ 78) := by
    rw [e1, show (-1 : ℝ) + 1 = 0 by norm_num, rnd_zero, Real.sqrt_zero, rnd_zero, zero_sub, rnd_opp, eq_ua,
      show -((1080641106801777 : ℝ) / 2 ^ 77) / 2 = -(1080641106801777 / 2 ^ 78) by norm_num, rnd_opp, eq_ua2]
  have e3 : rnd √(rnd (rnd (1 / 2 * (1 / 2)) + 6089191226617789 / 2 ^ 121)) = 1 / 2 := by
    rw [show (1 : ℝ) / 2 * (1 / 2) = 1 / 4 by norm_num, rnd_quarter, eq_tvA, show (1 : ℝ) / 2 ^ 2 = (1 / 2) ^ 2 by norm_num,
      Real.sqrt_sq (by norm_num), rnd_equator_half]
  have e4 : rnd (1 / 2 / 2) = 1 / 4 := by rw [show (1 : ℝ) / 2 / 2 = 1 / 4 by norm_num, rnd_quarter]
  rw [e2, e3, e4, mul_neg, rnd_opp, eq_uwA, sub_neg_eq_add, eq_mA, show (1 : ℝ) / 2 ^ 1 - 1 / 4 = 1 / 4 by norm_num,
    rnd_quarter, show (1 : ℝ) / 4 - 0.25 = 0 by norm_num, rnd_zero, if_neg (lt_irrefl 0), Real.sqrt_zero, rnd_zero,
    add_zero, rnd_opp, eq_ua2, one_mul, eq_sq2, mul_neg, rnd_opp, eq_dA]

/-- the foot of the perpendicular when `t` is the next double: too far north -/
theorem foot_north :
    rnd (rnd (1 * (8158905360736619 / 2 ^ 33)) *
      rnd (rnd (rnd (rnd √(rnd (-1 + rnd (2 * (4503599627370497 / 2 ^ 53)))) - 1080641106801777 / 2 ^ 77) / 2) +
        rnd √(if rnd (rnd (rnd (rnd √(rnd (rnd (4503599627370497 / 2 ^ 53 * (4503599627370497 / 2 ^ 53)) + 6089191226617789 / 2 ^ 121)) -
          rnd (1080641106801777 / 2 ^ 77 * rnd (rnd (rnd √(rnd (-1 + rnd (2 * (4503599627370497 / 2 ^ 53)))) - 1080641106801777 / 2 ^ 77) / 2))) -
            rnd (4503599627370497 / 2 ^ 53 / 2)) - 0.25) < 0 then 0 else
          rnd (rnd (rnd (rnd √(rnd (rnd (4503599627370497 / 2 ^ 53 * (4503599627370497 / 2 ^ 53)) + 6089191226617789 / 2 ^ 121)) -
          rnd (1080641106801777 / 2 ^ 77 * rnd (rnd (rnd √(rnd (-1 + rnd (2 * (4503599627370497 / 2 ^ 53)))) - 1080641106801777 / 2 ^ 77) / 2))) -
            rnd (4503599627370497 / 2 ^ 53 / 2)) - 0.25)))) = 3100585857290473 / 2 ^ 58 := by
  have e2 : rnd (rnd (rnd √(rnd (-1 + rnd (2 * (4503599627370497 / 2 ^ 53)))) - 1080641106801777 / 2 ^ 77) / 2) =
      1171158706883471 / 2 ^ 78 := by
    rw [eq_TB2, eq_c2B, eq_cB, eq_w1, eq_w]
  rw [e2, eq_ttB, eq_tvB, eq_stB, eq_uwB, eq_mB, eq_hB, eq_b1B, eq_bB, if_neg (by norm_num), eq_sbB, eq_agB, one_mul,
    eq_sq2, eq_dB]

/-- the foot the program finds, for every accurate power function -/
theorem equator_foot {lib : Libm} (hlib : PowAccurate lib) :
    (footHeight lib 6380 (3 / 2 ^ 16) = .ok (-(1957733646155673 / 2 ^ 59)) ∧
      rnd (rnd (rnd (1 + lib.pow (1125899907122623 / 2 ^ 50) (rnd (2 / 3))) +
        rnd (1 / lib.pow (1125899907122623 / 2 ^ 50) (rnd (2 / 3)))) / 6) = 1 / 2) ∨
    (footHeight lib 6380 (3 / 2 ^ 16) = .ok (3100585857290473 / 2 ^ 58) ∧
      rnd (rnd (rnd (1 + lib.pow (1125899907122623 / 2 ^ 50) (rnd (2 / 3))) +
        rnd (1 / lib.pow (1125899907122623 / 2 ^ 50) (rnd (2 / 3)))) / 6) = 1 / 2 + 1 / 2 ^ 53) := by
  have hp : (1957733646155673 / 2 ^ 58 : ℝ) = rnd (|(3 : ℝ) / 2 ^ 16| / geoEps2) := by
    rw [abs_of_pos (by norm_num), geoEps2_value, eq_p]
  have hs : (3695417210665675 / 2 ^ 12 : ℝ) = rnd (rnd (6380 * 6380) / rnd (geoE2 * geoEps2)) := by
    have h : rnd (6380 * 6380) = 40704400 := by
      have := rnd_int 40704400 (by norm_num)
      norm_num at this ⊢
      exact this
    rw [h, geoEps2_value, geoE2_value, eq_ee, eq_s]
  have hq : (7390503396537877 / 2 ^ 13 : ℝ) =
      rnd (rnd (rnd (1957733646155673 / 2 ^ 58 * (1957733646155673 / 2 ^ 58)) - geoB2) + 3695417210665675 / 2 ^ 12) := by
    rw [eq_pp, geoB2_value, eq_q1, eq_q]
  have hu : (1080641106801777 / 2 ^ 77 : ℝ) = rnd (1957733646155673 / 2 ^ 58 / rnd √(7390503396537877 / 2 ^ 13)) := by
    rw [eq_sq, eq_u]
  have hv : (6089191226617789 / 2 ^ 121 : ℝ) = rnd (rnd (rnd (geoB2 * (1080641106801777 / 2 ^ 77)) *
      (1080641106801777 / 2 ^ 77)) / (7390503396537877 / 2 ^ 13)) := by
    rw [geoB2_value, eq_b2u, eq_b2uu, eq_v]
  have hP : (2568992610196021 / 2 ^ 115 : ℝ) = rnd (rnd (rnd (27 * (6089191226617789 / 2 ^ 121)) *
      (3695417210665675 / 2 ^ 12)) / (7390503396537877 / 2 ^ 13)) := by
    rw [eq_v27, eq_v27s, eq_P]
  have hG : rnd (rnd √(rnd (2568992610196021 / 2 ^ 115 + 1)) + rnd √(2568992610196021 / 2 ^ 115)) =
      1125899907122623 / 2 ^ 50 := by
    rw [eq_P1, Real.sqrt_one, isDouble_one, eq_sp, eq_G]
  have key := footHeight_value (lib := lib) (fun x y => (isDouble_iff _).mpr (hlib.double x y)) hlib.above hp hs hq hu hv hP rfl rfl rfl rfl (by norm_num)
  have h1 := key.2.2.2.2.1
  replace key := key.1
  rw [hG] at key h1
  have sg : pySign (3 / 2 ^ 16) = 1 := by unfold pySign; norm_num
  rw [eq_uu, eq_uum, sg, eq_sq] at key
  have h2 : lib.pow (1125899907122623 / 2 ^ 50) (rnd (2 / 3)) ≤ 1 + 1 / 10 ^ 9 := by
    have c1 := hlib.close (1125899907122623 / 2 ^ 50) (rnd (2 / 3)) (by norm_num)
    have c2 : (1125899907122623 / 2 ^ 50 : ℝ) ^ rnd (2 / 3) ≤ 1125899907122623 / 2 ^ 50 :=
      Real.rpow_le_self_of_one_le (by norm_num) third_bounds.2
    have c3 := (_root_.abs_le.mp c1).2
    norm_num at c2 c3 ⊢
    linarith
  rcases t_half ((isDouble_iff _).mpr (hlib.double _ _)) h1 h2 with h | h
  · left
    refine ⟨?_, h⟩
    rw [key, h, foot_south]
  · right
    refine ⟨?_, h⟩
    rw [h, show (1 : ℝ) / 2 + 1 / 2 ^ 53 = 4503599627370497 / 2 ^ 53 by norm_num, foot_north] at key
    exact key

theorem third_value : rnd (2 / 3) = 6004799503160661 / 2 ^ 53 := by
  rw [rnd_eq 6004799503160661 (-53)] <;> norm_num [abs_lt]

/-- the correctly rounded power is not distinguished from one by `t` -/
theorem equator_power :
    rnd (rnd (rnd (1 + rnd ((1125899907122623 / 2 ^ 50 : ℝ) ^ rnd (2 / 3))) +
      rnd (1 / rnd ((1125899907122623 / 2 ^ 50 : ℝ) ^ rnd (2 / 3)))) / 6) = 1 / 2 := by
  have hQ : rnd ((1125899907122623 / 2 ^ 50 : ℝ) ^ rnd (2 / 3)) = 4503599628117160 / 2 ^ 52 := by
    have g : (1125899907122623 / 2 ^ 50 : ℝ) = 1 + 279999 / 2 ^ 50 := by norm_num
    have e1 : (1125899907122623 / 2 ^ 50 : ℝ) ^ rnd (2 / 3) ≤ 1 + 6004799503160661 / 2 ^ 53 * (279999 / 2 ^ 50) := by
      rw [g, third_value]
      exact rpow_one_add_le_one_add_mul_self (by norm_num) (by norm_num) (by norm_num)
    have e2 : (1125899907122623 / 2 ^ 50 : ℝ) ^ (1 - rnd (2 / 3)) ≤ 1 + (1 - 6004799503160661 / 2 ^ 53) * (279999 / 2 ^ 50) := by
      rw [g, third_value]
      exact rpow_one_add_le_one_add_mul_self (by norm_num) (by norm_num) (by norm_num)
    have e3 : (1125899907122623 / 2 ^ 50 : ℝ) ^ rnd (2 / 3) * (1125899907122623 / 2 ^ 50 : ℝ) ^ (1 - rnd (2 / 3)) =
        1125899907122623 / 2 ^ 50 := by
      rw [← Real.rpow_add (by norm_num), show rnd (2 / 3) + (1 - rnd (2 / 3)) = 1 by ring, Real.rpow_one]
    have p0 : 0 < (1125899907122623 / 2 ^ 50 : ℝ) ^ rnd (2 / 3) := Real.rpow_pos_of_pos (by norm_num) _
    generalize (1125899907122623 / 2 ^ 50 : ℝ) ^ rnd (2 / 3) = A at *
    generalize (1125899907122623 / 2 ^ 50 : ℝ) ^ (1 - rnd (2 / 3)) = B at *
    have e4 : (1125899907122623 / 2 ^ 50 : ℝ) ≤ A * (1 + (1 - 6004799503160661 / 2 ^ 53) * (279999 / 2 ^ 50)) := by
      rw [← e3]; gcongr
    rw [← div_le_iff₀ (by norm_num)] at e4
    rw [rnd_eq 4503599628117160 (-52)]
    · norm_num
    · norm_num at e4 ⊢; linarith
    · norm_num at e1 ⊢; linarith
    · rw [abs_lt]; norm_num at e1 e4 ⊢; constructor <;> linarith
  have a1 : rnd (1 + 4503599628117160 / 2 ^ 52) = 9007199255487656 / 2 ^ 52 := by
    rw [rnd_eq 4503599627743828 (-51)] <;> norm_num [abs_lt]
  have a2 : rnd (1 / (4503599628117160 / 2 ^ 52)) = 4503599626623832 / 2 ^ 52 := by
    rw [rnd_eq 9007199253247664 (-53)] <;> norm_num [abs_lt]
  have a3 : rnd (9007199255487656 / 2 ^ 52 + 4503599626623832 / 2 ^ 52) = 3 := by
    rw [rnd_eq 6755399441055744 (-51)] <;> norm_num [abs_lt]
  rw [hQ, a1, a2, a3, show (3 : ℝ) / 6 = 1 / 2 by norm_num, rnd_equator_half]

end Openspace.F64
