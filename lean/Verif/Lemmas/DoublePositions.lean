import Verif.Lemmas.DoubleElements
import Verif.Model.DoublePositions

/-!
# Geodetic coordinates in double precision: the constants, and a position above the pole
-/

namespace Openspace.F64

theorem geoA_value : geoA = 7012835795048333 / 2 ^ 40 := by
  rw [geoA]
  rw [rnd_eq 7012835795048333 (-40)] <;> norm_num [abs_lt, Earth.RADIUS]

theorem ratio_value : rnd 298.2572235 = 1311749141225741 / 2 ^ 42 := by
  rw [rnd_eq 5246996564902964 (-44)] <;> norm_num [abs_lt, Earth.RADIUS]

theorem geoF_value : geoF = 966381879269763 / 2 ^ 58 := by
  rw [geoF, ratio_value]
  rw [rnd_eq 7731055034158104 (-61)] <;> norm_num [abs_lt, Earth.RADIUS]

theorem geoA2_value : geoA2 = 682507743214755 / 2 ^ 24 := by
  rw [geoA2, geoA_value]
  rw [rnd_eq 5460061945718040 (-27)] <;> norm_num [abs_lt, Earth.RADIUS]

theorem geoFA_value : rnd ((966381879269763 / 2 ^ 58) * (7012835795048333 / 2 ^ 40)) = 6019253926074227 / 2 ^ 48 := by
  rw [rnd_eq 6019253926074227 (-48)] <;> norm_num [abs_lt, Earth.RADIUS]

theorem geoB_value : geoB = 3494661542199803 / 2 ^ 39 := by
  rw [geoB, geoF_value, geoA_value, geoFA_value]
  rw [rnd_eq 6989323084399606 (-40)] <;> norm_num [abs_lt, Earth.RADIUS]

theorem geoB2_value : geoB2 = 2711755108137993 / 2 ^ 26 := by
  rw [geoB2, geoB_value]
  rw [rnd_eq 5423510216275986 (-27)] <;> norm_num [abs_lt, Earth.RADIUS]

theorem geoR_value : rnd ((2711755108137993 / 2 ^ 26) / (682507743214755 / 2 ^ 24)) = 2236725410067531 / 2 ^ 51 := by
  rw [rnd_eq 8946901640270124 (-53)] <;> norm_num [abs_lt, Earth.RADIUS]

theorem geoE2_value : geoE2 = 15074403617717 / 2 ^ 51 := by
  rw [geoE2, geoB2_value, geoA2_value, geoR_value]
  rw [rnd_eq 7718094652271104 (-60)] <;> norm_num [abs_lt, Earth.RADIUS]

theorem geoR2_value : rnd ((682507743214755 / 2 ^ 24) / (2711755108137993 / 2 ^ 26)) = 566743952799265 / 2 ^ 49 := by
  rw [rnd_eq 4533951622394120 (-52)] <;> norm_num [abs_lt, Earth.RADIUS]

theorem geoEps2_value : geoEps2 = 3793999377953 / 2 ^ 49 := by
  rw [geoEps2, geoA2_value, geoB2_value, geoR2_value]
  rw [rnd_eq 7770110726047744 (-60)] <;> norm_num [abs_lt, Earth.RADIUS]

/-! ## 6358 km on the polar axis -/

theorem pole_p : rnd (6358 / (3793999377953 / 2 ^ 49)) = 126620183535337 / 2 ^ 27 := by
  rw [rnd_eq 8103691746261568 (-33)] <;> norm_num [abs_lt, Earth.RADIUS]

theorem pole_pp : rnd ((126620183535337 / 2 ^ 27) * (126620183535337 / 2 ^ 27)) = 7290814609642633 / 2 ^ 13 := by
  rw [rnd_eq 7290814609642633 (-13)] <;> norm_num [abs_lt, Earth.RADIUS]

theorem pole_q : rnd ((7290814609642633 / 2 ^ 13) - (2711755108137993 / 2 ^ 26)) = 7290483584849159 / 2 ^ 13 := by
  rw [rnd_eq 7290483584849159 (-13)] <;> norm_num [abs_lt, Earth.RADIUS]

theorem pole_q2 : rnd ((7290483584849159 / 2 ^ 13)) = 7290483584849159 / 2 ^ 13 := by
  rw [rnd_eq 7290483584849159 (-13)] <;> norm_num [abs_lt, Earth.RADIUS]

theorem pole_sq : rnd √(7290483584849159 / 2 ^ 13) = 4051753889124893 / 2 ^ 32 := by
  have l1 : (8103507778249786 - 49 / 100) * 2 ^ (-33 : ℤ) < √(7290483584849159 / 2 ^ 13 : ℝ) := Real.lt_sqrt_of_sq_lt (by norm_num)
  have l2 : √(7290483584849159 / 2 ^ 13 : ℝ) < (8103507778249786 + 49 / 100) * 2 ^ (-33 : ℤ) := (Real.sqrt_lt' (by norm_num)).mpr (by norm_num)
  rw [rnd_eq 8103507778249786 (-33)]
  · norm_num
  · refine le_trans ?_ l1.le; norm_num
  · refine l2.trans ?_; norm_num
  · rw [abs_lt]
    norm_num at l1 l2 ⊢
    constructor <;> linarith

theorem pole_u : rnd ((126620183535337 / 2 ^ 27) / (4051753889124893 / 2 ^ 32)) = 281481366831237 / 2 ^ 48 := by
  rw [rnd_eq 4503701869299792 (-52)] <;> norm_num [abs_lt, Earth.RADIUS]

theorem pole_b2u : rnd ((2711755108137993 / 2 ^ 26) * (281481366831237 / 2 ^ 48)) = 5423633342262741 / 2 ^ 27 := by
  rw [rnd_eq 5423633342262741 (-27)] <;> norm_num [abs_lt, Earth.RADIUS]

theorem pole_b2uu : rnd ((5423633342262741 / 2 ^ 27) * (281481366831237 / 2 ^ 48)) = 5423756471044735 / 2 ^ 27 := by
  rw [rnd_eq 5423756471044735 (-27)] <;> norm_num [abs_lt, Earth.RADIUS]

theorem pole_v : rnd ((5423756471044735 / 2 ^ 27) / (7290483584849159 / 2 ^ 13)) = 6700907378135403 / 2 ^ 67 := by
  rw [rnd_eq 6700907378135403 (-67)] <;> norm_num [abs_lt, Earth.RADIUS]

theorem pole_uu : rnd ((281481366831237 / 2 ^ 48) * (281481366831237 / 2 ^ 48)) = 1125951028387553 / 2 ^ 50 := by
  rw [rnd_eq 4503804113550212 (-52)] <;> norm_num [abs_lt, Earth.RADIUS]

theorem pole_uum : rnd ((1125951028387553 / 2 ^ 50) - 1) = 51121544929 / 2 ^ 50 := by
  rw [rnd_eq 6700603136933888 (-67)] <;> norm_num [abs_lt, Earth.RADIUS]

theorem pole_c2 : rnd ((51121544929 / 2 ^ 50) + 1) = 1125951028387553 / 2 ^ 50 := by
  rw [rnd_eq 4503804113550212 (-52)] <;> norm_num [abs_lt, Earth.RADIUS]

theorem pole_c : rnd √(1125951028387553 / 2 ^ 50) = 281481366831237 / 2 ^ 48 := by
  have l1 : (4503701869299792 - 49 / 100) * 2 ^ (-52 : ℤ) < √(1125951028387553 / 2 ^ 50 : ℝ) := Real.lt_sqrt_of_sq_lt (by norm_num)
  have l2 : √(1125951028387553 / 2 ^ 50 : ℝ) < (4503701869299792 + 49 / 100) * 2 ^ (-52 : ℤ) := (Real.sqrt_lt' (by norm_num)).mpr (by norm_num)
  rw [rnd_eq 4503701869299792 (-52)]
  · norm_num
  · refine le_trans ?_ l1.le; norm_num
  · refine l2.trans ?_; norm_num
  · rw [abs_lt]
    norm_num at l1 l2 ⊢
    constructor <;> linarith

theorem pole_tv : rnd (1 / 4 + (6700907378135403 / 2 ^ 67)) = 4504417609228179 / 2 ^ 54 := by
  rw [rnd_eq 4504417609228179 (-54)] <;> norm_num [abs_lt, Earth.RADIUS]

theorem pole_st : rnd √(4504417609228179 / 2 ^ 54) = 2252004299864963 / 2 ^ 52 := by
  have l1 : (4504008599729926 - 49 / 100) * 2 ^ (-53 : ℤ) < √(4504417609228179 / 2 ^ 54 : ℝ) := Real.lt_sqrt_of_sq_lt (by norm_num)
  have l2 : √(4504417609228179 / 2 ^ 54 : ℝ) < (4504008599729926 + 49 / 100) * 2 ^ (-53 : ℤ) := (Real.sqrt_lt' (by norm_num)).mpr (by norm_num)
  rw [rnd_eq 4504008599729926 (-53)]
  · norm_num
  · refine le_trans ?_ l1.le; norm_num
  · refine l2.trans ?_; norm_num
  · rw [abs_lt]
    norm_num at l1 l2 ⊢
    constructor <;> linarith

theorem pole_st2 : rnd ((2252004299864963 / 2 ^ 52)) = 2252004299864963 / 2 ^ 52 := by
  rw [rnd_eq 4504008599729926 (-53)] <;> norm_num [abs_lt, Earth.RADIUS]

theorem pole_b1 : rnd ((2252004299864963 / 2 ^ 52) - 1 / 4) = 1126104393022339 / 2 ^ 52 := by
  rw [rnd_eq 4504417572089356 (-54)] <;> norm_num [abs_lt, Earth.RADIUS]

theorem pole_base : rnd ((1126104393022339 / 2 ^ 52) - 0.25) = 204486179715 / 2 ^ 52 := by
  rw [rnd_eq 6700603136901120 (-67)] <;> norm_num [abs_lt, Earth.RADIUS]

theorem pole_sb : rnd √(204486179715 / 2 ^ 52) = 3884381147010773 / 2 ^ 59 := by
  have l1 : (7768762294021546 - 49 / 100) * 2 ^ (-60 : ℤ) < √(204486179715 / 2 ^ 52 : ℝ) := Real.lt_sqrt_of_sq_lt (by norm_num)
  have l2 : √(204486179715 / 2 ^ 52 : ℝ) < (7768762294021546 + 49 / 100) * 2 ^ (-60 : ℤ) := (Real.sqrt_lt' (by norm_num)).mpr (by norm_num)
  rw [rnd_eq 7768762294021546 (-60)]
  · norm_num
  · refine le_trans ?_ l1.le; norm_num
  · refine l2.trans ?_; norm_num
  · rw [abs_lt]
    norm_num at l1 l2 ⊢
    constructor <;> linarith

theorem pole_sb2 : rnd ((3884381147010773 / 2 ^ 59)) = 3884381147010773 / 2 ^ 59 := by
  rw [rnd_eq 7768762294021546 (-60)] <;> norm_num [abs_lt, Earth.RADIUS]

theorem pole_sq2 : rnd ((4051753889124893 / 2 ^ 32)) = 4051753889124893 / 2 ^ 32 := by
  rw [rnd_eq 8103507778249786 (-33)] <;> norm_num [abs_lt, Earth.RADIUS]

theorem pole_d : rnd ((4051753889124893 / 2 ^ 32) * (3884381147010773 / 2 ^ 59)) = 6989323084402837 / 2 ^ 40 := by
  rw [rnd_eq 6989323084402837 (-40)] <;> norm_num [abs_lt, Earth.RADIUS]

theorem pole_ed : rnd ((3793999377953 / 2 ^ 49) * (6989323084402837 / 2 ^ 40)) = 6029378581510379 / 2 ^ 47 := by
  rw [rnd_eq 6029378581510379 (-47)] <;> norm_num [abs_lt, Earth.RADIUS]

theorem pole_edd : rnd ((6029378581510379 / 2 ^ 47) * (6989323084402837 / 2 ^ 40)) = 1169655342146817 / 2 ^ 32 := by
  rw [rnd_eq 4678621368587268 (-34)] <;> norm_num [abs_lt, Earth.RADIUS]

theorem pole_eddb : rnd ((1169655342146817 / 2 ^ 32) / (2711755108137993 / 2 ^ 26)) = 485631920378433 / 2 ^ 56 := by
  rw [rnd_eq 7770110726054928 (-60)] <;> norm_num [abs_lt, Earth.RADIUS]

theorem pole_o : rnd (1 + (485631920378433 / 2 ^ 56)) = 1133487905598537 / 2 ^ 50 := by
  rw [rnd_eq 4533951622394148 (-52)] <;> norm_num [abs_lt, Earth.RADIUS]

theorem pole_sn : rnd √(1133487905598537 / 2 ^ 50) = 4518750141037911 / 2 ^ 52 := by
  have l1 : (4518750141037911 - 49 / 100) * 2 ^ (-52 : ℤ) < √(1133487905598537 / 2 ^ 50 : ℝ) := Real.lt_sqrt_of_sq_lt (by norm_num)
  have l2 : √(1133487905598537 / 2 ^ 50 : ℝ) < (4518750141037911 + 49 / 100) * 2 ^ (-52 : ℤ) := (Real.sqrt_lt' (by norm_num)).mpr (by norm_num)
  rw [rnd_eq 4518750141037911 (-52)]
  · norm_num
  · refine le_trans ?_ l1.le; norm_num
  · refine l2.trans ?_; norm_num
  · rw [abs_lt]
    norm_num at l1 l2 ⊢
    constructor <;> linarith

theorem pole_n : rnd ((7012835795048333 / 2 ^ 40) * (4518750141037911 / 2 ^ 52)) = 879553450570957 / 2 ^ 37 := by
  rw [rnd_eq 7036427604567656 (-40)] <;> norm_num [abs_lt, Earth.RADIUS]

theorem pole_dn : rnd ((6989323084402837 / 2 ^ 40) / (879553450570957 / 2 ^ 37)) = 1118362705034279 / 2 ^ 50 := by
  rw [rnd_eq 8946901640274232 (-53)] <;> norm_num [abs_lt, Earth.RADIUS]

theorem pole_e1 : rnd ((3793999377953 / 2 ^ 49) + 1) = 566743952799265 / 2 ^ 49 := by
  rw [rnd_eq 4533951622394120 (-52)] <;> norm_num [abs_lt, Earth.RADIUS]

theorem pole_A : rnd ((566743952799265 / 2 ^ 49) * (1118362705034279 / 2 ^ 50)) = 1125899906843141 / 2 ^ 50 := by
  rw [rnd_eq 4503599627372564 (-52)] <;> norm_num [abs_lt, Earth.RADIUS]

theorem pole_foot (lib : Libm) (hlib : lib.pow 1 (rnd (2 / 3)) = 1) :
    footHeight lib 0 6358 = .ok (6989323084402837 / 2 ^ 40) := by
  have i0 : rnd 1 = 1 := by simpa using rnd_exact 1 0 (by norm_num)
  have i1 : rnd (1 + 1) = 2 := by
    have := rnd_exact 2 0 (by norm_num); norm_num at this ⊢; exact this
  have i2 : rnd (2 + 1) = 3 := by
    have := rnd_exact 3 0 (by norm_num); norm_num at this ⊢; exact this
  have i3 : rnd (3 / 6) = 1 / 2 := by
    have := rnd_exact 1 (-1) (by norm_num); norm_num at this ⊢; exact this
  have i4 : rnd (2 * (1 / 2)) = 1 := by rw [show (2 : ℝ) * (1 / 2) = 1 by norm_num, i0]
  have i5 : rnd (1 / 2 * (1 / 2)) = 1 / 4 := by
    have := rnd_exact 1 (-2) (by norm_num); norm_num at this ⊢; exact this
  have i6 : rnd (1 / 2 / 2) = 1 / 4 := by
    have := rnd_exact 1 (-2) (by norm_num); norm_num at this ⊢; exact this
  have h1 : pySign 6358 = 1 := by norm_num [pySign]
  have h2 : |(6358 : ℝ)| = 6358 := by norm_num
  have h3 : ¬ ((204486179715 / 2 ^ 52 : ℝ) < 0) := by norm_num
  rw [footHeight]
  simp only [h1, h2, geoEps2_value, geoB2_value, pole_p, pole_pp, pole_q, mul_zero, rnd_zero, zero_div, add_zero,
    pole_q2]
  rw [sqrt_ok (by norm_num), pole_sq, ok_bind, div_ok (by norm_num), pole_u, ok_bind, pole_b2u, pole_b2uu,
    div_ok (by norm_num), pole_v, ok_bind, div_ok (by norm_num), zero_div, rnd_zero, ok_bind, zero_add, i0,
    sqrt_ok (by norm_num), Real.sqrt_one, i0, ok_bind, sqrt_ok le_rfl, Real.sqrt_zero, rnd_zero, ok_bind, add_zero, i0,
    pow23, if_neg (by norm_num), hlib, ok_bind, div_ok (by norm_num), div_one, i0, ok_bind, i1, i2, i3, i4, i5, i6,
    pole_uu, pole_uum, pole_c2, sqrt_ok (by norm_num), pole_c, ok_bind, sub_self, rnd_zero, zero_div, rnd_zero, mul_zero,
    rnd_zero, pole_tv, sqrt_ok (by norm_num), pole_st, ok_bind, sub_zero, pole_st2, pole_b1, pole_base, if_neg h3,
    sqrt_ok (by norm_num), pole_sb, ok_bind, zero_add, pole_sb2, one_mul, pole_sq2, pole_d]
  rfl

theorem pole_crash (lib : Libm) (hlib : lib.pow 1 (rnd (2 / 3)) = 1) :
    itrfToLla lib ⟨0, 0, 6358⟩ = .error .valueError := by
  have h : (1125899906843141 / 2 ^ 50 : ℝ) < -1 ∨ 1 < (1125899906843141 / 2 ^ 50 : ℝ) := by right; norm_num
  simp only [itrfToLla, mul_zero, rnd_zero, add_zero, sqrtNN, Real.sqrt_zero, pole_foot lib hlib, ok_bind]
  simp only [geoEps2_value, geoB2_value, geoA_value, pole_ed, pole_edd, pole_eddb, pole_o]
  rw [sqrt_ok (by norm_num), pole_sn, ok_bind, pole_n, div_ok (by norm_num), pole_dn, ok_bind, pole_e1, pole_A, asin,
    if_pos h, error_bind]

end Openspace.F64
