import Verif.Lemmas.DoubleElementAngles
import Verif.Lemmas.DoubleEquator
import Verif.Props.DoublePositions

/-!
# The errors of the geodetic coordinates in double precision
-/

namespace Openspace.F64

open Real

/-- the coordinates that are returned -/
theorem itrfToLla_value (lib : Libm) (pos : Vec3) {r d n a : ℝ}
    (hr : r = rnd √(rnd (rnd (pos.x * pos.x) + rnd (pos.y * pos.y)))) (hd : footHeight lib r pos.z = .ok d)
    (hn : n = rnd (geoA * rnd √(rnd (1 + rnd (rnd (rnd (geoEps2 * d) * d) / geoB2)))))
    (ha : a = rnd (rnd (geoEps2 + 1) * rnd (d / n))) (h : |a| ≤ 1) :
    itrfToLla lib pos = .ok ⟨lib.asin a, wrapNeg (lib.atan2 pos.y pos.x),
      rnd (rnd (rnd (r * lib.cos (lib.asin a)) + rnd (pos.z * lib.sin (lib.asin a))) - rnd (geoA2 / n))⟩ := by
  have n0 : 0 ≤ rnd (rnd (rnd (geoEps2 * d) * d) / geoB2) := by
    apply rnd_nonneg
    apply div_nonneg _ b2_pos.le
    apply rnd_nonneg
    rcases le_total 0 d with h | h
    · exact mul_nonneg (rnd_nonneg (mul_nonneg eps2_pos.le h)) h
    · rcases h.eq_or_lt with h | h
      · simp [h]
      · exact mul_nonneg_of_nonpos_of_nonpos (rnd_neg (mul_neg_of_pos_of_neg eps2_pos h)).le h.le
  have n1 : 0 < rnd (1 + rnd (rnd (rnd (geoEps2 * d) * d) / geoB2)) := rnd_pos (by linarith)
  have n2 : 0 < n := hn ▸ rnd_pos (mul_pos a_pos (rnd_pos (Real.sqrt_pos.mpr n1)))
  simp only [itrfToLla, sqrtNN, ← hr, hd, ok_bind]
  rw [sqrt_ok n1.le, ok_bind, ← hn, div_ok n2.ne', ok_bind, asin, ← ha]
  rw [_root_.abs_le] at h
  rw [if_neg (by push Not; exact h), ok_bind, div_ok n2.ne', ok_bind, pure_eq_ok, wrapNeg, mul_comm pi 2]

/-! ## the latitude as a function of the foot -/

theorem foot_sine_same {k a b : ℝ} (hk : 0 ≤ k) (ha : 0 ≤ a) (hb : 0 ≤ b) :
    |a / √(1 + k * a * a) - b / √(1 + k * b * b)| ≤ |a - b| := by
  have pa : 0 ≤ k * a * a := by positivity
  have pb : 0 ≤ k * b * b := by positivity
  have A1 : 1 ≤ √(1 + k * a * a) := Real.one_le_sqrt.mpr (by linarith)
  have B1 : 1 ≤ √(1 + k * b * b) := Real.one_le_sqrt.mpr (by linarith)
  have A2 := Real.mul_self_sqrt (show 0 ≤ 1 + k * a * a by linarith)
  have B2 := Real.mul_self_sqrt (show 0 ≤ 1 + k * b * b by linarith)
  generalize √(1 + k * a * a) = A at *
  generalize √(1 + k * b * b) = B at *
  have e1 : a / A - b / B = (a * B - b * A) / (A * B) := by field_simp
  have AB : 1 ≤ A * B := by nlinarith
  rw [e1, abs_div, abs_of_pos (show 0 < A * B by linarith), div_le_iff₀ (by linarith)]
  have e2 : |a * B - b * A| ≤ |a - b| := by
    rcases eq_or_lt_of_le (add_nonneg ha hb) with h | h
    · obtain rfl : a = 0 := by linarith
      obtain rfl : b = 0 := by linarith
      simp
    · have l1 : a + b ≤ a * B + b * A := by nlinarith
      have l2 : |a * B - b * A| * (a * B + b * A) = |a - b| * (a + b) := by
        have p1 := abs_of_pos (show 0 < a * B + b * A by linarith)
        have p2 := abs_of_pos h
        rw [← p1, ← p2, ← abs_mul, ← abs_mul]
        congr 1
        linear_combination a * a * B2 - b * b * A2
      have l3 := mul_le_mul_of_nonneg_left l1 (abs_nonneg (a * B - b * A))
      exact le_of_mul_le_mul_right (l3.trans l2.le) h
  have := mul_le_mul_of_nonneg_left AB (abs_nonneg (a - b))
  linarith

theorem foot_sine_small {k a : ℝ} (hk : 0 ≤ k) : |a / √(1 + k * a * a)| ≤ |a| := by
  have pa : 0 ≤ k * a * a := by rw [mul_assoc]; exact mul_nonneg hk (mul_self_nonneg a)
  have A1 : 1 ≤ √(1 + k * a * a) := Real.one_le_sqrt.mpr (by linarith)
  rw [abs_div, abs_of_pos (show 0 < √(1 + k * a * a) by linarith), div_le_iff₀ (by linarith)]
  exact le_mul_of_one_le_right (abs_nonneg _) A1

/-- the sine of the latitude moves no faster than the foot -/
theorem foot_sine {k : ℝ} (hk : 0 ≤ k) (a b : ℝ) : |a / √(1 + k * a * a) - b / √(1 + k * b * b)| ≤ |a - b| := by
  rcases le_total 0 a with ha | ha <;> rcases le_total 0 b with hb | hb
  · exact foot_sine_same hk ha hb
  · have h1 := foot_sine_small (a := a) hk
    have h2 := foot_sine_small (a := b) hk
    rw [abs_of_nonneg ha] at h1
    rw [abs_of_nonpos hb] at h2
    rw [abs_of_nonneg (show 0 ≤ a - b by linarith)]
    rw [_root_.abs_le] at *
    constructor <;> linarith
  · have h1 := foot_sine_small (a := a) hk
    have h2 := foot_sine_small (a := b) hk
    rw [abs_of_nonpos ha] at h1
    rw [abs_of_nonneg hb] at h2
    rw [abs_of_nonpos (show a - b ≤ 0 by linarith)]
    rw [_root_.abs_le] at *
    constructor <;> linarith
  · have := foot_sine_same hk (neg_nonneg.mpr ha) (neg_nonneg.mpr hb)
    rw [← abs_neg, ← abs_neg (a - b)]
    convert this using 2
    · rw [show k * -a * -a = k * a * a by ring, show k * -b * -b = k * b * b by ring]; ring
    · ring

/-- the sine of the latitude of the foot at height `d` -/
noncomputable def footSine (d : ℝ) : ℝ := (gEps + 1) * (d / (Earth.RADIUS * √(1 + gEps * d * d / (gb * gb))))

theorem footSine_diff (d' d : ℝ) : |footSine d' - footSine d| ≤ 1.579e-4 * |d' - d| := by
  have hb := gb_pos
  have h := foot_sine (k := gEps / (gb * gb)) (div_nonneg gEps_pos.le (by positivity)) d' d
  have e : ∀ d, footSine d = (gEps + 1) / Earth.RADIUS * (d / √(1 + gEps / (gb * gb) * d * d)) := by
    intro d
    rw [footSine, show gEps / (gb * gb) * d * d = gEps * d * d / (gb * gb) by ring]
    have := gR_pos
    field_simp
  rw [e, e, ← mul_sub, abs_mul]
  have c : |(gEps + 1) / Earth.RADIUS| ≤ 1.579e-4 := by norm_num [gEps, gb, Earth.RADIUS, Earth.FLATTENING]
  exact mul_le_mul c h (abs_nonneg _) (by norm_num)

/-! ## from the sine to the angle -/

theorem angle_crude {x y : ℝ} (hx : |x| ≤ π / 2) (hy : |y| ≤ π / 2) : |x - y| * cos y ≤ π * |sin x - sin y| := by
  obtain ⟨x1, x2⟩ := _root_.abs_le.mp hx
  obtain ⟨y1, y2⟩ := _root_.abs_le.mp hy
  have hp := Real.pi_pos
  have cx := cos_nonneg_of_neg_pi_div_two_le_of_le x1 x2
  have cy := cos_nonneg_of_neg_pi_div_two_le_of_le y1 y2
  have e : |sin x - sin y| = 2 * |sin ((x - y) / 2)| * |cos ((x + y) / 2)| := by
    rw [sin_sub_sin, abs_mul, abs_mul, abs_two]
  have cm : cos y / 2 ≤ cos ((x + y) / 2) := by
    have h1 : cos x + cos y = 2 * cos ((x + y) / 2) * cos ((x - y) / 2) := cos_add_cos x y
    have h2 : 0 ≤ cos ((x + y) / 2) := cos_nonneg_of_neg_pi_div_two_le_of_le (by linarith) (by linarith)
    have h3 := mul_le_mul_of_nonneg_left (cos_le_one ((x - y) / 2)) h2
    linarith
  have sm : |x - y| / π ≤ |sin ((x - y) / 2)| := by
    have h1 := mul_abs_le_abs_sin (x := (x - y) / 2) (by rw [abs_div, abs_two]; rw [div_le_div_iff_of_pos_right (by norm_num)]; rw [_root_.abs_le]; constructor <;> linarith)
    rw [abs_div, abs_two] at h1
    refine le_trans (le_of_eq ?_) h1
    field_simp
  rw [e, abs_of_nonneg (show 0 ≤ cos ((x + y) / 2) by linarith)]
  have h4 : |x - y| / π * (cos y / 2) ≤ |sin ((x - y) / 2)| * cos ((x + y) / 2) := by gcongr
  have h5 : |x - y| * cos y = 2 * π * (|x - y| / π * (cos y / 2)) := by field_simp
  rw [h5]
  have := mul_le_mul_of_nonneg_left h4 (show 0 ≤ 2 * π by linarith)
  linarith

/-- the angle from the sine -/
theorem angle_of_sine {x y s : ℝ} (hx : |x| ≤ π / 2) (hy : |y| ≤ π / 2) (h : |sin x - sin y| ≤ s) (hc : 0 < cos y)
    (hs : 315 * s ≤ cos y ^ 2) : |x - y| * cos y ≤ 1.006 * s := by
  have hp := Real.pi_lt_d2
  have hp0 := Real.pi_pos
  have s0 : 0 ≤ s := (abs_nonneg _).trans h
  have h1 := angle_crude hx hy
  have h2 : |x - y| * cos y ≤ cos y / 100 * cos y := by
    have : π * |sin x - sin y| ≤ 3.15 * s := by
      apply mul_le_mul _ h (abs_nonneg _) (by norm_num)
      norm_num at hp ⊢; linarith
    norm_num at this
    linarith
  have h3 : |x - y| ≤ cos y / 100 := le_of_mul_le_mul_right h2 hc
  have c1 := cos_le_one y
  have cm : 0.995 * cos y ≤ cos ((x + y) / 2) := by
    have h4 : |cos ((x + y) / 2) - cos y| ≤ |(x + y) / 2 - y| := abs_cos_sub_cos_le _ _
    rw [show (x + y) / 2 - y = (x - y) / 2 by ring, abs_div, abs_two] at h4
    have := (_root_.abs_le.mp h4).1
    norm_num
    linarith
  have sm : 0.9999 * |x - y| ≤ 2 * |sin ((x - y) / 2)| := by
    rcases eq_or_lt_of_le (abs_nonneg (x - y)) with h0 | h0
    · rw [← h0]; norm_num
    · have h5 : |sin ((x - y) / 2)| = sin (|x - y| / 2) := by
        rcases le_total 0 (x - y) with hh | hh
        · rw [abs_of_nonneg hh, abs_of_nonneg]
          rw [abs_of_nonneg hh] at h3
          exact sin_nonneg_of_nonneg_of_le_pi (by linarith) (by linarith [Real.pi_gt_three])
        · rw [abs_of_nonpos hh] at h3 ⊢
          rw [show -(x - y) / 2 = -((x - y) / 2) by ring, sin_neg, abs_of_nonpos]
          exact sin_nonpos_of_nonpos_of_neg_pi_le (by linarith) (by linarith [Real.pi_gt_three])
      have h6 := sin_gt_sub_cube (x := |x - y| / 2) (by linarith)
      rw [h5]
      generalize |x - y| = t at *
      have t2 : t ^ 2 ≤ (1 / 100) ^ 2 := pow_le_pow_left₀ h0.le (by linarith) 2
      have : t ^ 3 ≤ (1 / 100) ^ 2 * t := by rw [pow_succ]; gcongr
      norm_num at *
      linarith
  have e : |sin x - sin y| = 2 * |sin ((x - y) / 2)| * |cos ((x + y) / 2)| := by
    rw [sin_sub_sin, abs_mul, abs_mul, abs_two]
  rw [e, abs_of_nonneg (show 0 ≤ cos ((x + y) / 2) by linarith)] at h
  have h7 : 0.9999 * |x - y| * (0.995 * cos y) ≤ s := le_trans (by gcongr) h
  have t0 : 0 ≤ |x - y| * cos y := by positivity
  norm_num at *
  linarith

/-! ## the position near the equator -/

theorem footSine_low {d : ℝ} (h0 : 0 ≤ d) (h1 : d ≤ 1) : d / 6379 ≤ footSine d := by
  have hb : 6356 ≤ gb := by norm_num [gb, Earth.RADIUS, Earth.FLATTENING]
  have he := gEps_pos
  have he1 : gEps ≤ 7 / 1000 := by norm_num [gEps, gb, Earth.RADIUS, Earth.FLATTENING]
  have k : gEps * d * d / (gb * gb) ≤ 1 / 10 ^ 6 := by
    rw [div_le_iff₀ (by positivity)]
    have : gEps * d * d ≤ 7 / 1000 * 1 * 1 := by gcongr
    have : 6356 * 6356 ≤ gb * gb := by gcongr
    linarith
  have k0 : 0 ≤ gEps * d * d / (gb * gb) := by have := gb_pos; positivity
  have s1 : √(1 + gEps * d * d / (gb * gb)) ≤ 10001 / 10000 := by
    rw [Real.sqrt_le_left (by norm_num)]; norm_num at k ⊢; linarith
  have s0 : 0 < √(1 + gEps * d * d / (gb * gb)) := Real.sqrt_pos.mpr (by linarith)
  have hR : Earth.RADIUS ≤ 6378.2 := by norm_num [Earth.RADIUS]
  have hR0 := gR_pos
  have n1 : Earth.RADIUS * √(1 + gEps * d * d / (gb * gb)) ≤ 6379 := by
    refine (mul_le_mul hR s1 s0.le (by norm_num)).trans ?_
    norm_num
  have n0 := geo_n_pos d
  rw [footSine]
  have : d / 6379 ≤ d / (Earth.RADIUS * √(1 + gEps * d * d / (gb * gb))) := by gcongr
  have p : 0 ≤ d / (Earth.RADIUS * √(1 + gEps * d * d / (gb * gb))) := by positivity
  nlinarith

theorem footSine_neg (d : ℝ) : footSine (-d) = -footSine d := by
  rw [footSine, footSine, show gEps * -d * -d = gEps * d * d by ring]; ring

theorem le_arcsin {a : ℝ} (h0 : 0 ≤ a) (h1 : a ≤ 1) : a ≤ arcsin a := by
  have := sin_le (arcsin_nonneg.mpr h0)
  rwa [sin_arcsin (by linarith) h1] at this

theorem equator_rho : rnd √(rnd (rnd ((6380 : ℝ) * 6380) + rnd (0 * 0))) = 6380 := by
  have h : rnd ((6380 : ℝ) * 6380) = 6380 * 6380 := by
    have := rnd_int 40704400 (by norm_num)
    norm_num at this ⊢
    exact this
  have h2 : rnd (6380 : ℝ) = 6380 := by
    have := rnd_int 6380 (by norm_num)
    simpa using this
  rw [h, mul_zero, rnd_zero, add_zero, h, Real.sqrt_mul_self (by norm_num), h2]

theorem near_pos_le {y x k : ℝ} (h : Near y x k) (hx : 0 ≤ x) (hk : k ≤ 1000) : x * (1 - 1 / 10 ^ 6) ≤ y := by
  have hu := u_pos
  have hut := u_tiny
  unfold Near at h
  rw [abs_of_nonneg hx] at h
  have := (_root_.abs_le.mp h).1
  have : k * u * x ≤ 1 / 10 ^ 6 * x := by gcongr; norm_num at hut ⊢; nlinarith
  linarith

/-- 3.4 metres south of the equator, or 10 metres north of it, instead of 4.6 centimetres north -/
theorem equator_latitude {lib : Libm} (hlib : PowAccurate lib) (hasin : Spec.AsinAccurate lib) :
    ∃ l, itrfToLla lib ⟨6380, 0, 3 / 2 ^ 16⟩ = .ok l ∧
      ((l.latitude ≤ -(5.3e-7) ∧ rnd (rnd (rnd (1 + lib.pow (1125899907122623 / 2 ^ 50) (rnd (2 / 3))) +
        rnd (1 / lib.pow (1125899907122623 / 2 ^ 50) (rnd (2 / 3)))) / 6) = 1 / 2) ∨
      (1.6e-6 ≤ l.latitude ∧ rnd (rnd (rnd (1 + lib.pow (1125899907122623 / 2 ^ 50) (rnd (2 / 3))) +
        rnd (1 / lib.pow (1125899907122623 / 2 ^ 50) (rnd (2 / 3)))) / 6) = 1 / 2 + 1 / 2 ^ 53)) := by
  have hgb : 6350 ≤ gb := by norm_num [gb, Earth.RADIUS, Earth.FLATTENING]
  rcases equator_foot hlib with ⟨h, hp⟩ | ⟨h, hp⟩
  · obtain ⟨d, hd⟩ : ∃ d : ℝ, d = 1957733646155673 / 2 ^ 59 := ⟨_, rfl⟩
    rw [← hd] at h
    have d1 : 0.003396 ≤ d := by rw [hd]; norm_num
    have d2 : d ≤ 0.0034 := by rw [hd]; norm_num
    have a1 := arc_ok (d := -d) (by rw [abs_neg, abs_of_pos (by norm_num at d1; linarith)]; norm_num at d2 ⊢; linarith)
    have a2 := (arc_near (-d)).2
    refine ⟨_, itrfToLla_value lib ⟨6380, 0, 3 / 2 ^ 16⟩ equator_rho.symm h rfl rfl a1, Or.inl ⟨?_, hp⟩⟩
    have a3 := hasin _ a1
    simp only
    generalize rnd (rnd (geoEps2 + 1) * _) = a at *
    change Near a (footSine (-d)) 128 at a2
    rw [footSine_neg] at a2
    have a4 : Near (-a) (footSine d) 128 := by
      unfold Near at *
      rw [abs_neg] at a2
      rw [← abs_neg]
      convert a2 using 2
      ring
    have f := footSine_low (d := d) (by norm_num at d1; linarith) (by norm_num at d2; linarith)
    have f0 : 0 ≤ footSine d := le_trans (by norm_num at d1; linarith) f
    have g := near_pos_le a4 f0 (by norm_num)
    have g2 : 5.32e-7 ≤ -a := by norm_num at *; linarith
    have g3 := le_arcsin (a := -a) (by norm_num at g2; linarith) (by rw [_root_.abs_le] at a1; linarith)
    rw [arcsin_neg] at g3
    have := (_root_.abs_le.mp a3).2
    norm_num at *
    linarith
  · obtain ⟨d, hd⟩ : ∃ d : ℝ, d = 3100585857290473 / 2 ^ 58 := ⟨_, rfl⟩
    rw [← hd] at h
    have d1 : 0.01075 ≤ d := by rw [hd]; norm_num
    have d2 : d ≤ 0.011 := by rw [hd]; norm_num
    have a1 := arc_ok (d := d) (by rw [abs_of_pos (by norm_num at d1; linarith)]; norm_num at d2 ⊢; linarith)
    have a2 := (arc_near d).2
    refine ⟨_, itrfToLla_value lib ⟨6380, 0, 3 / 2 ^ 16⟩ equator_rho.symm h rfl rfl a1, Or.inr ⟨?_, hp⟩⟩
    have a3 := hasin _ a1
    simp only
    generalize rnd (rnd (geoEps2 + 1) * _) = a at *
    change Near a (footSine d) 128 at a2
    have f := footSine_low (d := d) (by norm_num at d1; linarith) (by norm_num at d2; linarith)
    have f0 : 0 ≤ footSine d := le_trans (by norm_num at d1; linarith) f
    have g := near_pos_le a2 f0 (by norm_num)
    have g2 : 1.68e-6 ≤ a := by norm_num at *; linarith
    have g3 := le_arcsin (a := a) (by norm_num at g2; linarith) (by rw [_root_.abs_le] at a1; linarith)
    have := (_root_.abs_le.mp a3).1
    norm_num at *
    linarith

/-- the exact latitude -/
theorem equator_exact : ∃ l, PositionConvert.itrfToLla ⟨6380, 0, 3 / 2 ^ 16⟩ = .ok l ∧
    PositionConvert.llaToItrf l = .ok ⟨6380, 0, 3 / 2 ^ 16⟩ ∧ 0 < l.latitude ∧ l.latitude ≤ 1.2e-8 := by
  have hq : 0 < gQ ⟨6380, 0, 3 / 2 ^ 16⟩ := gQ_pos_of_mag (by norm_num [Spec.semiMajor, Earth.RADIUS])
  obtain ⟨l, h1, h2, h3, -, -⟩ := lla_of_itrf ⟨6380, 0, 3 / 2 ^ 16⟩ hq
  obtain ⟨δ, hδ0, hδp, hδ, -, hok⟩ := itrfToLla_ok ⟨6380, 0, 3 / 2 ^ 16⟩ hq
  refine ⟨l, h1, h2, ?_⟩
  have sg : pySign (3 / 2 ^ 16) = 1 := by unfold pySign; norm_num
  have hd := hδp (by norm_num)
  have hl : l.latitude = arcsin (footSine δ) := by
    rw [h1] at hok
    injection hok with hok
    rw [hok, geoFinish]
    simp only [sg, one_mul]
    rfl
  have lp : 0 < l.latitude := by
    rw [hl, arcsin_pos, footSine]
    have := gEps_pos
    have := geo_n_pos δ
    positivity
  refine ⟨lp, ?_⟩
  rw [llaToItrf_ok, Except.ok.injEq, Vec3.mk.injEq] at h2
  obtain ⟨e1, e2, e3⟩ := h2
  have hp := Real.pi_pos
  have hp2 := Real.pi_lt_d2
  have l2 := (_root_.abs_le.mp h3).2
  have sp : 0 < sin l.latitude := sin_pos_of_pos_of_lt_pi lp (by linarith)
  have cp : 0 ≤ cos l.latitude := cos_nonneg_of_neg_pi_div_two_le_of_le (by linarith) l2
  have B0 : 0 < geoN l.latitude * (1 - Openspace.geoE2) + l.altitude := by
    by_contra hn
    push Not at hn
    have := mul_nonpos_of_nonpos_of_nonneg hn sp.le
    rw [e3] at this
    norm_num at this
  have hN := geoN_pos l.latitude
  have hE := geoE2_pos
  have A : 6380 ≤ geoN l.latitude + l.altitude := by
    have A0 : 0 < geoN l.latitude + l.altitude := by nlinarith
    have c1 := mul_le_mul (cos_le_one l.latitude) (cos_le_one l.longitude) ?_ (by norm_num : (0 : ℝ) ≤ 1)
    · have := mul_le_mul_of_nonneg_left c1 A0.le
      nlinarith
    · by_contra hn
      push Not at hn
      have : (geoN l.latitude + l.altitude) * cos l.latitude * cos l.longitude ≤ 0 :=
        mul_nonpos_of_nonneg_of_nonpos (by positivity) hn.le
      linarith
  have hup : geoN l.latitude * Openspace.geoE2 ≤ 45 := by
    have n2 := geoN_sq l.latitude
    have a1 : Openspace.geoE2 ≤ 67 / 10000 := by norm_num [Openspace.geoE2, Earth.FLATTENING]
    have a2 : geoN l.latitude ≤ 6450 := by
      by_contra hn
      push Not at hn
      have b1 : (6450 : ℝ) ^ 2 < geoN l.latitude ^ 2 := pow_lt_pow_left₀ hn (by norm_num) (by norm_num)
      have b2 : 1 - 67 / 10000 ≤ 1 - Openspace.geoE2 * sin l.latitude ^ 2 := by
        have := mul_le_mul a1 (sin_sq_le_one l.latitude) (sq_nonneg _) (by norm_num)
        linarith
      have b3 : (6450 : ℝ) ^ 2 * (1 - 67 / 10000) ≤ geoN l.latitude ^ 2 * (1 - Openspace.geoE2 * sin l.latitude ^ 2) :=
        mul_le_mul b1.le b2 (by norm_num) (sq_nonneg _)
      have a4 : Earth.RADIUS ^ 2 ≤ 40700000 := by norm_num [Earth.RADIUS]
      norm_num at b3
      linarith
    have := mul_le_mul a2 a1 hE.le (by norm_num)
    norm_num at this
    linarith
  have B : 6335 ≤ geoN l.latitude * (1 - Openspace.geoE2) + l.altitude := by linarith
  have s1 : 6335 * sin l.latitude ≤ 3 / 2 ^ 16 := by
    rw [← e3]; gcongr
  have s2 := mul_le_sin lp.le l2
  have s3 : l.latitude ≤ π / 2 * sin l.latitude := by
    have := mul_le_mul_of_nonneg_left s2 (show 0 ≤ π / 2 by linarith)
    have e : π / 2 * (2 / π * l.latitude) = l.latitude := by field_simp
    linarith
  have s4 : π / 2 * sin l.latitude ≤ 3.15 / 2 * (3 / 2 ^ 16 / 6335) := by
    apply mul_le_mul _ _ sp.le (by norm_num)
    · norm_num at hp2 ⊢; linarith
    · rw [le_div_iff₀ (by norm_num)]; linarith
  norm_num at *
  linarith

/-! ## the error of the foot -/

theorem foot_product {g σ σ' x a e : ℝ} (hg : |g| ≤ 1) (hσ : Near σ' σ 282) (hσ0 : 0 < σ) (hx : 0 ≤ x)
    (hxb : σ * x ≤ gb) (ha : |a - x| ≤ e) : |rnd (rnd (g * σ') * a) - g * (σ * x)| ≤ 1.001 * (σ * e) + 2e6 * u := by
  have hu := u_pos
  have hut := u_tiny
  have e0 : 0 ≤ e := (abs_nonneg _).trans ha
  have h1 := (((Near.refl g).mul' hσ (by norm_num) (by norm_num) (by norm_num) (by norm_num)).round' (by norm_num)
    (by norm_num)).mono (show _ ≤ (285 : ℝ) by norm_num)
  have h3 : |g * σ| ≤ σ := by
    rw [abs_mul, abs_of_pos hσ0]
    have := mul_le_mul_of_nonneg_right hg hσ0.le
    linarith
  unfold Near at h1
  have h4 : |rnd (g * σ') - g * σ| ≤ 285 * u * σ := h1.trans (by gcongr)
  have h5 : |a| ≤ x + e := by rw [_root_.abs_le] at *; constructor <;> linarith
  have hgb : gb ≤ 6400 := by norm_num [gb, Earth.RADIUS, Earth.FLATTENING]
  have se : 0 ≤ σ * e := by positivity
  have h6 : |rnd (g * σ') * a - g * (σ * x)| ≤ 285 * u * σ * (x + e) + σ * e := by
    rw [show rnd (g * σ') * a - g * (σ * x) = (rnd (g * σ') - g * σ) * a + g * σ * (a - x) by ring]
    refine (abs_add_le _ _).trans ?_
    rw [abs_mul, abs_mul]
    gcongr
  have h7 : |g * (σ * x)| ≤ σ * x := by
    rw [abs_mul, abs_of_nonneg (show 0 ≤ σ * x by positivity)]
    have := mul_le_mul_of_nonneg_right hg (show 0 ≤ σ * x by positivity)
    linarith
  have sx : 0 ≤ σ * x := by positivity
  have h8 := rabs h6 (M := 2 * (σ * x) + 2 * (σ * e)) (by
    have : 285 * u * σ * (x + e) ≤ 1 / 2 * (σ * (x + e)) := by
      rw [mul_assoc]; gcongr; linarith
    linarith)
  refine h8.trans ?_
  have h9 : u * (σ * x) ≤ u * 6400 := by gcongr; linarith
  have h10 : u * (σ * e) ≤ 12 / 10 ^ 17 * (σ * e) := by gcongr
  norm_num at *
  linarith

theorem foot_root {U β S x t c w base : ℝ} (hS : S = 1 - U ^ 2 + β) (h : quartic U β x = 0) (hU0 : 0 < U)
    (hU : U ≤ 10001 / 10000) (hS0 : 0 ≤ S) (hβ0 : 0 < β) (hβ : β ≤ 1 / 10 ^ 4) (hx : 0 ≤ x) (ht : 1 / 2 ≤ t)
    (hres : 2 * t ^ 3 - t ^ 2 = β * U ^ 2 * (1 - U ^ 2 + β)) (hc : c = √(U ^ 2 - 1 + 2 * t)) (hw : w = (c - U) / 2)
    (hxb : x = w + √base) : 0.97 * √β * U ≤ √base := by
  have hr := foot_ratio hS h
  obtain ⟨b, hb⟩ : ∃ b, b = √β := ⟨_, rfl⟩
  have b0 : 0 < b := hb ▸ Real.sqrt_pos.mpr hβ0
  have b2 : b ^ 2 = β := by rw [hb, Real.sq_sqrt hβ0.le]
  have b1 : b ≤ 1 / 100 := by
    rw [hb, Real.sqrt_le_left (by norm_num)]; norm_num at hβ ⊢; linarith
  rw [← hb]
  have x1 : x ≤ b := by
    by_contra hn
    push Not at hn
    have h2 : b ^ 2 < x ^ 2 := pow_lt_pow_left₀ hn b0.le two_ne_zero
    rw [b2] at h2
    have y : 0 < (x + U) ^ 2 := by positivity
    have : β * (x + U) ^ 2 < x ^ 2 * (x + U) ^ 2 := by gcongr
    have := mul_nonneg (sq_nonneg x) hS0
    linarith
  have hS1 : S ≤ 10001 / 10000 := by rw [hS]; have := sq_nonneg U; norm_num at hβ ⊢; linarith
  -- `x ≥ 0.985 b U`
  have x2 : 0.985 * b * U ≤ x := by
    by_contra hn
    push Not at hn
    have k1 : x ^ 2 < (0.985 * b * U) ^ 2 := pow_lt_pow_left₀ hn hx two_ne_zero
    have k2 : (x + U) ^ 2 + S ≤ 1.0204 := by
      rw [hS]
      have m1 : x * U ≤ 1 / 100 * (10001 / 10000) := mul_le_mul (x1.trans b1) hU hU0.le (by norm_num)
      have m2 : x ^ 2 ≤ (1 / 100) ^ 2 := pow_le_pow_left₀ hx (x1.trans b1) 2
      norm_num at *
      linarith
    have k3 : β * U ^ 2 ≤ β * (x + U) ^ 2 := by gcongr; linarith
    have k4 : 0 < (x + U) ^ 2 + S := by positivity
    have k5 : x ^ 2 * ((x + U) ^ 2 + S) ≤ (0.985 * b * U) ^ 2 * 1.0204 := mul_le_mul k1.le k2 k4.le (by positivity)
    rw [mul_pow, mul_pow, b2] at k5
    have : 0 < β * U ^ 2 := by positivity
    norm_num at *
    linarith
  have hcs : c ^ 2 = U ^ 2 - 1 + 2 * t := by rw [hc, Real.sq_sqrt]; nlinarith
  have hUc : U ≤ c := by rw [hc]; apply Real.le_sqrt_of_sq_le; linarith
  have t1 : (2 * t - 1) ≤ 4 * (β * U ^ 2 * S) := by
    have e : t ^ 2 * (2 * t - 1) = β * U ^ 2 * S := by rw [hS, ← hres]; ring
    have t2 : 1 / 4 ≤ t ^ 2 := by nlinarith
    have := mul_le_mul_of_nonneg_right t2 (show 0 ≤ 2 * t - 1 by linarith)
    linarith
  have w1 : w ≤ 0.0101 * b * U := by
    have e : 2 * w * (c + U) = 2 * t - 1 := by rw [hw]; linear_combination hcs
    have w0 : 0 ≤ w := by rw [hw]; linarith
    have e2 : 2 * w * (2 * U) ≤ 2 * w * (c + U) := by gcongr; linarith
    have e3 : w * U ≤ (β * U * S) * U := by nlinarith
    have e4 : w ≤ β * U * S := le_of_mul_le_mul_right e3 hU0
    have e5 : β * U * S ≤ b * (1 / 100) * U * (10001 / 10000) := by rw [← b2, sq]; gcongr
    refine e4.trans (e5.trans ?_)
    have : 0 < b * U := by positivity
    norm_num; linarith
  have : 0 < b * U := by positivity
  norm_num at *
  linarith

theorem foot_plane {σ e U r Z ε b : ℝ} (hσ0 : 0 < σ) (hσr : σ ≤ 149 * r) (h1 : 6000 ≤ r) (hU : 0 < U)
    (hU1 : U ≤ 10001 / 10000) (he0 : 0 ≤ e) (he : e ≤ 443 * u / U + 813 * u / (0.97 * (b / σ) * U) + 202 * u)
    (hb : 6356 ≤ b) (hε0 : 0 < ε) (hε : ε ≤ 674 / 100000) (hZ : Z = ε * (σ * U)) (hZr : Z ≤ r) :
    Z * (1.001 * (σ * e) + 2e6 * u) ≤ 2967 * u * r ^ 3 := by
  have hu := u_pos
  have r0 : 0 < r := by linarith
  have b0 : 0 < b := by linarith
  have k0 : U * e ≤ u * (443 + 839 * σ / b + 202 * U) := by
    have h := mul_le_mul_of_nonneg_left he hU.le
    refine h.trans ?_
    have e1 : U * (443 * u / U + 813 * u / (0.97 * (b / σ) * U) + 202 * u) =
        443 * u + 813 / 0.97 * (u * σ / b) + 202 * u * U := by field_simp
    have e2 : u * (443 + 839 * σ / b + 202 * U) = 443 * u + 839 * (u * σ / b) + 202 * u * U := by ring
    rw [e1, e2]
    have : 813 / 0.97 * (u * σ / b) ≤ 839 * (u * σ / b) := by
      apply mul_le_mul_of_nonneg_right (by norm_num); positivity
    linarith
  have k1 : Z * (σ * e) ≤ ε * σ ^ 2 * (u * (443 + 839 * σ / b + 202 * U)) := by
    rw [hZ, show ε * (σ * U) * (σ * e) = ε * σ ^ 2 * (U * e) by ring]
    exact mul_le_mul_of_nonneg_left k0 (by positivity)
  have k2 : 443 + 839 * σ / b + 202 * U ≤ 198 / 10 * r := by
    have : 839 * σ / b ≤ 839 * (149 * r) / 6356 := by gcongr
    linarith
  have k3 : ε * σ ^ 2 ≤ 14965 / 100 * r ^ 2 := by
    have : ε * σ ^ 2 ≤ 674 / 100000 * (149 * r) ^ 2 := by gcongr
    refine this.trans ?_
    have := sq_nonneg r
    rw [mul_pow]
    linarith
  have k4 : Z * (σ * e) ≤ 14965 / 100 * r ^ 2 * (u * (198 / 10 * r)) :=
    k1.trans (mul_le_mul k3 (mul_le_mul_of_nonneg_left k2 hu.le) (by positivity) (by positivity))
  have k4' : Z * (σ * e) ≤ 296307 / 100 * (u * r ^ 3) := by
    refine k4.trans (le_of_eq ?_); ring
  have k5 : Z * (2e6 * u) ≤ r * (2e6 * u) := by gcongr
  have k6 : r * 36000000 ≤ r ^ 3 := by
    have : (6000 : ℝ) ^ 2 ≤ r ^ 2 := pow_le_pow_left₀ (by norm_num) h1 2
    rw [pow_succ, mul_comm]
    norm_num at this
    gcongr
  have k7 := mul_le_mul_of_nonneg_left k6 hu.le
  have k8 : 0 ≤ u * r ^ 3 := by positivity
  norm_num at *
  linarith

/-- the foot computed in double precision beside the exact one.  The first bound is for every position, the second for
those away from the equatorial plane, the third grows towards the plane. -/
theorem foot_error {lib : Libm} (hlib : PowAccurate lib) {v : Vec3} (h1 : 6000 ≤ v.magnitude) (hz : v.z ≠ 0) {δ : ℝ}
    (hδ0 : 0 ≤ δ) (hδ : Foot v δ) (huniq : ∀ y, 0 < y → Foot v y → y = δ) (h2 : v.magnitude ≤ 50000) :
    ∃ d E, footHeight lib (rnd √(rnd (rnd (v.x * v.x) + rnd (v.y * v.y)))) v.z = .ok d ∧ |d - pySign v.z * δ| ≤ E ∧
      E ≤ 7.6e-5 * v.magnitude ∧ (δ ≤ 0.52 * gb ∨ E ≤ 6e-8 * v.magnitude) ∧ |v.z| * E ≤ 2967 * u * v.magnitude ^ 3 := by
  have hu := u_pos
  have hut := u_tiny
  obtain ⟨σ, σ', x, a, e, U, β, S, t, c, w, base, hval, hσ, hU, hβ, hσ0, nσ, e1, e2, e3, e4, hU0, hU1, hβ0, hβ1, hS0, hS1,
    ht1, hres, hc, hw, hx, hx0, hxp, hxq⟩ := foot_pair hlib h1
  obtain ⟨hq, -⟩ := small_beta h1
  have hfq := foot_iff_quartic v hq x
  rw [← hσ, ← hU, ← hβ] at hfq
  have hδx : σ * x = δ := huniq _ (mul_pos hσ0 (hxp hz)) (hfq.mpr hxq)
  have hsg : |pySign v.z| ≤ 1 := by unfold pySign; split_ifs <;> norm_num
  have hxb : σ * x ≤ gb := by rw [hδx]; exact foot_le hδ0 hδ
  have hp := foot_product hsg nσ hσ0 hx0 hxb e1
  rw [hδx] at hp
  have he0 : 0 ≤ e := (abs_nonneg _).trans e1
  obtain ⟨r, hr⟩ : ∃ r, r = v.magnitude := ⟨_, rfl⟩
  rw [← hr] at h1 h2 ⊢
  have r0 : 0 < r := by linarith
  have hσr : σ ≤ 149 * r := by
    have hr2 : r ^ 2 = v.x ^ 2 + v.y ^ 2 + v.z ^ 2 := by rw [hr, Vec3.magnitude_sq]; ring
    have h3 := (gQ_bounds hr2).2
    rw [hσ, Real.sqrt_le_left (by positivity)]
    nlinarith
  have σ2 : σ ^ 2 = gQ v := by rw [hσ, Real.sq_sqrt hq.le]
  refine ⟨_, _, hval, hp, ?_, ?_, ?_⟩
  · have : σ * e ≤ 149 * r * (5 / 10 ^ 7) := mul_le_mul hσr e2 he0 (by positivity)
    norm_num at *
    linarith
  · rcases le_total U (1 / 2) with hlow | hhigh
    · left
      have hx2 := foot_low hS1 hxq hU0 hlow hβ0 hβ1 hx0
      have h3 : (σ * x) ^ 2 ≤ (52 / 100 * gb) ^ 2 := by
        have e : σ ^ 2 * β = gb ^ 2 := by
          rw [hβ, hσ, Real.sq_sqrt hq.le]; field_simp
        rw [mul_pow, mul_pow, ← e]
        have := mul_le_mul_of_nonneg_left hx2 (sq_nonneg σ)
        linarith
      have h4 := (_root_.abs_le.mp (abs_le_of_sq_le_sq h3 (by have := gb_pos; positivity))).2
      rw [← hδx]
      norm_num at h4 ⊢
      exact h4
    · right
      have hβl : 7 / 10 ^ 7 ≤ β := by
        rw [hβ, le_div_iff₀ hq]
        have : gQ v ≤ (149 * 50000) ^ 2 := by
          rw [← σ2]; exact pow_le_pow_left₀ hσ0.le (by linarith) 2
        have hgb : 6350 ≤ gb := by norm_num [gb, Earth.RADIUS, Earth.FLATTENING]
        have hg2 : 6350 * 6350 ≤ gb * gb := by gcongr
        norm_num at *; linarith
      have hsb := foot_high hS1 hxq hhigh hU1 hS0 hβl hβ1 hx0 ht1 hres hc hw hx
      have h5 : σ * e ≤ 149 * r * (4 / 10 ^ 10) := mul_le_mul hσr (e3 hhigh hsb) he0 (by positivity)
      norm_num at *
      linarith
  · have Up : 0 < U := by
      rw [hU]; exact div_pos (div_pos (abs_pos.mpr hz) gEps_pos) hσ0
    have hroot := foot_root hS1 hxq Up hU1 hS0 hβ0 hβ1 hx0 ht1 hres hc hw hx
    have hs : √β = gb / σ := by
      rw [hβ, Real.sqrt_div (mul_self_nonneg gb), Real.sqrt_mul_self gb_pos.le, hσ]
    have hgb : 6356 ≤ gb := by norm_num [gb, Earth.RADIUS, Earth.FLATTENING]
    have hg0 : 0 < gb := gb_pos
    have he := e4 _ Up (by rw [hs]; positivity) hroot
    rw [hs] at he
    have hzU : |v.z| = gEps * (σ * U) := by
      rw [hU, gP]; have := gEps_pos; field_simp
    have hzr : |v.z| ≤ r := by
      have hr2 : r ^ 2 = v.x ^ 2 + v.y ^ 2 + v.z ^ 2 := by rw [hr, Vec3.magnitude_sq]; ring
      apply abs_le_of_sq_le_sq _ r0.le |> fun h => (_root_.abs_le.mpr (_root_.abs_le.mp h))
      nlinarith [sq_nonneg v.x, sq_nonneg v.y]
    have hgE : gEps ≤ 674 / 100000 := by norm_num [gEps, gb, Earth.RADIUS, Earth.FLATTENING]
    exact foot_plane hσ0 hσr h1 Up hU1 he0 he hgb gEps_pos hgE hzU hzr

end Openspace.F64
