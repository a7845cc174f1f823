import Mathlib.Analysis.Complex.Exponential
import Verif.Lemmas.DoubleStep

/-! # Many steps of the inertial propagator in double precision -/

namespace Openspace.F64

open Real Spec

/-- a rounded stage value `b + k τ` from a start that is itself in error -/
theorem advance_from {b' b k' k : Vec3} {τ e d B K : ℝ} (hτ : 0 ≤ τ) (hb : (b'.minus b).magnitude ≤ e)
    (h : (k'.minus k).magnitude ≤ d) (hB : b.magnitude ≤ B) (hK : k.magnitude ≤ K) :
    ((plus b' (scaled k' τ)).minus (b.plus (k.scaled τ))).magnitude ≤
      (1 + 1e-15) * e + 1.0001 * (τ * d) + 2.5e-16 * (B + τ * K) := by
  have hu := u_pos
  have hu' := u_tiny
  have h1 := scaled_round (a := k') (Near.refl τ) le_rfl (by norm_num)
  have h2 := scaled_minus k' k τ
  have h3 := minus_triangle (scaled k' τ) (k'.scaled τ) (k.scaled τ)
  have h4 := magnitude_le_of_minus k' k
  have d0 := (Vec3.magnitude_nonneg _).trans h
  have e0 := (Vec3.magnitude_nonneg _).trans hb
  have K0 := (Vec3.magnitude_nonneg _).trans hK
  have B0 := (Vec3.magnitude_nonneg _).trans hB
  rw [abs_of_nonneg hτ] at h1 h2
  have h5 : (0 + 1.01) * u * (τ * k'.magnitude) ≤ 1.22e-16 * (τ * (K + d)) := by
    have : (0 + 1.01) * u ≤ 1.22e-16 := by norm_num at hu' ⊢; linarith
    have : k'.magnitude ≤ K + d := by linarith
    have := k'.magnitude_nonneg
    gcongr
  have h6 : τ * (k'.minus k).magnitude ≤ τ * d := by gcongr
  have h7 : ((scaled k' τ).minus (k.scaled τ)).magnitude ≤ τ * d + 1.22e-16 * (τ * (K + d)) := by linarith
  have h8 : (k.scaled τ).magnitude ≤ τ * K := by
    rw [Vec3.magnitude_scaled_abs, abs_of_nonneg hτ]; gcongr
  have p1 := plus_round b' (scaled k' τ)
  have p2 := plus_plus_le b (k.scaled τ) b' (scaled k' τ)
  have p3 := minus_triangle (plus b' (scaled k' τ)) (b'.plus (scaled k' τ)) (b.plus (k.scaled τ))
  have p4 := magnitude_le_of_minus (b'.plus (scaled k' τ)) (b.plus (k.scaled τ))
  have p5 := Vec3.magnitude_plus_le b (k.scaled τ)
  obtain ⟨X, hX⟩ : ∃ X, X = ((scaled k' τ).minus (k.scaled τ)).magnitude := ⟨_, rfl⟩
  have p6 : u * (b'.plus (scaled k' τ)).magnitude ≤ 12 / 10 ^ 17 * (B + τ * K + (e + X)) :=
    mul_le_mul hu' (by rw [hX]; linarith) (Vec3.magnitude_nonneg _) (by norm_num)
  rw [← hX] at h7 p2
  have t1 : 0 ≤ τ * K := by positivity
  have t2 : 0 ≤ τ * d := by positivity
  norm_num at p6 h7 ⊢
  linarith

/-- the errors of the stages, and of the step, weighted by the growth rate -/
theorem run_numbers {h F w a b v2 v3 v4 p2 p3 p4 A1 A2 A3 A4 a' b' : ℝ} (h0 : 0 ≤ h) (w0 : 0 < w) (hx : w * h ≤ 0.66)
    (F0 : 0 ≤ F) (a0 : 0 ≤ a) (b0 : 0 ≤ b) (hA1 : A1 ≤ w ^ 2 * a + F)
    (hp2 : p2 ≤ a + 1.0001 * (h / 2 * b) + 3.2e-11) (hv2 : v2 ≤ b + 1.0001 * (h / 2 * A1) + 4e-15) (hA2 : A2 ≤ w ^ 2 * p2 + F)
    (hp3 : p3 ≤ a + 1.0001 * (h / 2 * v2) + 3.2e-11) (hv3 : v3 ≤ b + 1.0001 * (h / 2 * A2) + 4e-15) (hA3 : A3 ≤ w ^ 2 * p3 + F)
    (hp4 : p4 ≤ a + 1.0001 * (h * v3) + 3.2e-11) (hv4 : v4 ≤ b + 1.0001 * (h * A3) + 4e-15) (hA4 : A4 ≤ w ^ 2 * p4 + F)
    (ha' : a' ≤ a + 1.0001 * (h * (1.0001 * ((b + 2 * v2 + 2 * v3 + v4) / 6) + 1e-15 * 16)) + 3.2e-11)
    (hb' : b' ≤ b + 1.0001 * (h * (1.0001 * ((A1 + 2 * A2 + 2 * A3 + A4) / 6) + 1e-15 * 0.011)) + 4e-15)
    (h301 : h ≤ 301) :
    w * p2 + v2 ≤ 2.1 * (w * a + b) + 2 * (h * F + 4e-11 * w + 8e-15) ∧
    w * p3 + v3 ≤ 2.1 * (w * a + b) + 2 * (h * F + 4e-11 * w + 8e-15) ∧
    w * p4 + v4 ≤ 2.1 * (w * a + b) + 2 * (h * F + 4e-11 * w + 8e-15) ∧
    w * a' + b' ≤ exp (1.001 * (w * h)) * (w * a + b) + 2 * (h * F + 4e-11 * w + 8e-15) := by
  obtain ⟨x, hxe⟩ : ∃ x, x = w * h := ⟨_, rfl⟩
  obtain ⟨W, hW⟩ : ∃ W, W = w * a + b := ⟨_, rfl⟩
  obtain ⟨H, hH⟩ : ∃ H, H = h * F := ⟨_, rfl⟩
  have x0 : 0 ≤ x := by rw [hxe]; positivity
  have W0 : 0 ≤ W := by rw [hW]; positivity
  have H0 : 0 ≤ H := by rw [hH]; positivity
  rw [← hxe] at hx ⊢
  rw [← hW, ← hH]
  -- a stage, carried to the next one
  have key : ∀ {p v A : ℝ}, A ≤ w ^ 2 * p + F → h * (w * v + A) ≤ x * (w * p + v) + H := by
    intro p v A hA
    have := mul_le_mul_of_nonneg_left hA h0
    rw [hxe, hH]
    linarith
  have k1 := key (p := a) (v := b) hA1
  rw [← hW] at k1
  have k2 := key (v := v2) hA2
  have k3 := key (v := v3) hA3
  have k4 := key (v := v4) hA4
  have m2 := mul_le_mul_of_nonneg_left hp2 w0.le
  have m3 := mul_le_mul_of_nonneg_left hp3 w0.le
  have m4 := mul_le_mul_of_nonneg_left hp4 w0.le
  have m5 := mul_le_mul_of_nonneg_left ha' w0.le
  obtain ⟨s2, e2⟩ : ∃ s2, s2 = w * p2 + v2 := ⟨_, rfl⟩
  obtain ⟨s3, e3⟩ : ∃ s3, s3 = w * p3 + v3 := ⟨_, rfl⟩
  obtain ⟨s4, e4⟩ : ∃ s4, s4 = w * p4 + v4 := ⟨_, rfl⟩
  rw [← e2] at k2 ⊢
  rw [← e3] at k3 ⊢
  rw [← e4] at k4 ⊢
  obtain ⟨y1, f1⟩ : ∃ y, y = x * W := ⟨_, rfl⟩
  obtain ⟨y2, f2⟩ : ∃ y, y = x * (x * W) := ⟨_, rfl⟩
  obtain ⟨y3, f3⟩ : ∃ y, y = x * (x * (x * W)) := ⟨_, rfl⟩
  obtain ⟨y4, f4⟩ : ∃ y, y = x * (x * (x * (x * W))) := ⟨_, rfl⟩
  have g1 : 0 ≤ y1 := by rw [f1]; positivity
  have g2 : 0 ≤ y2 := by rw [f2]; positivity
  have g3 : 0 ≤ y3 := by rw [f3]; positivity
  have g4 : 0 ≤ y4 := by rw [f4]; positivity
  have r1 : y1 ≤ 0.66 * W := by rw [f1]; gcongr
  have r2 : y2 ≤ 0.66 * y1 := by rw [f2, ← f1]; gcongr
  have r3 : y3 ≤ 0.66 * y2 := by rw [f3, f2]; gcongr
  rw [← f1] at k1
  have t2 : s2 ≤ W + 0.50005 * y1 + (0.50005 * H + 3.2e-11 * w + 4e-15) := by
    rw [e2, hW]; norm_num at m2 hv2 ⊢; linarith
  have u2 : x * s2 ≤ y1 + 0.50005 * y2 + 0.66 * (0.50005 * H + 3.2e-11 * w + 4e-15) := by
    have := mul_le_mul_of_nonneg_left t2 x0
    have q : x * (0.50005 * H + 3.2e-11 * w + 4e-15) ≤ 0.66 * (0.50005 * H + 3.2e-11 * w + 4e-15) := by gcongr
    have q2 : x * (0.50005 * y1) = 0.50005 * y2 := by rw [f2, f1]; ring
    rw [mul_add, mul_add, q2, ← f1] at this
    linarith
  have t3 : s3 ≤ W + 0.50005 * y1 + 0.25006 * y2 + (0.8301 * H + 1.3301 * (3.2e-11 * w + 4e-15)) := by
    rw [e3, hW]; norm_num at m3 hv3 u2 ⊢; linarith
  have u3 : x * s3 ≤ y1 + 0.50005 * y2 + 0.25006 * y3 + 0.66 * (0.8301 * H + 1.3301 * (3.2e-11 * w + 4e-15)) := by
    have := mul_le_mul_of_nonneg_left t3 x0
    have q : x * (0.8301 * H + 1.3301 * (3.2e-11 * w + 4e-15)) ≤ 0.66 * (0.8301 * H + 1.3301 * (3.2e-11 * w + 4e-15)) := by
      gcongr
    have q2 : x * (0.50005 * y1) = 0.50005 * y2 := by rw [f2, f1]; ring
    have q3 : x * (0.25006 * y2) = 0.25006 * y3 := by rw [f3, f2]; ring
    rw [mul_add, mul_add, mul_add, q2, q3, ← f1] at this
    linarith
  have t4 : s4 ≤ W + 1.0001 * y1 + 0.50011 * y2 + 0.25009 * y3 + (1.5481 * H + 1.879 * (3.2e-11 * w + 4e-15)) := by
    rw [e4, hW]; norm_num at m4 hv4 u3 ⊢; linarith
  have u4 : x * s4 ≤ y1 + 1.0001 * y2 + 0.50011 * y3 + 0.25009 * y4 +
      0.66 * (1.5481 * H + 1.879 * (3.2e-11 * w + 4e-15)) := by
    have := mul_le_mul_of_nonneg_left t4 x0
    have q : x * (1.5481 * H + 1.879 * (3.2e-11 * w + 4e-15)) ≤ 0.66 * (1.5481 * H + 1.879 * (3.2e-11 * w + 4e-15)) := by
      gcongr
    have q2 : x * (1.0001 * y1) = 1.0001 * y2 := by rw [f2, f1]; ring
    have q3 : x * (0.50011 * y2) = 0.50011 * y3 := by rw [f3, f2]; ring
    have q4 : x * (0.25009 * y3) = 0.25009 * y4 := by rw [f4, f3]; ring
    rw [mul_add, mul_add, mul_add, mul_add, q2, q3, q4, ← f1] at this
    linarith
  have hexp : 1 + 1.001 * x + (1.001 * x) ^ 2 / 2 + (1.001 * x) ^ 3 / 6 + (1.001 * x) ^ 4 / 24 ≤ exp (1.001 * x) := by
    have := Real.sum_le_exp_of_nonneg (x := 1.001 * x) (by positivity) 5
    simp only [Finset.sum_range_succ, Finset.sum_range_zero, Nat.factorial] at this
    norm_num at this ⊢
    linarith
  have hexp' : W + 1.001 * y1 + 0.501 * y2 + 0.167167 * y3 + 0.041833 * y4 ≤ exp (1.001 * x) * W := by
    have := mul_le_mul_of_nonneg_right hexp W0
    have e : (1 + 1.001 * x + (1.001 * x) ^ 2 / 2 + (1.001 * x) ^ 3 / 6 + (1.001 * x) ^ 4 / 24) * W =
      W + 1.001 * y1 + 1.001 ^ 2 / 2 * y2 + 1.001 ^ 3 / 6 * y3 + 1.001 ^ 4 / 24 * y4 := by
      rw [f1, f2, f3, f4]; ring
    rw [e] at this
    norm_num at this ⊢
    linarith
  have hw : h * w ≤ 301 * w := by gcongr
  refine ⟨?_, ?_, ?_, ?_⟩
  · norm_num at t2 r1 ⊢; linarith
  · norm_num at t3 r1 r2 ⊢; linarith
  · norm_num at t4 r1 r2 r3 ⊢; linarith
  · norm_num at m5 hb' hexp' u2 u3 u4 ⊢
    linarith

/-- a position at a declination up to 56 degrees in GCRF is less than 60 degrees from the equator of the true Earth -/
theorem axis_of_midlatitude {p q : Vec3} {t : Epoch} (ht : |t.julianCenturies| ≤ 5) (h : |p.z| ≤ 1.5 * p.axial)
    (hq : PositionConvert.gcrfToItrf p t = .ok q) : 0.5 * q.magnitude ≤ q.axial := by
  have hm := (gcrfToItrf_magnitude t hq).1
  obtain ⟨m, hmr, -⟩ := rotation_isRotation t
  simp only [PositionConvert.gcrfToItrf, PositionConvert.gcrfToTod, PositionConvert.gcrfToMod, hmr, ok_bind, pure_eq_ok,
    Except.ok.injEq] at hq
  have hz : q.z = ((Earth.nutation t).mulVec ((Earth.precession t).mulVec p)).z := by
    rw [← hq, rotation_third hmr]
  rw [nutation_mulVec] at hz
  have h1 := precession_third t p ht
  have h2 := ((nutAxis t).cross ((Earth.precession t).mulVec p)).abs_z_le.trans (cross_magnitude_le _ _)
  rw [(precession_orth t).magnitude_mulVec] at h2
  have h3 : (nutAxis t).magnitude ≤ 1.1e-4 := by
    refine (pow_le_pow_iff_left₀ (Vec3.magnitude_nonneg _) (by norm_num) two_ne_zero).mp ?_
    rw [Vec3.magnitude_sq_dot]
    exact (nutAxis_bound t).trans (by norm_num)
  have h4 : |q.z| ≤ |((Earth.precession t).mulVec p).z| +
      |((nutAxis t).cross ((Earth.precession t).mulVec p)).z| := by
    rw [hz]; exact abs_add_le _ _
  have h5 := mul_le_mul_of_nonneg_right h3 p.magnitude_nonneg
  have h6 := p.magnitude_sq_axial
  have h7 := p.magnitude_nonneg
  rw [← sq_abs p.z] at h6
  have h9 := abs_nonneg p.z
  have h10 : |p.z| + 0.05 * p.axial ≤ 0.8618 * p.magnitude := by
    have k1 := mul_le_mul_of_nonneg_right h h9
    have k2 := mul_le_mul_of_nonneg_right h p.axial_nonneg
    refine abs_le_of_sq_le_sq' (a := |p.z| + 0.05 * p.axial) ?_ (by positivity) |>.2
    rw [mul_pow, h6]
    generalize |p.z| = Z at *
    norm_num
    nlinarith
  have h11 : |q.z| ≤ 0.862 * q.magnitude := by
    norm_num at h5 h10 ⊢
    linarith
  have h12 := q.magnitude_sq_axial
  rw [← sq_abs q.z] at h12
  have h13 : |q.z| ^ 2 ≤ (0.862 * q.magnitude) ^ 2 := pow_le_pow_left₀ (abs_nonneg _) h11 2
  refine abs_le_of_sq_le_sq' (a := 0.5 * q.magnitude) ?_ q.axial_nonneg |>.2
  generalize |q.z| = Z at *
  norm_num at h13 ⊢
  nlinarith [sq_nonneg q.magnitude]

theorem growthRate_sq {R : ℝ} (hR : 0 < R) : growthRate Earth.MU R ^ 2 = 3.02 * (Earth.MU / R ^ 3) :=
  Real.sq_sqrt (by have : 0 < Earth.MU := by norm_num [Earth.MU]
                   positivity)

theorem growthRate_pos {R : ℝ} (hR : 0 < R) : 0 < growthRate Earth.MU R :=
  Real.sqrt_pos.mpr (by have : 0 < Earth.MU := by norm_num [Earth.MU]
                        positivity)

theorem growthRate_le {R : ℝ} (hR : 6378 ≤ R) : growthRate Earth.MU R ≤ 2.16e-3 := by
  refine Real.sqrt_le_iff.mpr ⟨by norm_num, ?_⟩
  have hM : 0 < Earth.MU := by norm_num [Earth.MU]
  calc 3.02 * (Earth.MU / R ^ 3) ≤ 3.02 * (Earth.MU / 6378 ^ 3) := by gcongr
    _ ≤ _ := by norm_num [Earth.MU]

section

variable {lib : Libm} {tan ln : ℝ → ℝ} (hlib : Spec.Accurate lib) (hatan : Spec.Atan2Accurate lib)
  (hpow : Spec.PowAccurate lib) (htan : Spec.TanAccurate tan)

include hlib hatan hpow htan

/-- the derivative in a stage -/
theorem stage_error_mid {f δ R : ℝ} {s' s : GCRF} (he : s'.epoch = s.epoch) (hu' : s'.use_perturbations = true)
    (hu : s.use_perturbations = true) (hk' : s'.srp_scalar = 0) (hk : s.srp_scalar = 0)
    (hF : FrameError lib s.epoch.value f) (hf : f ≤ 3.4e-9) (h0 : 1 ≤ s.epoch.value) (h1 : s.epoch.value ≤ 131072)
    (hp : (s'.position.minus s.position).magnitude ≤ δ) (hδ : δ ≤ 0.0311) (hR : 6378 ≤ R) (hs : Spec.Midlatitude R s.position)
    (ht : (s'.thrust.minus s.thrust).magnitude ≤ 4e-15 * s.thrust.magnitude) (hT : s.thrust.magnitude ≤ 1e-3) :
    ∃ a' a, derivative lib tan s' = .ok (s'.velocity, a') ∧ s.derivative = .ok (s.velocity, a) ∧
      (a'.minus a).magnitude ≤ growthRate Earth.MU R ^ 2 * δ + ((0.962 * f + 1e-14) * (Earth.MU / R ^ 2) + 5e-15) ∧
      a.magnitude ≤ 0.011 := by
  obtain ⟨r1, r2, r3⟩ := hs
  obtain ⟨r, hr⟩ : ∃ r, r = s.position.magnitude := ⟨_, rfl⟩
  rw [← hr] at r1 r2
  have R0 : 0 < R := by linarith
  have hr0 : 0 < r := by linarith
  have hδ0 := (Vec3.magnitude_nonneg _).trans hp
  have hlo := hF.lo
  obtain ⟨q, hq⟩ := gcrfToItrf_ok s.position s.epoch
  have hj : |s.epoch.julianCenturies| ≤ 5 := by
    simp only [Epoch.julianCenturies, Epoch.julianValue, Epoch.JULIAN_CENTURY, Epoch.MJD_ZERO, Epoch.J2000_JULIAN_DATE]
    rw [_root_.abs_le]; constructor <;> norm_num <;> linarith
  have hax := axis_of_midlatitude hj r3 hq
  have hax' : 0.5 * q.magnitude ≤ axis q := by
    rw [axis, ← sq, ← sq]; exact hax
  have hε0 : 0 ≤ δ / r := by positivity
  have hε1 : δ / r ≤ 4.88e-6 := by
    rw [div_le_iff₀ hr0]; norm_num at hδ ⊢; linarith
  obtain ⟨a', a, e1, e2, e3, e4⟩ := derivative_error (c := 0.5) (ε := δ / r) hlib hatan hpow htan he hu' hu hk' hk hF h0 h1
    hε0 (by rw [← hr, div_mul_cancel₀ _ hr0.ne']; exact hp) (by rw [← hr]; linarith) (by rw [← hr]; linarith) hq (by norm_num)
    (by norm_num) hax' (by norm_num at hf hε1 ⊢; linarith) ht hT
  refine ⟨a', a, e1, e2, e3.trans ?_, e4.trans ?_⟩
  · rw [← hr, growthRate_sq R0]
    have hM : 0 < Earth.MU := by norm_num [Earth.MU]
    have g1 : Earth.MU / r ^ 2 ≤ Earth.MU / R ^ 2 := by gcongr
    have g2 : δ / r * (Earth.MU / r ^ 2) ≤ Earth.MU / R ^ 3 * δ := by
      have : δ / r * (Earth.MU / r ^ 2) = Earth.MU / r ^ 3 * δ := by field_simp
      rw [this]
      gcongr
    have g0 : 0 ≤ Earth.MU / r ^ 2 := by positivity
    have g3 : (0.962 * f + 1e-14) * (Earth.MU / r ^ 2) ≤ (0.962 * f + 1e-14) * (Earth.MU / R ^ 2) := by
      have : 0 ≤ f := by norm_num at hlo ⊢; linarith
      gcongr
    have g4 : 0 ≤ δ / r * (Earth.MU / r ^ 2) := by positivity
    have e : (0.481 * ((f + δ / r) / 0.5) + 2.05 * (δ / r) + 1e-14) * (Earth.MU / r ^ 2) =
        (0.962 * f + 1e-14) * (Earth.MU / r ^ 2) + 3.012 * (δ / r * (Earth.MU / r ^ 2)) := by ring
    rw [e]
    norm_num at g2 g3 ⊢
    linarith
  · rw [← hr]
    have : Earth.MU / r ^ 2 ≤ 9.8e-3 := by
      calc Earth.MU / r ^ 2 ≤ Earth.MU / 6378 ^ 2 := by
            have hM : 0 < Earth.MU := by norm_num [Earth.MU]
            gcongr; linarith
        _ ≤ _ := by norm_num [Earth.MU]
    norm_num at this ⊢
    linarith

/-- a stage of the integrator: exact and rounded -/
theorem stage_pair_mid {p : RK4} {f δ R e dt : ℝ} {r' r v' v t' t : Vec3} (hF : FrameError lib e f) (hf : f ≤ 3.4e-9)
    (h0 : 1 ≤ e) (h1 : e ≤ 131072) (hp : (r'.minus r).magnitude ≤ δ) (hδ : δ ≤ 0.0311) (hR : 6378 ≤ R)
    (hs : Spec.Midlatitude R r) (ht' : thrustVector ln p.m_dot p.m0 p.isp p.thrust_direction dt = .ok t')
    (ht : p.thrustVector dt = .ok t) (hte : (t'.minus t).magnitude ≤ 4e-15 * t.magnitude) (hT : t.magnitude ≤ 1e-3) :
    ∃ a' a, stage lib tan ln p e r' v' dt = .ok (v', a') ∧ p.stage ⟨e⟩ r v dt = .ok (v, a) ∧
      (a'.minus a).magnitude ≤ growthRate Earth.MU R ^ 2 * δ + ((0.962 * f + 1e-14) * (Earth.MU / R ^ 2) + 5e-15) ∧
      a.magnitude ≤ 0.011 := by
  obtain ⟨a', a, e1, e2, e3, e4⟩ := stage_error_mid (s' := { GCRF.new ⟨e⟩ r' v' with thrust := t' })
    (s := { GCRF.new ⟨e⟩ r v with thrust := t }) hlib hatan hpow htan rfl rfl rfl rfl rfl hF hf h0 h1 hp hδ hR hs hte hT
  exact ⟨a', a, by simp only [stage, ht', ok_bind]; exact e1, by simp only [RK4.stage, ht, ok_bind]; exact e2, e3, e4⟩

omit hlib hatan hpow htan in
theorem speed_le' {v a : Vec3} {τ : ℝ} (h0 : 0 ≤ τ) (h1 : τ ≤ 301) (hv : v.magnitude ≤ 12) (ha : a.magnitude ≤ 0.011) :
    (v.plus (a.scaled τ)).magnitude ≤ 16 := by
  have := Vec3.magnitude_plus_le v (a.scaled τ)
  rw [Vec3.magnitude_scaled_abs, abs_of_nonneg h0] at this
  have ha0 := a.magnitude_nonneg
  have : τ * a.magnitude ≤ 301 * 0.011 := by gcongr
  norm_num at this
  linarith

set_option maxHeartbeats 1000000 in
/-- a rounded step from a state in error, beside the exact step -/
theorem step_from {p : RK4} {f R h e0 e1 e2 a b : ℝ} {r v : Vec3} (hh : p.step_size = h)
    (hr : (p.state.position.minus r).magnitude ≤ a) (hv : (p.state.velocity.minus v).magnitude ≤ b)
    (hb : Spec.IsBinary64 h) (h0 : 0 < h) (h1 : h ≤ 301) (hsrp : p.state.srp_scalar = 0)
    (hpert : p.state.use_perturbations = true) (hV : v.magnitude ≤ 12) (hR : 6378 ≤ R) (hf : f ≤ 3.4e-9)
    (he0 : p.state.epoch.value = e0) (he1 : e1 = plusDays e0 (rnd (h / 2 / 86400)))
    (he2 : e2 = plusDays e1 (rnd (h / 2 / 86400))) (F0 : FrameError lib e0 f) (F1 : FrameError lib e1 f)
    (F2 : FrameError lib e2 f) (l0 : 1 ≤ e0 ∧ e0 ≤ 131072) (l1 : 1 ≤ e1 ∧ e1 ≤ 131072) (l2 : 1 ≤ e2 ∧ e2 ≤ 131072)
    (thr : ∀ dt, dt = 0 ∨ dt = h / 2 ∨ dt = h → ∃ t' t, thrustVector ln p.m_dot p.m0 p.isp p.thrust_direction dt = .ok t' ∧
      p.thrustVector dt = .ok t ∧ (t'.minus t).magnitude ≤ 4e-15 * t.magnitude ∧ t.magnitude ≤ 1e-3)
    {k1 k2 k3 : Vec3 × Vec3} (hk1 : p.stage ⟨e0⟩ r v 0 = .ok k1)
    (hk2 : p.stage ⟨e1⟩ (r.plus (k1.1.scaled (h / 2))) (v.plus (k1.2.scaled (h / 2))) (h / 2) = .ok k2)
    (hk3 : p.stage ⟨e1⟩ (r.plus (k2.1.scaled (h / 2))) (v.plus (k2.2.scaled (h / 2))) (h / 2) = .ok k3)
    (hP1 : Spec.Midlatitude R r) (hP2 : Spec.Midlatitude R (r.plus (k1.1.scaled (h / 2))))
    (hP3 : Spec.Midlatitude R (r.plus (k2.1.scaled (h / 2)))) (hP4 : Spec.Midlatitude R (r.plus (k3.1.scaled h)))
    {w F : ℝ} (hw : w = growthRate Earth.MU R) (hFe : F = (0.962 * f + 1e-14) * (Earth.MU / R ^ 2) + 5e-15)
    (hW : w * a + b ≤ 0.01 * w) (hE : 2 * (h * F + 4e-11 * w + 8e-15) ≤ 0.01 * w) :
    ∃ k4 s', p.stage ⟨e2⟩ (r.plus (k3.1.scaled h)) (v.plus (k3.2.scaled h)) h = .ok k4 ∧
      rk4Step lib tan ln p = .ok s' ∧ s'.epoch = ⟨e2⟩ ∧ s'.srp_scalar = 0 ∧ s'.use_perturbations = true ∧
      w * (s'.position.minus (r.plus (((k1.1.plus ((k2.1.scaled 2).plus ((k3.1.scaled 2).plus k4.1))).scaled
        (1 / 6)).scaled h))).magnitude +
      (s'.velocity.minus (v.plus (((k1.2.plus ((k2.2.scaled 2).plus ((k3.2.scaled 2).plus k4.2))).scaled
        (1 / 6)).scaled h))).magnitude ≤
        exp (1.001 * (w * h)) * (w * a + b) + 2 * (h * F + 4e-11 * w + 8e-15) := by
  have hlo := F0.lo
  have R0 : 0 < R := by linarith
  have hM : 0 < Earth.MU := by norm_num [Earth.MU]
  have hr0 := hP1.2.1
  have hh2 : 0 ≤ h / 2 := by linarith
  have w0 : 0 < w := by rw [hw]; exact growthRate_pos R0
  have w1 : w ≤ 2.16e-3 := by rw [hw]; exact growthRate_le hR
  have a0 : 0 ≤ a := (Vec3.magnitude_nonneg _).trans hr
  have b0 : 0 ≤ b := (Vec3.magnitude_nonneg _).trans hv
  have hx : w * h ≤ 0.66 := by
    calc w * h ≤ 2.16e-3 * 301 := by gcongr
      _ ≤ _ := by norm_num
  have hF0 : 0 ≤ F := by
    rw [hFe]
    have : 0 ≤ f := by norm_num at hlo ⊢; linarith
    positivity
  have a1' : a ≤ 0.01 := by
    refine le_of_mul_le_mul_left ?_ w0
    linarith
  have b1' : b ≤ 2.2e-5 := by
    have : 0 ≤ w * a := by positivity
    norm_num at w1 hW ⊢
    linarith
  obtain ⟨r', hr'⟩ : ∃ r', p.state.position = r' := ⟨_, rfl⟩
  obtain ⟨v', hv'⟩ : ∃ v', p.state.velocity = v' := ⟨_, rfl⟩
  rw [hr'] at hr
  rw [hv'] at hv
  have small : ∀ {P V : ℝ}, 0 ≤ V → w * P + V ≤ 2.1 * (w * a + b) + 2 * (h * F + 4e-11 * w + 8e-15) → P ≤ 0.0311 := by
    intro P V hV h
    refine le_of_mul_le_mul_left ?_ w0
    norm_num at h hE hW ⊢
    linarith
  -- the first stage
  obtain ⟨τ0', τ0, c1, c2, c3, c4⟩ := thr 0 (Or.inl rfl)
  obtain ⟨A1', A1, b1, b2, b3, b4⟩ := stage_error_mid (R := R) (δ := a) (s' := { p.state with thrust := τ0' })
    (s := { GCRF.new ⟨e0⟩ r v with thrust := τ0 }) hlib hatan hpow htan (by show p.state.epoch = ⟨e0⟩; rw [← he0]) hpert rfl hsrp rfl F0 hf
    l0.1 l0.2 (by rw [← hr'] at hr; exact hr) (by norm_num at a1' ⊢; linarith) hR hP1 c3 c4
  rw [← hw, ← hFe] at b3
  have b2' : p.stage ⟨e0⟩ r v 0 = .ok (v, A1) := by simp only [RK4.stage, c2, ok_bind]; exact b2
  obtain rfl : k1 = (v, A1) := by rw [hk1, Except.ok.injEq] at b2'; exact b2'
  -- the second stage
  obtain ⟨τ1', τ1, c1', c2', c3', c4'⟩ := thr (h / 2) (Or.inr (Or.inl rfl))
  have ep : ∀ {τ x : ℝ}, τ ≤ h → (1 + 1e-15) * a + x + 2.5e-16 * (120000 + τ * 16) ≤ a + x + 3.2e-11 := by
    intro τ x hτ; norm_num at a1' ⊢; linarith
  have ev : ∀ {τ x : ℝ}, τ ≤ h → (1 + 1e-15) * b + x + 2.5e-16 * (12 + τ * 0.011) ≤ b + x + 4e-15 := by
    intro τ x hτ; norm_num at b1' ⊢; linarith
  have V1 : v.magnitude ≤ 16 := hV.trans (by norm_num)
  have dp2 := (advance_from (τ := h / 2) hh2 hr hv hr0 V1).trans (ep (by linarith))
  have dv2 := (advance_from (τ := h / 2) hh2 hv b3 hV b4).trans (ev (by linarith))
  have n2 : a + 1.0001 * (h / 2 * b) + 3.2e-11 ≤ 0.0311 := by
    have : h / 2 * b ≤ 301 / 2 * 2.2e-5 := by gcongr
    norm_num at a1' this ⊢
    linarith
  obtain ⟨A2', A2, d1, d2, d3, d4⟩ := stage_pair_mid hlib hatan hpow htan (p := p)
    (v' := plus v' (scaled A1' (h / 2))) (v := v.plus (A1.scaled (h / 2))) F1 hf l1.1 l1.2 dp2 n2 hR hP2 c1' c2' c3' c4'
  rw [← hw, ← hFe] at d3
  obtain rfl : k2 = (v.plus (A1.scaled (h / 2)), A2) := by rw [hk2, Except.ok.injEq] at d2; exact d2
  -- the third stage
  have V2 := speed_le' hh2 (by linarith) hV b4
  have dp3 := (advance_from (τ := h / 2) hh2 hr dv2 hr0 V2).trans (ep (by linarith))
  have dv3 := (advance_from (τ := h / 2) hh2 hv d3 hV d4).trans (ev (by linarith))
  have num := @run_numbers h F w a b _ _ _ _ _ _ _ _ _ _ _ _ h0.le w0 hx hF0 a0 b0 le_rfl le_rfl le_rfl le_rfl le_rfl
    le_rfl le_rfl le_rfl le_rfl le_rfl le_rfl le_rfl h1
  obtain ⟨-, n3, n4, n5⟩ := num
  obtain ⟨A3', A3, f1, f2, f3, f4⟩ := stage_pair_mid hlib hatan hpow htan (p := p)
    (v' := plus v' (scaled A2' (h / 2))) (v := v.plus (A2.scaled (h / 2))) F1 hf l1.1 l1.2 dp3
    (small ((Vec3.magnitude_nonneg _).trans dv3) n3) hR hP3 c1' c2' c3' c4'
  rw [← hw, ← hFe] at f3
  obtain rfl : k3 = (v.plus (A2.scaled (h / 2)), A3) := by rw [hk3, Except.ok.injEq] at f2; exact f2
  -- the fourth stage
  have V3 := speed_le' hh2 (by linarith) hV d4
  have dp4 := (advance_from (τ := h) h0.le hr dv3 hr0 V3).trans (ep le_rfl)
  have dv4 := (advance_from (τ := h) h0.le hv f3 hV f4).trans (ev le_rfl)
  obtain ⟨τ2', τ2, g1, g2, g3, g4⟩ := thr h (Or.inr (Or.inr rfl))
  obtain ⟨A4', A4, j1, j2, j3, j4⟩ := stage_pair_mid hlib hatan hpow htan (p := p)
    (v' := plus v' (scaled A3' h)) (v := v.plus (A3.scaled h)) F2 hf l2.1 l2.2 dp4
    (small ((Vec3.magnitude_nonneg _).trans dv4) n4) hR hP4 g1 g2 g3 g4
  rw [← hw, ← hFe] at j3
  have V4 := speed_le' h0.le h1 hV f4
  obtain ⟨mv, mv'⟩ := mean_error hv dv2 dv3 dv4 V1 V2 V3 V4
  obtain ⟨ma, ma'⟩ := mean_error b3 d3 f3 j3 b4 d4 f4 j4
  have fp := (advance_from (τ := h) h0.le hr mv hr0 mv').trans (ep le_rfl)
  have fv := (advance_from (τ := h) h0.le hv ma hV ma').trans (ev le_rfl)
  obtain ⟨x1, x2⟩ := rnd_half hb
  simp only [hv'] at b1
  refine ⟨_, GCRF.new ⟨e2⟩ (plus r' (scaled (mean v' (plus v' (scaled A1' (h / 2))) (plus v' (scaled A2' (h / 2)))
    (plus v' (scaled A3' h))) h)) (plus v' (scaled (mean A1' A2' A3' A4') h)), j2, ?_, rfl, rfl, rfl,
    (add_le_add (mul_le_mul_of_nonneg_left fp w0.le) fv).trans n5⟩
  simp only [rk4Step, hh, hr', hv', c1, b1, ok_bind, x1, x2, he0, ← he1, ← he2, d1, f1, j1, pure_eq_ok]

end

end Openspace.F64
