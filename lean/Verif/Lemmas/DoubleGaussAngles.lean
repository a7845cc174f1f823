import Verif.Lemmas.DoubleGauss
import Verif.Lemmas.DoubleAnomalies

/-!
# Angles of the orbit through two positions in double precision
-/

namespace Openspace

namespace F64

open Real Spec

/-- direction of a point given by its angle -/
theorem atan2_polar {lib : Libm} (hatan : Atan2Accurate lib) {θ x' y' d ρ : ℝ} (hρ : 0 < ρ) (d0 : 0 ≤ d)
    (hd : (x' - ρ * cos θ) ^ 2 + (y' - ρ * sin θ) ^ 2 ≤ d ^ 2) (hs : d ≤ ρ / 100) :
    AngleNear (lib.atan2 y' x') θ (1.02 * (d / ρ) + 4 * u) ∧ |lib.atan2 y' x'| ≤ 3.16 := by
  have hu2 : (1 : ℝ) / 2 ^ 51 = 4 * u := by unfold u; norm_num
  have hu := u_pos
  have hu' := u_tiny
  have e : ρ * cos θ * (ρ * cos θ) + ρ * sin θ * (ρ * sin θ) = ρ * ρ := by linear_combination ρ * ρ * cos_sq_add_sin_sq θ
  have k := atan2_shift hρ e d0 hd hs
  have c := mul_cos_atan2 (ρ * sin θ) (ρ * cos θ)
  have s := mul_sin_atan2 (ρ * sin θ) (ρ * cos θ)
  rw [e, Real.sqrt_mul_self hρ.le] at c s
  obtain ⟨l, hl⟩ := exists_turn (mul_left_cancel₀ hρ.ne' c) (mul_left_cancel₀ hρ.ne' s)
  have h1 : AngleNear (pyAtan2 (ρ * sin θ) (ρ * cos θ)) θ 0 := ⟨l, by rw [hl, sub_self, abs_zero]⟩
  have h2 := hatan y' x'
  rw [hu2] at h2
  refine ⟨((AngleNear.of_abs h2).trans (k.trans h1)).mono (by linarith), ?_⟩
  have i1 : |Complex.arg ⟨x', y'⟩| ≤ π := Complex.abs_arg_le_pi _
  have i2 := abs_sub_abs_le_abs_sub (lib.atan2 y' x') (Complex.arg ⟨x', y'⟩)
  have := Real.pi_lt_d2
  norm_num at hu' this ⊢; linarith

/-- the same brought to one turn -/
theorem atan2_polar_wrapped {lib : Libm} (hatan : Atan2Accurate lib) {θ x' y' d ρ : ℝ} (hρ : 0 < ρ) (d0 : 0 ≤ d)
    (hd : (x' - ρ * cos θ) ^ 2 + (y' - ρ * sin θ) ^ 2 ≤ d ^ 2) (hs : d ≤ ρ / 100) :
    AngleNear (wrapNeg (lib.atan2 y' x')) θ (1.02 * (d / ρ) + 13 * u) := by
  obtain ⟨h1, h2⟩ := atan2_polar hatan hρ d0 hd hs
  exact ((wrapNeg_angle_near (h2.trans (by norm_num))).trans h1).mono (by linarith)

/-- inclination from an approximate normal -/
theorem gauss_inclination {lib : Libm} (hatan : Atan2Accurate lib) {w w' : Vec3} {i δ : ℝ} (hwz : w.z = cos i)
    (hwr : w.x * w.x + w.y * w.y = sin i * sin i) (hi : 0 ≤ sin i) (hδ0 : 0 ≤ δ) (hδ : δ ≤ 0.001)
    (h : (w'.minus w).magnitude ≤ δ) :
    AngleNear (wrapNeg (lib.atan2 (rnd (sqrtNN (rnd (rnd (w'.x * w'.x) + rnd (w'.y * w'.y))))) w'.z)) i (1.02 * (δ + 3.2 * u) + 13 * u) := by
  have hu := u_pos
  have hu' := u_tiny
  obtain ⟨y'', hy''⟩ : ∃ y, y = √(w'.x * w'.x + w'.y * w'.y) := ⟨_, rfl⟩
  obtain ⟨y', hy'⟩ : ∃ y, y = rnd (sqrtNN (rnd (rnd (w'.x * w'.x) + rnd (w'.y * w'.y)))) := ⟨_, rfl⟩
  have k1 := polar_sub_le w w'
  have k2 := polarDistance_near w'
  rw [hwr, Real.sqrt_mul_self hi, hwz, ← hy''] at k1
  rw [← hy', ← hy''] at k2
  have y0'' : 0 ≤ y'' := by rw [hy'']; exact Real.sqrt_nonneg _
  have m0 := (w'.minus w).magnitude_nonneg
  have k3 : (w'.minus w).magnitude ^ 2 ≤ δ ^ 2 := by gcongr
  have k4 : |y'' - sin i| ≤ δ := by
    refine abs_le_of_sq_le_sq ?_ (by positivity)
    nlinarith [sq_nonneg (w'.z - cos i)]
  have y1 := sin_le_one i
  unfold Near at k2
  rw [abs_of_nonneg y0''] at k2
  have k5 : |y' - y''| ≤ 3.2 * u := by
    refine k2.trans ?_
    have : y'' ≤ 1.01 := by have := (_root_.abs_le.mp k4).2; norm_num at hδ ⊢; linarith
    nlinarith
  rw [← hy']
  have k6 : (w'.z - 1 * cos i) ^ 2 + (y' - 1 * sin i) ^ 2 ≤ (δ + 3.2 * u) ^ 2 := by
    have e : y' - 1 * sin i = (y'' - sin i) + (y' - y'') := by ring
    obtain ⟨s, hs⟩ : ∃ s, s = y'' - sin i := ⟨_, rfl⟩
    obtain ⟨t, ht⟩ : ∃ t, t = y' - y'' := ⟨_, rfl⟩
    rw [e, one_mul]
    rw [← hs] at k1 k4 ⊢
    rw [← ht] at k5 ⊢
    have i1 : s * t ≤ δ * (3.2 * u) := by
      calc s * t ≤ |s * t| := le_abs_self _
        _ = |s| * |t| := abs_mul _ _
        _ ≤ _ := by gcongr
    have i2 : t ^ 2 ≤ (3.2 * u) ^ 2 := by rw [← sq_abs]; gcongr
    nlinarith
  have := atan2_polar_wrapped hatan one_pos (by positivity) k6 (by norm_num at hu' hδ ⊢; linarith)
  rwa [div_one] at this

/-- node from an approximate normal -/
theorem gauss_node {lib : Libm} (hatan : Atan2Accurate lib) {w w' : Vec3} {Ω ρ δ : ℝ} (hρ : 0 < ρ) (hx : w.x = ρ * sin Ω)
    (hy : w.y = -(ρ * cos Ω)) (hδ0 : 0 ≤ δ) (hδ : δ ≤ ρ / 100) (h : (w'.minus w).magnitude ≤ δ) :
    AngleNear (wrapNeg (lib.atan2 w'.x (-w'.y))) Ω (1.02 * (δ / ρ) + 13 * u) := by
  have m0 := (w'.minus w).magnitude_nonneg
  have k3 : (w'.minus w).magnitude ^ 2 ≤ δ ^ 2 := by gcongr
  rw [Vec3.magnitude_sq] at k3
  simp only [Vec3.minus] at k3
  rw [hx, hy] at k3
  exact atan2_polar_wrapped hatan hρ hδ0 (by nlinarith [sq_nonneg (w'.z - w.z)]) hδ

/-- argument of latitude from an approximate normal -/
theorem gauss_latitude {lib : Libm} (hatan : Atan2Accurate lib) {p w w' : Vec3} {φ ρ r δ : ℝ} (hρ : 0 < ρ) (hr0 : 0 < r)
    (hr : p.magnitude = r) (hw1 : w.dot w = 1) (hz : p.z = r * ρ * sin φ) (hx : -p.x * w.y + p.y * w.x = r * ρ * cos φ)
    (hδ0 : 0 ≤ δ) (hδ1 : δ ≤ 0.001) (hδ : δ + 3.2 * u ≤ ρ / 100) (h : (w'.minus w).magnitude ≤ δ) :
    AngleNear (lib.atan2 p.z (rnd (rnd (-p.x * w'.y) + rnd (p.y * w'.x)))) φ (1.02 * ((δ + 3.2 * u) / ρ) + 4 * u) ∧
      |lib.atan2 p.z (rnd (rnd (-p.x * w'.y) + rnd (p.y * w'.x)))| ≤ 3.16 := by
  have hu := u_pos
  have hu' := u_tiny
  have hr2 := Vec3.magnitude_sq p
  rw [hr] at hr2
  have m0 := (w'.minus w).magnitude_nonneg
  have k3 : (w'.minus w).magnitude ^ 2 ≤ δ ^ 2 := by gcongr
  rw [Vec3.magnitude_sq] at k3
  simp only [Vec3.minus] at k3
  have hpxy : p.x * p.x + p.y * p.y ≤ r ^ 2 := by rw [hr2]; nlinarith [mul_self_nonneg p.z]
  have d1 : |-p.x * (w'.y - w.y) + p.y * (w'.x - w.x)| ≤ r * δ := by
    refine abs_le_of_sq_le_sq ?_ (by positivity)
    have i := mul_le_mul hpxy k3 (add_nonneg (add_nonneg (mul_self_nonneg _) (mul_self_nonneg _)) (mul_self_nonneg _))
      (sq_nonneg r)
    rw [mul_pow]
    refine le_trans ?_ i
    have c := sq_nonneg (p.x * (w'.x - w.x) + p.y * (w'.y - w.y))
    have c2 : 0 ≤ (p.x * p.x + p.y * p.y) * ((w'.z - w.z) * (w'.z - w.z)) :=
      mul_nonneg (add_nonneg (mul_self_nonneg _) (mul_self_nonneg _)) (mul_self_nonneg _)
    nlinarith
  have d2 := sum_component (-p.x * w'.y) (p.y * w'.x)
  have d3 : |-p.x * w'.y| + |p.y * w'.x| ≤ 1.5 * r := by
    rw [abs_mul, abs_mul, abs_neg]
    refine (planar_le hr0.le hpxy (b := 1.01) (by norm_num) ?_).trans (by linarith)
    have c1 := magnitude_sub_le w' w
    rw [Vec3.magnitude_unit hw1] at c1
    have c2 : w'.magnitude ≤ 1.01 := by
      have := (_root_.abs_le.mp (c1.trans h)).2
      norm_num at hδ1 ⊢; linarith
    have c3 : w'.magnitude ^ 2 ≤ 1.01 ^ 2 := by
      have := w'.magnitude_nonneg
      gcongr
    rw [Vec3.magnitude_sq] at c3
    nlinarith [mul_self_nonneg w'.z]
  have d4 : |rnd (rnd (-p.x * w'.y) + rnd (p.y * w'.x)) - r * ρ * cos φ| ≤ r * (δ + 3.2 * u) := by
    rw [← hx]
    have t := abs_sub_le (rnd (rnd (-p.x * w'.y) + rnd (p.y * w'.x))) (-p.x * w'.y + p.y * w'.x) (-p.x * w.y + p.y * w.x)
    have e' : -p.x * w'.y + p.y * w'.x - (-p.x * w.y + p.y * w.x) = -p.x * (w'.y - w.y) + p.y * (w'.x - w.x) := by ring
    rw [e'] at t
    have : 2.1 * u * (|-p.x * w'.y| + |p.y * w'.x|) ≤ 2.1 * u * (1.5 * r) := by gcongr
    have := mul_pos hu hr0
    linarith
  have k := atan2_polar hatan (θ := φ) (x' := rnd (rnd (-p.x * w'.y) + rnd (p.y * w'.x)))
    (y' := p.z) (d := r * (δ + 3.2 * u)) (ρ := r * ρ) (by positivity) (by positivity)
    (by
      rw [hz, sub_self, zero_pow (by norm_num), add_zero, ← sq_abs]
      gcongr)
    (by
      rw [mul_div_assoc]
      gcongr)
  rwa [mul_div_mul_left _ _ hr0.ne'] at k

/-- perigee as difference of argument of latitude and anomaly -/
theorem gauss_perigee {ua ta φ ν ε δ : ℝ} (h1 : AngleNear ua φ ε) (h2 : AngleNear ta ν δ) (a : |ua| ≤ 3.16) (b0 : 0 ≤ ta) (b1 : ta ≤ 6.4) :
    AngleNear (wrapNeg (rnd (ua - ta))) (φ - ν) (ε + δ + 19 * u) := by
  have hu := u_pos
  have hu' := u_tiny
  obtain ⟨a0, a1⟩ := _root_.abs_le.mp a
  have s7 : |ua - ta| ≤ 9.6 := by
    rw [_root_.abs_le]; constructor <;> linarith
  have s8 : |rnd (ua - ta) - (ua - ta)| ≤ 9.6 * u := by
    refine (rnd_u _).trans ?_
    rw [mul_comm]; gcongr
  have s9 : |rnd (ua - ta)| ≤ 10 := by
    have := abs_sub_abs_le_abs_sub (rnd (ua - ta)) (ua - ta)
    norm_num at hu' s7 s8 ⊢; linarith
  exact ((wrapNeg_angle_near s9).trans ((AngleNear.of_abs s8).trans (h1.sub h2))).mono (by linarith)

/-- root of one minus the square of the eccentricity -/
theorem gauss_root {e e' ζ : ℝ} (he0 : 0 ≤ e) (he : e ≤ 0.9) (h : |e' - e| ≤ ζ) (hζ0 : 1.7e-11 ≤ ζ) (hζ : ζ ≤ 3e-9) :
    |rnd (√(rnd (1 - rnd (e' * e')))) - √(1 - e * e)| ≤ 2.1 * ζ := by
  have hu := u_pos
  have hu' := u_tiny
  have u2 : u ≤ 0.0001 * ζ := by
    calc u ≤ 0.0001 * 1.7e-11 := by unfold u; norm_num
      _ ≤ _ := by gcongr
  have e1 : |e' * e' - e * e| ≤ 1.801 * ζ := by
    rw [show e' * e' - e * e = (e' - e) * (e' - e) + 2 * e * (e' - e) by ring]
    refine (abs_add_le _ _).trans ?_
    rw [abs_mul, abs_mul, abs_of_nonneg (show 0 ≤ 2 * e by positivity)]
    have a1 : |e' - e| * |e' - e| ≤ 3e-9 * ζ := by
      have := h.trans hζ
      gcongr
    have a2 : 2 * e * |e' - e| ≤ 2 * 0.9 * ζ := by gcongr
    norm_num at a1 a2 ⊢; linarith
  have ζ1 : ζ ≤ 0.00001 := hζ.trans (by norm_num)
  have ee0 : 0 ≤ e * e := mul_self_nonneg e
  have ee1 : e * e ≤ 0.81 := by nlinarith
  have e2 := rabs e1 (M := 1) (by rw [abs_of_nonneg ee0]; linarith)
  have e3 : |1 - rnd (e' * e') - (1 - e * e)| ≤ 1.8012 * ζ := by
    rw [show 1 - rnd (e' * e') - (1 - e * e) = -(rnd (e' * e') - e * e) by ring, abs_neg]
    linarith
  have e4 := rabs e3 (M := 1.1) (by rw [abs_of_nonneg (by linarith)]; linarith)
  obtain ⟨q', hq'⟩ : ∃ q, q = rnd (1 - rnd (e' * e')) := ⟨_, rfl⟩
  obtain ⟨q, hq⟩ : ∃ q, q = 1 - e * e := ⟨_, rfl⟩
  rw [← hq', ← hq] at e4
  rw [← hq', ← hq]
  have q0 : 0.19 ≤ q := by rw [hq]; linarith
  have q1 : q ≤ 1 := by rw [hq]; linarith
  have q0' : 0.1899 ≤ q' := by
    have := (_root_.abs_le.mp e4).1
    linarith
  obtain ⟨t, ht⟩ : ∃ t, t = √q := ⟨_, rfl⟩
  obtain ⟨t', ht'⟩ : ∃ t, t = √q' := ⟨_, rfl⟩
  have t1 : 0.435 ≤ t := by rw [ht]; exact Real.le_sqrt_of_sq_le (by norm_num; linarith)
  have t1' : 0.435 ≤ t' := by rw [ht']; exact Real.le_sqrt_of_sq_le (by norm_num; linarith)
  have tt : t * t = q := by rw [ht]; exact Real.mul_self_sqrt (by linarith)
  have tt' : t' * t' = q' := by rw [ht']; exact Real.mul_self_sqrt (by linarith)
  rw [← ht, ← ht']
  have t2 : |t' - t| ≤ 2.08 * ζ := by
    have f : |q' - q| = |t' - t| * (t' + t) := by
      rw [← abs_of_pos (show 0 < t' + t by linarith), ← abs_mul]; congr 1; rw [← tt, ← tt']; ring
    have : |t' - t| * 0.87 ≤ |t' - t| * (t' + t) := by gcongr; linarith
    linarith
  have t3 : t ≤ 1 := by rw [ht]; exact Real.sqrt_le_one.mpr q1
  have t4 := rabs t2 (M := 1.1) (by rw [abs_of_pos (by linarith)]; linarith)
  linarith

/-- eccentric anomaly computed from an approximate true anomaly -/
theorem gauss_eccentric {lib : Libm} (hlib : Accurate lib) (hatan : Atan2Accurate lib) {e e' ν ta E θ ζ : ℝ} (he0 : 0 ≤ e) (he : e ≤ 0.9)
    (h : |e' - e| ≤ ζ) (hζ0 : 1.7e-11 ≤ ζ) (hζ : ζ ≤ 3e-9) (hta : AngleNear ta ν θ) (hθ0 : 1.7e-11 ≤ θ) (hθ : θ ≤ 2e-5)
    (hE : IsEccentricAnomaly e ν E) :
    AngleNear (lib.atan2 (rnd (rnd (√(rnd (1 - rnd (e' * e')))) * lib.sin ta)) (rnd (lib.cos ta + e'))) E (20.7 * θ + 31.8 * ζ) ∧
      |lib.atan2 (rnd (rnd (√(rnd (1 - rnd (e' * e')))) * lib.sin ta)) (rnd (lib.cos ta + e'))| ≤ 3.16 := by
  have hu := u_pos
  have hu' := u_tiny
  have u2 : u ≤ 0.0001 * θ := by
    calc u ≤ 0.0001 * 1.7e-11 := by unfold u; norm_num
      _ ≤ _ := by gcongr
  have ζ1 : ζ ≤ 0.00001 := hζ.trans (by norm_num)
  have θ1 : θ ≤ 0.00002 := hθ.trans (by norm_num)
  have ζ2 : 0 < ζ := lt_of_lt_of_le (by norm_num) hζ0
  have θ2 : 0 < θ := lt_of_lt_of_le (by norm_num) hθ0
  have g := gauss_root he0 he h hζ0 hζ
  obtain ⟨q', hq'⟩ : ∃ q, q = rnd (√(rnd (1 - rnd (e' * e')))) := ⟨_, rfl⟩
  obtain ⟨q, hq⟩ : ∃ q, q = √(1 - e * e) := ⟨_, rfl⟩
  rw [← hq', ← hq] at g
  rw [← hq']
  have q0 : 0 ≤ q := by rw [hq]; exact sqrt_nonneg _
  have q1 : q ≤ 1 := by rw [hq]; exact Real.sqrt_le_one.mpr (by linarith [mul_self_nonneg e])
  obtain ⟨hE1, hE2⟩ := hE
  rw [sq, ← hq] at hE2
  have s1 := angle_sin hlib hta
  have c1 := angle_cos hlib hta
  have s2 := lib_sin_le hlib ta
  have y1 : |q' * lib.sin ta - q * sin ν| ≤ 1.001 * θ + 2.103 * ζ := by
    rw [show q' * lib.sin ta - q * sin ν = (q' - q) * lib.sin ta + q * (lib.sin ta - sin ν) by ring]
    refine (abs_add_le _ _).trans ?_
    rw [abs_mul, abs_mul, abs_of_nonneg q0]
    have a1 : |q' - q| * |lib.sin ta| ≤ 2.1 * ζ * 1.001 := by gcongr
    have a2 : q * |lib.sin ta - sin ν| ≤ 1 * (θ + 2 * u) := by gcongr
    linarith
  have y2 := rabs y1 (M := 1.1) (by
    have : |q * sin ν| ≤ 1 * 1 := by
      rw [abs_mul, abs_of_nonneg q0]; gcongr; exact abs_sin_le_one ν
    linarith)
  have x1 : |lib.cos ta + e' - (cos ν + e)| ≤ θ + 2 * u + ζ := by
    rw [show lib.cos ta + e' - (cos ν + e) = (lib.cos ta - cos ν) + (e' - e) by ring]
    exact (abs_add_le _ _).trans (add_le_add c1 h)
  have x2 := rabs x1 (M := 2) (by
    have : |cos ν + e| ≤ 1.9 := by
      refine (abs_add_le _ _).trans ?_
      rw [abs_of_nonneg he0]
      linarith [abs_cos_le_one ν]
    linarith)
  obtain ⟨y', hy'⟩ : ∃ y, y = rnd (q' * lib.sin ta) := ⟨_, rfl⟩
  obtain ⟨x', hx'⟩ : ∃ y, y = rnd (lib.cos ta + e') := ⟨_, rfl⟩
  rw [← hy'] at y2 ⊢
  rw [← hx'] at x2 ⊢
  have ρ1 : 0.1 ≤ 1 + e * cos ν := by nlinarith [neg_one_le_cos ν]
  obtain ⟨ρ, hρ⟩ : ∃ ρ, ρ = 1 + e * cos ν := ⟨_, rfl⟩
  rw [← hρ] at hE1 hE2 ρ1
  rw [← hE2] at y2
  rw [← hE1] at x2
  have y3 : |y' - ρ * sin E| ≤ 1.002 * θ + 2.103 * ζ := by linarith
  have x3 : |x' - ρ * cos E| ≤ 1.001 * θ + ζ := by linarith
  have dd : (x' - ρ * cos E) ^ 2 + (y' - ρ * sin E) ^ 2 ≤ (2.003 * θ + 3.103 * ζ) ^ 2 := by
    have i1 : (x' - ρ * cos E) ^ 2 ≤ (1.001 * θ + ζ) ^ 2 := by rw [← sq_abs]; gcongr
    have i2 : (y' - ρ * sin E) ^ 2 ≤ (1.002 * θ + 2.103 * ζ) ^ 2 := by rw [← sq_abs]; gcongr
    have : 0 ≤ (1.001 * θ + ζ) * (1.002 * θ + 2.103 * ζ) := by positivity
    nlinarith
  have ρ0 : 0 < ρ := by linarith
  obtain ⟨k1, k2⟩ := atan2_polar hatan ρ0 (by positivity) dd (by linarith)
  refine ⟨k1.mono ?_, k2⟩
  have : (2.003 * θ + 3.103 * ζ) / ρ ≤ 10 * (2.003 * θ + 3.103 * ζ) := by
    rw [div_le_iff₀ ρ0]
    have : 0 < 2.003 * θ + 3.103 * ζ := by positivity
    nlinarith
  linarith

/-- mean anomaly computed from an approximate true anomaly -/
theorem gauss_mean {lib : Libm} (hlib : Accurate lib) (hatan : Atan2Accurate lib) {e e' ν ta E θ ζ : ℝ} (he0 : 0 ≤ e) (he : e ≤ 0.9)
    (h : |e' - e| ≤ ζ) (hζ0 : 1.7e-11 ≤ ζ) (hζ : ζ ≤ 3e-9) (hta : AngleNear ta ν θ) (hθ0 : 1.7e-11 ≤ θ) (hθ : θ ≤ 2e-5)
    (hE : IsEccentricAnomaly e ν E) : AngleNear (gaussMean lib e' ta) (E - e * sin E) (40 * θ + 62 * ζ) := by
  have hu := u_pos
  have hu' := u_tiny
  have u2 : u ≤ 0.0001 * θ := by
    calc u ≤ 0.0001 * 1.7e-11 := by unfold u; norm_num
      _ ≤ _ := by gcongr
  have ζ1 : ζ ≤ 0.00001 := hζ.trans (by norm_num)
  have ζ2 : 0 < ζ := lt_of_lt_of_le (by norm_num) hζ0
  have θ1 : θ ≤ 0.00002 := hθ.trans (by norm_num)
  have θ2 : 0 < θ := lt_of_lt_of_le (by norm_num) hθ0
  obtain ⟨k1, k2⟩ := gauss_eccentric hlib hatan he0 he h hζ0 hζ hta hθ0 hθ hE
  simp only [gaussMean]
  obtain ⟨E', hE'⟩ : ∃ x, x = lib.atan2 (rnd (rnd (√(rnd (1 - rnd (e' * e')))) * lib.sin ta)) (rnd (lib.cos ta + e')) := ⟨_, rfl⟩
  rw [← hE'] at k1 k2 ⊢
  have s1 := angle_sin hlib k1
  have s2 := lib_sin_le hlib E'
  have s3 : |e' * lib.sin E' - e * sin E| ≤ 1.001 * ζ + 0.9 * (20.7 * θ + 31.8 * ζ + 2 * u) := by
    rw [show e' * lib.sin E' - e * sin E = (e' - e) * lib.sin E' + e * (lib.sin E' - sin E) by ring]
    refine (abs_add_le _ _).trans (add_le_add ?_ ?_)
    · rw [abs_mul, mul_comm]; gcongr
    · rw [abs_mul, abs_of_nonneg he0]; gcongr
  have i : |e * sin E| ≤ 0.9 * 1 := by
    rw [abs_mul, abs_of_nonneg he0]; gcongr; exact abs_sin_le_one E
  have s4 := rabs s3 (M := 1) (by linarith)
  have s5 : |E' - rnd (e' * lib.sin E') - (E' - rnd (e' * lib.sin E'))| ≤ 0 := by rw [sub_self, abs_zero]
  have s6 : |E' - rnd (e' * lib.sin E')| ≤ 5 := by
    refine (abs_sub _ _).trans ?_
    have := abs_sub_abs_le_abs_sub (rnd (e' * lib.sin E')) (e * sin E)
    linarith
  have s7 := rabs s5 (M := 5) (by linarith)
  have A := (AngleNear.of_abs s7).trans (k1.sub (AngleNear.of_abs s4))
  exact A.mono (by linarith)

/-! ## error budgets -/

theorem u_times {c : ℝ} (hc : 0 ≤ c) : c * u ≤ c * (1.1103e-16) := by
  gcongr; unfold u; norm_num

/-- the anomaly of the first position -/
theorem gauss_true_anomaly {lib : Libm} (hatan : Atan2Accurate lib) {e s ν x' z' : ℝ} (e0 : 1e-4 ≤ e) (he : e ≤ 0.9) (hs : 0.01 ≤ s)
    (hs1 : s ≤ 1) (h : (x' - e * cos ν) ^ 2 + (z' - e * sin ν) ^ 2 ≤ (1.72e-11 / s) ^ 2) :
    1.76e-11 ≤ 1.76e-11 / (e * s) ∧ 1.76e-11 / (e * s) ≤ 1.76e-5 ∧
      AngleNear (wrapNeg (lib.atan2 z' x')) ν (1.76e-11 / (e * s) - 23 * u) := by
  have hu := u_pos
  have sp : 0 < s := by norm_num at hs; linarith
  have ep : 0 < e := lt_of_lt_of_le (by norm_num) e0
  have es : 0 < e * s := by positivity
  have es1 : e * s ≤ 1 := by nlinarith
  have η1 : 1.72e-11 / s ≤ 1.72e-9 := by
    rw [div_le_iff₀ sp]; norm_num at hs ⊢; linarith
  have θ1 : 1.76e-11 ≤ 1.76e-11 / (e * s) := by
    rw [le_div_iff₀ es]; norm_num; linarith
  have θ2 : 1.76e-11 / (e * s) ≤ 1.76e-5 := by
    rw [div_le_iff₀ es]
    have : (1e-4 : ℝ) * 0.01 ≤ e * s := by gcongr
    norm_num at this ⊢; linarith
  have ta := atan2_polar_wrapped hatan ep (by positivity) h (by norm_num at η1 e0 ⊢; linarith)
  refine ⟨θ1, θ2, ta.mono ?_⟩
  obtain ⟨θ, hθ⟩ : ∃ θ, θ = 1.76e-11 / (e * s) := ⟨_, rfl⟩
  have : 1.72e-11 / s / e = 1.72e-11 / 1.76e-11 * θ := by rw [hθ]; field_simp
  rw [this, ← hθ]
  rw [← hθ] at θ1
  have := u_times (c := 36) (by norm_num)
  norm_num at this θ1 ⊢; linarith

theorem budget_mean {e s γ : ℝ} (e0 : 1e-4 ≤ e) (he : e ≤ 0.9) (hs : 0.01 ≤ s) (hs1 : s ≤ 1) (hγ : 1e-4 ≤ γ) :
    1.7e-11 ≤ 1.72e-11 / s + 1.5e-15 / γ ∧ 1.72e-11 / s + 1.5e-15 / γ ≤ 3e-9 ∧
      40 * (1.76e-11 / (e * s)) + 62 * (1.72e-11 / s + 1.5e-15 / γ) ≤ 1.7e-9 / (e * s) + 1e-13 / γ := by
  have sp : 0 < s := by norm_num at hs; linarith
  have ep : 0 < e := lt_of_lt_of_le (by norm_num) e0
  have es : 0 < e * s := by positivity
  have γ0 : 0 < γ := lt_of_lt_of_le (by norm_num) hγ
  obtain ⟨G, hG⟩ : ∃ G, G = 1.5e-15 / γ := ⟨_, rfl⟩
  obtain ⟨η, hη⟩ : ∃ η, η = 1.72e-11 / s := ⟨_, rfl⟩
  obtain ⟨θ, hθ⟩ : ∃ θ, θ = 1.76e-11 / (e * s) := ⟨_, rfl⟩
  have G1 : G ≤ 1.5e-11 := by
    rw [hG, div_le_iff₀ γ0]; norm_num at hγ ⊢; linarith
  have G0 : 0 < G := by rw [hG]; positivity
  have η1 : η ≤ 1.72e-9 := by
    rw [hη, div_le_iff₀ sp]; norm_num at hs ⊢; linarith
  have η2 : 1.72e-11 ≤ η := by
    rw [hη, le_div_iff₀ sp]; norm_num; linarith
  have q1 : 1.7e-9 / (e * s) = 1.7e-9 / 1.76e-11 * θ := by rw [hθ]; field_simp
  have q2 : 1e-13 / γ = 1e-13 / 1.5e-15 * G := by rw [hG]; field_simp
  have θ0 : 0 < θ := by rw [hθ]; positivity
  have q3 : η ≤ 0.9 * (1.72e-11 / 1.76e-11 * θ) := by
    have : η = e * (1.72e-11 / 1.76e-11 * θ) := by rw [hη, hθ]; field_simp
    rw [this]
    gcongr
  rw [← hG, ← hη, ← hθ, q1, q2]
  refine ⟨?_, ?_, ?_⟩
  · norm_num at η2 ⊢; linarith
  · norm_num at η1 G1 ⊢; linarith
  · norm_num at q3 ⊢; linarith

theorem budget_inclination {s : ℝ} (hs : 0.01 ≤ s) (hs1 : s ≤ 1) :
    53 * u / s ≤ 5.89e-13 ∧ 1.02 * (53 * u / s + 3.2 * u) + 13 * u ≤ 8e-15 / s := by
  have hu := u_pos
  have sp : 0 < s := by norm_num at hs; linarith
  constructor
  · rw [div_le_iff₀ sp]
    have := u_times (c := 53) (by norm_num)
    norm_num at hs this ⊢; linarith
  · rw [le_div_iff₀ sp]
    have : (1.02 * (53 * u / s + 3.2 * u) + 13 * u) * s = 54.06 * u + 16.264 * u * s := by field_simp; ring
    rw [this]
    have i1 : 16.264 * u * s ≤ 16.264 * u * 1 := by gcongr
    have i2 := u_times (c := 71) (by norm_num)
    norm_num at i1 i2 ⊢; linarith

theorem budget_node {s ρ : ℝ} (hs : 0.01 ≤ s) (hs1 : s ≤ 1) (ρ0 : 0 < ρ) (ρ1 : ρ ≤ 1) :
    1.02 * (53 * u / s / ρ) + 13 * u ≤ 7.5e-15 / (s * ρ) ∧ 1.02 * ((53 * u / s + 3.2 * u) / ρ) ≤ 6.5e-15 / (s * ρ) := by
  have hu := u_pos
  have sp : 0 < s := by norm_num at hs; linarith
  have sρ : 0 < s * ρ := by positivity
  have sρ1 : s * ρ ≤ 1 := by nlinarith
  constructor
  · rw [le_div_iff₀ sρ]
    have : (1.02 * (53 * u / s / ρ) + 13 * u) * (s * ρ) = 54.06 * u + 13 * u * (s * ρ) := by field_simp; ring
    rw [this]
    have i1 : 13 * u * (s * ρ) ≤ 13 * u * 1 := by gcongr
    have i2 := u_times (c := 67.1) (by norm_num)
    norm_num at i1 i2 ⊢; linarith
  · rw [le_div_iff₀ sρ]
    have : 1.02 * ((53 * u / s + 3.2 * u) / ρ) * (s * ρ) = 54.06 * u + 3.264 * u * s := by field_simp; ring
    rw [this]
    have i1 : 3.264 * u * s ≤ 3.264 * u * 1 := by gcongr
    have i2 := u_times (c := 57.4) (by norm_num)
    norm_num at i1 i2 ⊢; linarith

end F64

end Openspace
