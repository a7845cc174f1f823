import Verif.Lemmas.DoubleFormulas
import Verif.Lemmas.DoubleEarth
import Verif.Spec.Exponential
import Verif.Props.DoubleGravity

/-!
# Property C150: the orbit formulas in double precision
-/

namespace Openspace

open Real

namespace F64

theorem near_third : |rnd (1 / 3) - 1 / 3| ≤ u * (1 / 3) := by
  have := rnd_u (1 / 3)
  rwa [abs_of_pos (by norm_num : (0 : ℝ) < 1 / 3)] at this

/-- the cube root as a power with a rounded exponent -/
theorem cbrt_near {lib : Libm} (hpow : Spec.PowAccurate lib) {y x k : ℝ} (h : Near y x k) (hx : 1e-20 ≤ x) (hx' : x ≤ 1e20)
    (hk0 : 0 ≤ k) (hk : k ≤ 10) : ∃ z, cbrt lib y = .ok z ∧ Near z (x ^ (1 / 3 : ℝ)) (k + 18.2) := by
  have hu := u_pos
  have hu' := u_tiny
  have x0 : 0 < x := lt_of_lt_of_le (by norm_num) hx
  unfold Near at h
  rw [abs_of_pos x0] at h
  have hku : k * u ≤ 1.2e-15 := by
    calc k * u ≤ 10 * (12 / 10 ^ 17) := by gcongr
      _ = _ := by norm_num
  have hy1 : (1 - k * u) * x ≤ y := by linarith [(_root_.abs_le.mp h).1]
  have hy2 : y ≤ (1 + k * u) * x := by linarith [(_root_.abs_le.mp h).2]
  have y0 : 0 < y := lt_of_lt_of_le (mul_pos (by linarith) x0) hy1
  refine ⟨lib.pow y (rnd (1 / 3)), by rw [cbrt, if_neg (not_lt.mpr y0.le)], ?_⟩
  -- logarithms
  obtain ⟨L, hL⟩ : ∃ L, L = log x := ⟨_, rfl⟩
  obtain ⟨M, hM⟩ : ∃ M, M = log y := ⟨_, rfl⟩
  have l10 : log 10 < 2.31 := by
    rw [Real.log_lt_iff_lt_exp (by norm_num)]
    have h1 := Real.exp_one_gt_d9
    have : rexp 2.31 = rexp 1 * rexp 1 * rexp 0.31 := by rw [← Real.exp_add, ← Real.exp_add]; norm_num
    rw [this]
    have h2 := Real.quadratic_le_exp_of_nonneg (x := 0.31) (by norm_num)
    have h3 : 2.7182818283 * 2.7182818283 ≤ rexp 1 * rexp 1 := by gcongr
    have h4 : 2.7182818283 * 2.7182818283 * (1 + 0.31 + 0.31 ^ 2 / 2) ≤ rexp 1 * rexp 1 * rexp 0.31 := by gcongr
    norm_num at h4 ⊢
    linarith
  have L1 : |L| ≤ 46.2 := by
    rw [hL, _root_.abs_le]
    constructor
    · have := Real.log_le_log (by norm_num) hx
      rw [show (1e-20 : ℝ) = (10 ^ 20)⁻¹ by norm_num, Real.log_inv, Real.log_pow] at this
      norm_num at this l10 ⊢; linarith
    · have := Real.log_le_log x0 hx'
      rw [show (1e20 : ℝ) = 10 ^ 20 by norm_num, Real.log_pow] at this
      norm_num at this l10 ⊢; linarith
  have ML : |M - L| ≤ 1.001 * (k * u) := by
    rw [hM, hL, ← Real.log_div y0.ne' x0.ne']
    have r1 : 1 - k * u ≤ y / x := by rw [le_div_iff₀ x0]; exact hy1
    have r2 : y / x ≤ 1 + k * u := by rw [div_le_iff₀ x0]; exact hy2
    have r0 : 0 < y / x := by positivity
    have ku0 : 0 ≤ k * u := by positivity
    rw [_root_.abs_le]
    constructor
    · have i1 := Real.one_sub_inv_le_log_of_pos r0
      have i2 : (y / x)⁻¹ ≤ (1 - k * u)⁻¹ := by
        have : 0 < 1 - k * u := by linarith
        gcongr
      have i3 : (1 - k * u)⁻¹ ≤ 1 + 1.001 * (k * u) := by
        rw [inv_le_iff_one_le_mul₀ (by linarith)]
        nlinarith
      linarith
    · have := Real.log_le_sub_one_of_pos r0
      linarith
  -- the exponents
  obtain ⟨t, ht⟩ : ∃ t, t = rnd (1 / 3) := ⟨_, rfl⟩
  have t1 := near_third
  rw [← ht] at t1 ⊢
  have t2 : |t| ≤ 0.34 := by
    have := abs_sub_abs_le_abs_sub t (1 / 3)
    rw [abs_of_pos (by norm_num : (0 : ℝ) < 1 / 3)] at this
    norm_num at hu' t1 ⊢; linarith
  have d : |M * t - L * (1 / 3)| ≤ (0.35 * k + 15.4) * u := by
    rw [show M * t - L * (1 / 3) = (M - L) * t + L * (t - 1 / 3) by ring]
    refine (abs_add_le _ _).trans ?_
    rw [abs_mul, abs_mul]
    have i1 : |M - L| * |t| ≤ 1.001 * (k * u) * 0.34 := by gcongr
    have i2 : |L| * |t - 1 / 3| ≤ 46.2 * (u * (1 / 3)) := by gcongr
    have : 0 ≤ k * u := by positivity
    norm_num at i1 i2 ⊢; linarith
  obtain ⟨D, hD⟩ : ∃ D, D = M * t - L * (1 / 3) := ⟨_, rfl⟩
  rw [← hD] at d
  obtain ⟨X, hX⟩ : ∃ X, X = x ^ (1 / 3 : ℝ) := ⟨_, rfl⟩
  have X0 : 0 < X := by rw [hX]; positivity
  have e1 : y ^ t = X * rexp D := by
    rw [hX, Real.rpow_def_of_pos y0, Real.rpow_def_of_pos x0, ← Real.exp_add, ← hM, ← hL, hD]
    congr 1; ring
  have D1 : |D| ≤ 1e-10 := by
    refine d.trans ?_
    have : (0.35 * k + 15.4) * u ≤ (0.35 * 10 + 15.4) * (12 / 10 ^ 17) := by gcongr
    norm_num at this ⊢; linarith
  have e2 : |rexp D - 1| ≤ 1.001 * |D| := by
    have h1 : |rexp D - 1 - D| ≤ D ^ 2 := Real.abs_exp_sub_one_sub_id_le (D1.trans (by norm_num))
    have h2 : D ^ 2 ≤ 0.001 * |D| := by
      rw [← sq_abs, sq]; gcongr; exact D1.trans (by norm_num)
    have h3 := abs_sub_abs_le_abs_sub (rexp D - 1) D
    linarith
  have e3 : |y ^ t - X| ≤ (0.351 * k + 15.5) * u * X := by
    rw [e1, show X * rexp D - X = X * (rexp D - 1) by ring, abs_mul, abs_of_pos X0]
    have : |rexp D - 1| ≤ (0.351 * k + 15.5) * u := by
      refine e2.trans ?_
      have : 1.001 * |D| ≤ 1.001 * ((0.35 * k + 15.4) * u) := by gcongr
      have : 0 ≤ k * u := by positivity
      norm_num at *; nlinarith
    calc X * |rexp D - 1| ≤ X * ((0.351 * k + 15.5) * u) := by gcongr
      _ = _ := by ring
  have p := hpow y t y0
  rw [show (1 : ℝ) / 2 ^ 52 = 2 * u by unfold u; norm_num] at p
  have e4 : y ^ t ≤ 1.001 * X := by
    have := (_root_.abs_le.mp e3).2
    have : (0.351 * k + 15.5) * u ≤ 0.001 := by
      have : (0.351 * k + 15.5) * u ≤ (0.351 * 10 + 15.5) * (12 / 10 ^ 17) := by gcongr
      norm_num at this ⊢; linarith
    have : (0.351 * k + 15.5) * u * X ≤ 0.001 * X := by gcongr
    linarith
  unfold Near
  rw [← hX, abs_of_pos X0]
  have := abs_sub_le (lib.pow y t) (y ^ t) X
  have i : 2 * u * y ^ t ≤ 2 * u * (1.001 * X) := by gcongr
  have j : 0 ≤ k * (u * X) := by positivity
  have j2 : 0 ≤ u * X := by positivity
  norm_num at *
  nlinarith

end F64

/-- days from hours, minutes and seconds, and radians from degrees, minutes and seconds -/
theorem C150_units {a b c : ℝ} (ha : 0 ≤ a) (hb : 0 ≤ b) (hc : 0 ≤ c) :
    hmsToDecimalDay a b c = a / 24 + b / 1440 + c / 86400 ∧
    |F64.hmsToDecimalDay a b c - hmsToDecimalDay a b c| ≤ 4e-16 * hmsToDecimalDay a b c ∧
    dmsToRadians a b c = (a + b / 60 + c / 3600) * (π / 180) ∧
    |F64.dmsToRadians a b c - dmsToRadians a b c| ≤ 8e-16 * dmsToRadians a b c := by
  have e : (a + b / 60 + c / 3600) * (π / 180) = dmsToRadians a b c := by
    simp only [dmsToRadians, MINUTES_IN_HOUR, SECONDS_IN_HOUR, pyRadians, pyPi]
    ring
  refine ⟨rfl, ?_, e.symm, ?_⟩
  · have h := (((F64.near_rnd (a / 24)).addr (F64.near_rnd (b / 1440)) (by positivity) (by positivity) (by norm_num)
      (by norm_num)).addr ((F64.near_rnd (c / 86400)).mono (by norm_num)) (by positivity) (by positivity) (by norm_num)
      (by norm_num)).rel (c := 4e-16) (by norm_num)
    rw [abs_of_nonneg (show 0 ≤ a / 24 + b / 1440 + c / 86400 by positivity)] at h
    exact h
  · have h1 := ((F64.Near.refl a).mono (l := 1) (by norm_num)).addr (F64.near_rnd (b / 60)) ha (by positivity) (by norm_num) (by norm_num)
    have h2 := h1.addr ((F64.near_rnd (c / 3600)).mono (by norm_num)) (by positivity) (by positivity) (by norm_num) (by norm_num)
    obtain ⟨q, e1, e2, h3⟩ := (show F64.Near F64.pi π 1 from F64.near_rnd _).divr (F64.Near.refl 180) (by norm_num) (by norm_num) le_rfl
      (by norm_num) (by norm_num)
    rw [e2] at h3
    have h4 := (h2.mulr h3 (by norm_num) (by norm_num) (by norm_num) (by norm_num)).rel (c := 8e-16) (by norm_num)
    have e0 : 0 ≤ dmsToRadians a b c := by rw [← e]; have := Real.pi_pos; positivity
    rw [e, abs_of_nonneg e0] at h4
    exact h4

/-- formulas without subtractions of rounded results have relative errors of a few units in the last place -/
theorem C150_relative {mu a b c tau : ℝ} (hmu : 0 < mu) (ha : 0 < a) (hb : 0 < b) (htau : 0 < tau) :
    (∃ x y, F64.eFromAC a c = .ok x ∧ eFromAC a c = .ok y ∧ |x - y| ≤ 2e-16 * |y|) ∧
    (∃ x y, F64.fFromAB a b = .ok x ∧ fFromAB a b = .ok y ∧ |x - y| ≤ 3e-16 * |y|) ∧
    (∃ x y, F64.pFromAB a b = .ok x ∧ pFromAB a b = .ok y ∧ |x - y| ≤ 3e-16 * |y|) ∧
    (∃ x y, F64.pFromMuH mu b = .ok x ∧ pFromMuH mu b = .ok y ∧ |x - y| ≤ 3e-16 * |y|) ∧
    (∃ x y, F64.hFromMuP mu b = .ok x ∧ hFromMuP mu b = .ok y ∧ |x - y| ≤ 3e-16 * |y|) ∧
    (∃ x y, F64.xiFromMuA mu a = .ok x ∧ xiFromMuA mu a = .ok y ∧ |x - y| ≤ 3e-16 * |y|) ∧
    (∃ x y, F64.tauFromAMu a mu = .ok x ∧ tauFromAMu a mu = .ok y ∧ |x - y| ≤ 9e-16 * |y|) ∧
    (∃ x y, F64.nFromAMu a mu = .ok x ∧ nFromAMu a mu = .ok y ∧ |x - y| ≤ 5e-16 * |y|) ∧
    (∃ x y, F64.nFromTau tau = .ok x ∧ nFromTau tau = .ok y ∧ |x - y| ≤ 4e-16 * |y|) := by
  refine ⟨?_, ?_, ?_, ?_, ?_, ?_, ?_, ?_, ?_⟩
  · obtain ⟨z, e, -, n⟩ := (F64.Near.refl c).divr (F64.Near.refl a) ha.ne' le_rfl le_rfl (by norm_num) (by norm_num)
    exact ⟨z, c / a, e, pyDiv_ok ha.ne', n.rel (by norm_num)⟩
  · obtain ⟨z, e, -, n⟩ := (F64.near_rnd (a - b)).divr (F64.Near.refl a) ha.ne' (by norm_num) le_rfl (by norm_num) (by norm_num)
    exact ⟨z, (a - b) / a, e, pyDiv_ok ha.ne', n.rel (by norm_num)⟩
  · obtain ⟨z, e, -, n⟩ := (F64.near_rnd (b * b)).divr (F64.Near.refl a) ha.ne' (by norm_num) le_rfl (by norm_num) (by norm_num)
    exact ⟨z, b * b / a, e, pyDiv_ok ha.ne', n.rel (by norm_num)⟩
  · obtain ⟨z, e, -, n⟩ := (F64.near_rnd (b * b)).divr (F64.Near.refl mu) hmu.ne' (by norm_num) le_rfl (by norm_num) (by norm_num)
    exact ⟨z, b * b / mu, e, pyDiv_ok hmu.ne', n.rel (by norm_num)⟩
  · obtain ⟨z, e, -, n⟩ := (F64.near_rnd (mu * b)).sqrtr (by positivity) (F64.rnd_nonneg (by positivity)) (by norm_num) (by norm_num)
    exact ⟨z, √(mu * b), e, pySqrt_ok (by positivity), n.rel (by norm_num)⟩
  · obtain ⟨z, e, -, n⟩ := (F64.near_rnd (-0.5 * mu)).divr (F64.Near.refl a) ha.ne' (by norm_num) le_rfl (by norm_num) (by norm_num)
    exact ⟨z, -0.5 * mu / a, e, pyDiv_ok ha.ne', n.rel (by norm_num)⟩
  · have h1 := (F64.near_rnd (a * a)).mulr (F64.Near.refl a) (by norm_num) le_rfl (by norm_num) (by norm_num)
    obtain ⟨q, e1, e2, n1⟩ := h1.divr (F64.Near.refl mu) hmu.ne' (by norm_num) le_rfl (by norm_num) (by norm_num)
    obtain ⟨s, e3, -, n2⟩ := n1.sqrtr (by positivity) (n1.nonneg (by positivity) (by norm_num)) (by norm_num) (by norm_num)
    have n3 := F64.near_two_pi.mulr n2 (by norm_num) (by norm_num) (by norm_num) (by norm_num)
    refine ⟨F64.rnd (F64.rnd (2 * F64.pi) * s), 2 * π * √(a * a * a / mu), ?_, ?_, n3.rel (by norm_num)⟩
    · simp only [F64.tauFromAMu, e1, ok_bind, e3]; rfl
    · simp only [tauFromAMu, pyDiv_ok hmu.ne', ok_bind, pySqrt_ok (show 0 ≤ a * a * a / mu by positivity), pyPi]; rfl
  · have h1 := (F64.near_rnd (a * a)).mulr (F64.Near.refl a) (by norm_num) le_rfl (by norm_num) (by norm_num)
    obtain ⟨q, e1, e2, n1⟩ := (F64.Near.refl mu).divr h1 (by positivity) le_rfl (by norm_num) (by norm_num) (by norm_num)
    obtain ⟨s, e3, -, n2⟩ := n1.sqrtr (by positivity) (n1.nonneg (by positivity) (by norm_num)) (by norm_num) (by norm_num)
    refine ⟨s, √(mu / (a * a * a)), ?_, ?_, n2.rel (by norm_num)⟩
    · simp only [F64.nFromAMu, e1, ok_bind, e3]
    · simp only [nFromAMu, pyDiv_ok (show a * a * a ≠ 0 by positivity), ok_bind, pySqrt_ok (show 0 ≤ mu / (a * a * a) by positivity)]
  · obtain ⟨z, e, -, n⟩ := F64.near_two_pi.divr (F64.Near.refl tau) htau.ne' (by norm_num) le_rfl (by norm_num) (by norm_num)
    exact ⟨z, 2 * π / tau, e, pyDiv_ok htau.ne', n.rel (by norm_num)⟩

/-- the semi-major axis from mean motion or period -/
theorem C150_size {lib : F64.Libm} (hpow : Spec.PowAccurate lib) {mu n tau : ℝ} (hmu : 0 < mu) (hn : 0 < n) (htau : 0 < tau)
    (h1 : 1e-20 ≤ mu / (n * n)) (h2 : mu / (n * n) ≤ 1e20)
    (h3 : 1e-20 ≤ mu * (tau / (2 * π)) * (tau / (2 * π))) (h4 : mu * (tau / (2 * π)) * (tau / (2 * π)) ≤ 1e20) :
    (∃ x y, F64.aFromMuN lib mu n = .ok x ∧ aFromMuN mu n = .ok y ∧ |x - y| ≤ 3e-15 * |y|) ∧
    (∃ x y, F64.aFromMuTau lib mu tau = .ok x ∧ aFromMuTau mu tau = .ok y ∧ |x - y| ≤ 4e-15 * |y|) := by
  have hpi := Real.pi_pos
  constructor
  · obtain ⟨q, e1, -, n1⟩ := (F64.Near.refl mu).divr (F64.near_rnd (n * n)) (by positivity) le_rfl (by norm_num) (by norm_num) (by norm_num)
    obtain ⟨z, e2, n2⟩ := F64.cbrt_near hpow n1 h1 h2 (by norm_num) (by norm_num)
    refine ⟨z, _, ?_, ?_, n2.rel (by norm_num)⟩
    · simp only [F64.aFromMuN, e1, ok_bind, e2]
    · simp only [aFromMuN, pyDiv_ok (show n * n ≠ 0 by positivity), ok_bind, pyPow, if_neg (not_lt.mpr (by positivity : 0 ≤ mu / (n * n)))]
  · obtain ⟨b, e1, -, n1⟩ := (F64.Near.refl tau).divr F64.near_two_pi (by positivity) le_rfl (by norm_num) (by norm_num) (by norm_num)
    have n2 := ((F64.Near.refl mu).mulr n1 le_rfl (by norm_num) (by norm_num) (by norm_num)).mulr n1 (by norm_num) (by norm_num)
      (by norm_num) (by norm_num)
    obtain ⟨z, e2, n3⟩ := F64.cbrt_near hpow n2 h3 h4 (by norm_num) (by norm_num)
    refine ⟨z, _, ?_, ?_, n3.rel (by norm_num)⟩
    · simp only [F64.aFromMuTau, e1, ok_bind, e2]
    · simp only [aFromMuTau, pyPow, pyPi]
      exact if_neg (not_lt.mpr (by positivity))

/-- formulas that subtract rounded results: absolute errors -/
theorem C150_absolute {lib : F64.Libm} (hlib : Spec.Accurate lib) {mu r v a e phi : ℝ} (hmu : 0 < mu) (hr : 0 < r) (hv : 0 ≤ v)
    (ha : 0 < a) (he : 0 ≤ e) (he1 : e ≤ 1) :
    |F64.hFromRVPhi lib r v phi - hFromRVPhi r v phi| ≤ 5e-16 * (r * v) ∧
    |F64.pFromAE a e - pFromAE a e| ≤ 4e-16 * a ∧
    (∃ x y, F64.xiFromMuRV mu r v = .ok x ∧ xiFromMuRV mu r v = .ok y ∧ |x - y| ≤ 4e-16 * (v * v / 2 + mu / r)) := by
  have hu := F64.u_pos
  have hu' := F64.u_tiny
  refine ⟨?_, ?_, ?_⟩
  · have rv : 0 ≤ r * v := by positivity
    have h1 := F64.rnd_u (r * v)
    rw [abs_of_nonneg rv] at h1
    have h2 := hlib.cos phi
    rw [show (1 : ℝ) / 2 ^ 52 = 2 * F64.u by unfold F64.u; norm_num] at h2
    have h3 := Real.abs_cos_le_one phi
    have h4 : |lib.cos phi| ≤ 1.001 := by
      have := abs_sub_abs_le_abs_sub (lib.cos phi) (cos phi)
      norm_num at hu' ⊢; linarith
    have h5 : |F64.rnd (r * v) * lib.cos phi - r * v * cos phi| ≤ 3.002 * F64.u * (r * v) := by
      rw [show F64.rnd (r * v) * lib.cos phi - r * v * cos phi
        = (F64.rnd (r * v) - r * v) * lib.cos phi + r * v * (lib.cos phi - cos phi) by ring]
      refine (abs_add_le _ _).trans ?_
      rw [abs_mul, abs_mul, abs_of_nonneg rv]
      have i1 : |F64.rnd (r * v) - r * v| * |lib.cos phi| ≤ F64.u * (r * v) * 1.001 := by gcongr
      have i2 : r * v * |lib.cos phi - cos phi| ≤ r * v * (2 * F64.u) := by gcongr
      have : 0 ≤ F64.u * (r * v) := by positivity
      linarith
    have h6 := F64.rabs h5 (M := 1.001 * (r * v)) (by
      rw [abs_mul, abs_of_nonneg rv]
      have : r * v * |cos phi| ≤ r * v * 1 := by gcongr
      have : 3.002 * F64.u * (r * v) ≤ 0.001 * (r * v) := by gcongr; norm_num at hu' ⊢; linarith
      linarith)
    refine le_trans (b := 4.003 * F64.u * (r * v)) ?_ ?_
    · show |F64.rnd (F64.rnd (r * v) * lib.cos phi) - r * v * cos phi| ≤ _
      linarith
    · gcongr
      norm_num at hu' ⊢; linarith
  · have ee : e * e ≤ 1 := by nlinarith
    have ee0 : 0 ≤ e * e := by positivity
    have h1 := F64.rnd_u (e * e)
    rw [abs_of_nonneg ee0] at h1
    have h2 : |1 - F64.rnd (e * e) - (1 - e * e)| ≤ F64.u := by
      rw [show 1 - F64.rnd (e * e) - (1 - e * e) = -(F64.rnd (e * e) - e * e) by ring, abs_neg]
      refine h1.trans ?_
      nlinarith
    have h3 := F64.rabs h2 (M := 1.001) (by rw [abs_of_nonneg (by linarith)]; norm_num at hu' ⊢; linarith)
    have h4 : |a * F64.rnd (1 - F64.rnd (e * e)) - a * (1 - e * e)| ≤ 2.001 * F64.u * a := by
      rw [← mul_sub, abs_mul, abs_of_pos ha]
      calc a * |F64.rnd (1 - F64.rnd (e * e)) - (1 - e * e)| ≤ a * (F64.u + 1.001 * F64.u) := by gcongr
        _ = _ := by ring
    have h5 := F64.rabs h4 (M := 1.001 * a) (by
      rw [abs_mul, abs_of_pos ha, abs_of_nonneg (show 0 ≤ 1 - e * e by linarith)]
      have : a * (1 - e * e) ≤ a * 1 := by gcongr; linarith
      have : 2.001 * F64.u * a ≤ 0.001 * a := by gcongr; norm_num at hu' ⊢; linarith
      linarith)
    refine le_trans (b := 3.002 * F64.u * a) ?_ ?_
    · show |F64.rnd (a * F64.rnd (1 - F64.rnd (e * e))) - a * (1 - e * e)| ≤ _
      linarith
    · gcongr
      norm_num at hu' ⊢; linarith
  · have n1 := (F64.near_rnd (v * v)).mulr (F64.Near.refl 0.5) (by norm_num) le_rfl (by norm_num) (by norm_num)
    obtain ⟨q, e1, -, n2⟩ := (F64.Near.refl mu).divr (F64.Near.refl r) hr.ne' le_rfl le_rfl (by norm_num) (by norm_num)
    refine ⟨F64.rnd (F64.rnd (F64.rnd (v * v) * 0.5) - q), v * v * 0.5 - mu / r, ?_, ?_, ?_⟩
    · simp only [F64.xiFromMuRV, e1, ok_bind]; rfl
    · simp only [xiFromMuRV, pyDiv_ok hr.ne', ok_bind]; rfl
    unfold F64.Near at n1 n2
    rw [abs_of_nonneg (show 0 ≤ v * v * 0.5 by positivity)] at n1
    rw [abs_of_nonneg (show 0 ≤ mu / r by positivity)] at n2
    have K : 0 ≤ v * v * 0.5 := by positivity
    have P : 0 ≤ mu / r := by positivity
    have h2 : |F64.rnd (F64.rnd (v * v) * 0.5) - q - (v * v * 0.5 - mu / r)| ≤ 2.01 * F64.u * (v * v * 0.5 + mu / r) := by
      rw [show F64.rnd (F64.rnd (v * v) * 0.5) - q - (v * v * 0.5 - mu / r)
        = (F64.rnd (F64.rnd (v * v) * 0.5) - v * v * 0.5) - (q - mu / r) by ring]
      refine (abs_sub _ _).trans ?_
      have : 0 ≤ F64.u * (v * v * 0.5) := by positivity
      have : 0 ≤ F64.u * (mu / r) := by positivity
      linarith
    have h3 := F64.rabs h2 (M := 1.001 * (v * v * 0.5 + mu / r)) (by
      have : |v * v * 0.5 - mu / r| ≤ v * v * 0.5 + mu / r := by rw [abs_le]; constructor <;> linarith
      have : 2.01 * F64.u * (v * v * 0.5 + mu / r) ≤ 0.001 * (v * v * 0.5 + mu / r) := by gcongr; norm_num at hu' ⊢; linarith
      linarith)
    refine le_trans (b := 3.02 * F64.u * (v * v * 0.5 + mu / r)) ?_ ?_
    · have : 0 ≤ F64.u * (v * v * 0.5 + mu / r) := by positivity
      linarith
    · rw [show v * v * 0.5 + mu / r = v * v / 2 + mu / r by ring]
      gcongr
      norm_num at hu' ⊢; linarith

/-- eccentricities: no admissible argument makes a radicand negative, and their squares are accurate -/
theorem C150_eccentricity {a b p : ℝ} (ha : 0 < a) (hb : 0 ≤ b) (hba : b ≤ a) (hp : 0 ≤ p) (hpa : p ≤ a) :
    (∃ x y, F64.eFromAB a b = .ok x ∧ eFromAB a b = .ok y ∧ |x ^ 2 - y ^ 2| ≤ 1e-15) ∧
    (∃ x y, F64.eFromAP a p = .ok x ∧ eFromAP a p = .ok y ∧ |x ^ 2 - y ^ 2| ≤ 8e-16) := by
  have hu := F64.u_pos
  have hu' := F64.u_tiny
  have r1 : F64.rnd 1 = 1 := by have := F64.rnd_int 1 (by norm_num); exact_mod_cast this
  constructor
  · have bb : b * b ≤ a * a := by nlinarith
    have R0 : 0 ≤ F64.rnd (F64.rnd (a * a) - F64.rnd (b * b)) := F64.rnd_nonneg (sub_nonneg.mpr (F64.rnd_mono bb))
    obtain ⟨R, hR⟩ : ∃ R, R = F64.rnd (F64.rnd (a * a) - F64.rnd (b * b)) := ⟨_, rfl⟩
    rw [← hR] at R0
    have h1 := F64.rnd_u (a * a)
    have h2 := F64.rnd_u (b * b)
    rw [abs_of_nonneg (show 0 ≤ a * a by positivity)] at h1
    rw [abs_of_nonneg (show 0 ≤ b * b by positivity)] at h2
    have h3 : |F64.rnd (a * a) - F64.rnd (b * b) - (a * a - b * b)| ≤ 2 * F64.u * (a * a) := by
      rw [show F64.rnd (a * a) - F64.rnd (b * b) - (a * a - b * b) = (F64.rnd (a * a) - a * a) - (F64.rnd (b * b) - b * b) by ring]
      refine (abs_sub _ _).trans ?_
      have : F64.u * (b * b) ≤ F64.u * (a * a) := by gcongr
      linarith
    have aa : 0 < a * a := by positivity
    have h4 := F64.rabs h3 (M := 1.001 * (a * a)) (by
      rw [abs_of_nonneg (by linarith)]
      have : 2 * F64.u * (a * a) ≤ 0.001 * (a * a) := by gcongr; norm_num at hu' ⊢; linarith
      have : 0 ≤ b * b := by positivity
      linarith)
    rw [← hR] at h4
    obtain ⟨s, e1, s0, n1⟩ := (F64.Near.refl R).sqrtr R0 R0 le_rfl (by norm_num)
    obtain ⟨x, e2, -, n2⟩ := n1.divr (F64.Near.refl a) ha.ne' (by norm_num) le_rfl (by norm_num) (by norm_num)
    have n3 := n2.mul' n2 (by norm_num) (by norm_num) (by norm_num) (by norm_num)
    refine ⟨x, √(a * a - b * b) / a, ?_, ?_, ?_⟩
    · simp only [F64.eFromAB, ← hR, e1, ok_bind, e2]
    · simp only [eFromAB, pySqrt_ok (sub_nonneg.mpr bb), ok_bind, pyDiv_ok ha.ne']
    have q1 : √R / a * (√R / a) = R / (a * a) := by rw [div_mul_div_comm, Real.mul_self_sqrt R0]
    have q2 : (√(a * a - b * b) / a) ^ 2 = (a * a - b * b) / (a * a) := by
      rw [div_pow, Real.sq_sqrt (sub_nonneg.mpr bb), sq]
    rw [q1] at n3
    unfold F64.Near at n3
    rw [abs_of_nonneg (show 0 ≤ R / (a * a) by positivity)] at n3
    rw [q2, sq]
    have i1 : |R / (a * a) - (a * a - b * b) / (a * a)| ≤ 3.001 * F64.u := by
      rw [← sub_div, abs_div, abs_of_pos aa, div_le_iff₀ aa]
      linarith
    have i2 : R / (a * a) ≤ 1.01 := by
      rw [div_le_iff₀ aa]
      have := (abs_le.mp h4).2
      have : 2 * F64.u * (a * a) + 1.001 * (a * a) * F64.u ≤ 0.001 * (a * a) := by
        have : (2 * F64.u + 1.001 * F64.u) * (a * a) ≤ 0.001 * (a * a) := by gcongr; norm_num at hu' ⊢; linarith
        linarith
      have : 0 ≤ b * b := by positivity
      linarith
    have i3 := abs_sub_le (x * x) (R / (a * a)) ((a * a - b * b) / (a * a))
    have i4 : (0 + 1.001 + 0 + 1.003 + (0 + 1.001 + 0 + 1.003) + 0.001) * F64.u * (R / (a * a)) ≤ 4.1 * F64.u := by
      have : (0 + 1.001 + 0 + 1.003 + (0 + 1.001 + 0 + 1.003) + 0.001) * F64.u * (R / (a * a))
        ≤ (0 + 1.001 + 0 + 1.003 + (0 + 1.001 + 0 + 1.003) + 0.001) * F64.u * 1.01 := by gcongr
      norm_num at this ⊢; linarith
    norm_num at hu' i1 i3 i4 n3 ⊢; linarith
  · have q0 : 0 ≤ p / a := by positivity
    have q1 : p / a ≤ 1 := by rw [div_le_one ha]; exact hpa
    have h1 := F64.rnd_u (p / a)
    rw [abs_of_nonneg q0] at h1
    have R0 : 0 ≤ F64.rnd (1 - F64.rnd (p / a)) := F64.rnd_nonneg (by
      have := F64.rnd_mono q1
      rw [r1] at this; linarith)
    have h2 : |1 - F64.rnd (p / a) - (1 - p / a)| ≤ F64.u := by
      rw [show 1 - F64.rnd (p / a) - (1 - p / a) = -(F64.rnd (p / a) - p / a) by ring, abs_neg]
      refine h1.trans ?_
      nlinarith
    have h3 := F64.rabs h2 (M := 1.001) (by rw [abs_of_nonneg (by linarith)]; norm_num at hu' ⊢; linarith)
    obtain ⟨R, hR⟩ : ∃ R, R = F64.rnd (1 - F64.rnd (p / a)) := ⟨_, rfl⟩
    rw [← hR] at R0 h3
    obtain ⟨x, e1, -, n1⟩ := (F64.Near.refl R).sqrtr R0 R0 le_rfl (by norm_num)
    have n3 := n1.mul' n1 (by norm_num) (by norm_num) (by norm_num) (by norm_num)
    refine ⟨x, √(1 - p / a), ?_, ?_, ?_⟩
    · simp only [F64.eFromAP, F64.div_ok ha.ne', ok_bind, ← hR, e1]
    · simp only [eFromAP, pyDiv_ok ha.ne', ok_bind, pySqrt_ok (sub_nonneg.mpr q1)]
    rw [Real.sq_sqrt (sub_nonneg.mpr q1), sq]
    rw [Real.mul_self_sqrt R0] at n3
    unfold F64.Near at n3
    rw [abs_of_nonneg R0] at n3
    have i2 : R ≤ 1.01 := by
      have := (abs_le.mp h3).2
      norm_num at hu' this ⊢; linarith
    have i3 := abs_sub_le (x * x) R (1 - p / a)
    have i4 : (0 + 1.001 + (0 + 1.001) + 0.001) * F64.u * R ≤ 2.1 * F64.u := by
      have : (0 + 1.001 + (0 + 1.001) + 0.001) * F64.u * R ≤ (0 + 1.001 + (0 + 1.001) + 0.001) * F64.u * 1.01 := by gcongr
      norm_num at this ⊢; linarith
    norm_num at hu' h3 i3 i4 n3 ⊢; linarith

/-- the semi-minor axis -/
theorem C150_minor_axis {a e : ℝ} (ha : 0 < a) (he : 0 ≤ e) (he1 : e < 1) :
    ∃ x y, F64.bFromAE a e = .ok x ∧ bFromAE a e = .ok y ∧ |x - y| ≤ 6e-16 * a / √(1 - e ^ 2) := by
  have hu := F64.u_pos
  have hu' := F64.u_tiny
  have r1 : F64.rnd 1 = 1 := by have := F64.rnd_int 1 (by norm_num); exact_mod_cast this
  have ee : e * e < 1 := by nlinarith
  have ee0 : 0 ≤ e * e := by positivity
  have h1 := F64.rnd_u (e * e)
  rw [abs_of_nonneg ee0] at h1
  have R0 : 0 ≤ F64.rnd (1 - F64.rnd (e * e)) := F64.rnd_nonneg (by
    have := F64.rnd_mono ee.le
    rw [r1] at this; linarith)
  have h2 : |1 - F64.rnd (e * e) - (1 - e * e)| ≤ F64.u := by
    rw [show 1 - F64.rnd (e * e) - (1 - e * e) = -(F64.rnd (e * e) - e * e) by ring, abs_neg]
    refine h1.trans ?_
    nlinarith
  have h3 := F64.rabs h2 (M := 1.001) (by rw [abs_of_nonneg (by linarith)]; norm_num at hu' ⊢; linarith)
  obtain ⟨R, hR⟩ : ∃ R, R = F64.rnd (1 - F64.rnd (e * e)) := ⟨_, rfl⟩
  obtain ⟨t, ht⟩ : ∃ t, t = 1 - e * e := ⟨_, rfl⟩
  rw [← hR] at R0 h3
  rw [← ht] at h3
  have t0 : 0 < t := by linarith
  have st : 0 < √t := Real.sqrt_pos.mpr t0
  have st1 : √t ≤ 1 := Real.sqrt_le_one.mpr (by linarith)
  refine ⟨F64.rnd (a * F64.rnd (√R)), a * √t, ?_, ?_, ?_⟩
  · simp only [F64.bFromAE, ← hR, F64.sqrt_ok R0, ok_bind]; rfl
  · simp only [bFromAE, ← ht, pySqrt_ok t0.le, ok_bind]; rfl
  rw [← sq] at ht
  rw [← ht]
  have k1 : |√R - √t| ≤ 2.001 * F64.u / √t := by
    rw [le_div_iff₀ st]
    have e1 : (√R - √t) * (√R + √t) = R - t := by
      have a1 := Real.mul_self_sqrt R0
      have a2 := Real.mul_self_sqrt t0.le
      linear_combination a1 - a2
    have e2 : |√R - √t| * (√R + √t) = |R - t| := by
      rw [← abs_of_nonneg (show 0 ≤ √R + √t by positivity), ← abs_mul, e1]
    have e3 : |√R - √t| * √t ≤ |√R - √t| * (√R + √t) := by
      gcongr; linarith [Real.sqrt_nonneg R]
    linarith
  have R1 : R ≤ 1.01 := by
    have := (abs_le.mp h3).2
    norm_num at hu' this ⊢; linarith
  have sR : √R ≤ 1.01 := by
    rw [Real.sqrt_le_left (by norm_num)]; linarith
  have k2 := F64.rnd_u (√R)
  rw [abs_of_nonneg (Real.sqrt_nonneg R)] at k2
  have k3 := F64.rnd_u (a * F64.rnd (√R))
  have ru : F64.u * √R ≤ F64.u * 1.01 := by gcongr
  have k4 : |F64.rnd (√R)| ≤ 1.02 := by
    have := abs_sub_abs_le_abs_sub (F64.rnd (√R)) (√R)
    rw [abs_of_nonneg (Real.sqrt_nonneg R)] at this
    norm_num at hu' ru ⊢; linarith
  have k5 := abs_sub_le (F64.rnd (a * F64.rnd (√R))) (a * F64.rnd (√R)) (a * √t)
  have k6 : |a * F64.rnd (√R) - a * √t| ≤ a * (F64.u * 1.01 + 2.001 * F64.u / √t) := by
    rw [← mul_sub, abs_mul, abs_of_pos ha]
    gcongr
    have := abs_sub_le (F64.rnd (√R)) (√R) (√t)
    linarith
  have k7 : F64.u * |a * F64.rnd (√R)| ≤ F64.u * (a * 1.02) := by
    rw [abs_mul, abs_of_pos ha]; gcongr
  have k8 : a * F64.u ≤ a * F64.u / √t := by
    rw [le_div_iff₀ st]; exact mul_le_of_le_one_right (by positivity) st1
  have k9 : a * (F64.u * 1.01 + 2.001 * F64.u / √t) + F64.u * (a * 1.02) ≤ 4.1 * (a * F64.u / √t) := by
    have : 2.001 * F64.u / √t * a = 2.001 * (a * F64.u / √t) := by ring
    have : 0 ≤ a * F64.u / √t := by positivity
    nlinarith
  have k10 : 4.1 * (a * F64.u / √t) ≤ 6e-16 * a / √t := by
    rw [show 4.1 * (a * F64.u / √t) = 4.1 * F64.u * a / √t by ring]
    gcongr
    norm_num at hu' ⊢; linarith
  linarith

/-- formulas with a difference: the errors grow with its cancellation `κ` -/
theorem C150_cancellation {mu r a v xi κ : ℝ} (hmu : 0 < mu) (hr : 0 < r) (ha : 0 < a) (hxi : xi ≤ 0) (hκ : 1 ≤ κ) (hκ' : κ ≤ 10000) :
    (2 / r + 1 / a ≤ κ * (2 / r - 1 / a) →
      ∃ x y, F64.vFromAMuR a mu r = .ok x ∧ vFromAMuR a mu r = .ok y ∧ |x - y| ≤ 9e-16 * κ * |y|) ∧
    (mu / r - xi ≤ κ * (mu / r + xi) →
      ∃ x y, F64.vFromMuRXi mu r xi = .ok x ∧ vFromMuRXi mu r xi = .ok y ∧ |x - y| ≤ 6e-16 * κ * |y|) ∧
    (2 / r + v * v / mu ≤ κ * (2 / r - v * v / mu) →
      ∃ x y, F64.aFromMuRV mu r v = .ok x ∧ aFromMuRV mu r v = .ok y ∧ |x - y| ≤ 6e-16 * κ * |y|) := by
  refine ⟨fun h => ?_, fun h => ?_, fun h => ?_⟩
  · have hD : 0 ≤ 2 / r - 1 / a := by
      have : 0 < 2 / r + 1 / a := by positivity
      by_contra hc
      push Not at hc
      nlinarith
    obtain ⟨x, e1, -, n⟩ := F64.visViva_near hr ha hmu hmu ((F64.Near.refl mu).mono (by norm_num)) (F64.Near.refl a) le_rfl (by norm_num) h hκ
      (by linarith)
    refine ⟨x, _, e1, ?_, n.rel (by linarith)⟩
    simp only [vFromAMuR, pyDiv_ok hr.ne', pyDiv_ok ha.ne', ok_bind, pySqrt_ok (mul_nonneg hmu.le hD)]
  · have q0 : 0 < mu / r := by positivity
    have hD : 0 ≤ mu / r + xi := by
      by_contra hc
      push Not at hc
      nlinarith
    obtain ⟨q, e1, -, n1⟩ := (F64.Near.refl mu).divr (F64.Near.refl r) hr.ne' le_rfl le_rfl (by norm_num) (by norm_num)
    have d1 := F64.near_sub (n1.mono (l := 1.003) (by norm_num)) ((F64.Near.refl (-xi)).mono (l := 1.003) (by norm_num)) q0.le (by linarith)
      (by norm_num) (κ := κ) (by linarith) (by linarith)
    rw [sub_neg_eq_add, sub_neg_eq_add] at d1
    have d2 := d1.round' (by linarith) (by linarith)
    have d3 := (F64.Near.refl 2).mulr d2 le_rfl (by linarith) (by norm_num) (by linarith)
    have d4 := d2.nonneg hD (by linarith)
    obtain ⟨x, e2, -, n2⟩ := d3.sqrtr (by positivity) (F64.rnd_nonneg (by positivity)) (by linarith) (by linarith)
    refine ⟨x, √(2 * (mu / r + xi)), ?_, ?_, n2.rel (by linarith)⟩
    · simp only [F64.vFromMuRXi, e1, ok_bind, e2]
    · simp only [vFromMuRXi, pyDiv_ok hr.ne', ok_bind, pySqrt_ok (mul_nonneg zero_le_two hD)]
  · have hD : 0 < 2 / r - v * v / mu := by
      have : 0 < 2 / r := by positivity
      have : 0 ≤ v * v / mu := div_nonneg (mul_self_nonneg v) hmu.le
      by_contra hc
      push Not at hc
      nlinarith
    obtain ⟨t1, e1, -, n1⟩ := (F64.Near.refl 2).divr (F64.Near.refl r) hr.ne' le_rfl le_rfl (by norm_num) (by norm_num)
    obtain ⟨t2, e2, -, n2⟩ := (F64.near_rnd (v * v)).divr (F64.Near.refl mu) hmu.ne' (by norm_num) le_rfl (by norm_num) (by norm_num)
    have d1 := F64.near_sub (n1.mono (l := 2.003) (by norm_num)) (n2.mono (l := 2.003) (by norm_num)) (by positivity)
      (div_nonneg (mul_self_nonneg v) hmu.le) (by norm_num) h hD.le
    have d2 := d1.round' (by linarith) (by linarith)
    obtain ⟨x, e3, -, n3⟩ := (F64.Near.refl 1).divr d2 hD.ne' le_rfl (by linarith) (by norm_num) (by linarith)
    refine ⟨x, 1 / (2 / r - v * v / mu), ?_, ?_, n3.rel (by linarith)⟩
    · simp only [F64.aFromMuRV, e1, e2, ok_bind, e3]
    · simp only [aFromMuRV, pyDiv_ok hr.ne', pyDiv_ok hmu.ne', ok_bind, pyDiv_ok hD.ne']

/-- the rounded `1 + e cos nu` -/
theorem F64.conic_near {lib : F64.Libm} (hlib : Spec.Accurate lib) {e nu : ℝ} (he : 0 ≤ e) (he1 : e < 1) :
    |F64.rnd (1 + F64.rnd (e * lib.cos nu)) - (1 + e * cos nu)| ≤ 5.1 * F64.u := by
  have hu := F64.u_pos
  have hu' := F64.u_tiny
  have h2 := hlib.cos nu
  rw [show (1 : ℝ) / 2 ^ 52 = 2 * F64.u by unfold F64.u; norm_num] at h2
  have h3 := Real.abs_cos_le_one nu
  have h5 : |e * lib.cos nu - e * cos nu| ≤ 2 * F64.u := by
    rw [← mul_sub, abs_mul, abs_of_nonneg he]
    calc e * |lib.cos nu - cos nu| ≤ 1 * (2 * F64.u) := by gcongr
      _ = _ := one_mul _
  have ec : |e * cos nu| ≤ 1 := by
    rw [abs_mul, abs_of_nonneg he]
    calc e * |cos nu| ≤ 1 * 1 := by gcongr
      _ = 1 := one_mul _
  have h6 := F64.rabs h5 (M := 1.001) (by
    have : F64.u ≤ 0.0001 := hu'.trans (by norm_num)
    linarith)
  have h7 : |1 + F64.rnd (e * lib.cos nu) - (1 + e * cos nu)| ≤ 2 * F64.u + 1.001 * F64.u := by
    rw [show 1 + F64.rnd (e * lib.cos nu) - (1 + e * cos nu) = F64.rnd (e * lib.cos nu) - e * cos nu by ring]; exact h6
  have h8 := F64.rabs h7 (M := 2.001) (by
    have := abs_add_le 1 (e * cos nu)
    rw [abs_one] at this
    have : F64.u ≤ 0.0001 := hu'.trans (by norm_num)
    linarith)
  linarith

/-- the conic equation and the speed at a true anomaly -/
theorem C150_conic {lib : F64.Libm} (hlib : Spec.Accurate lib) {mu r p e nu : ℝ} (hmu : 0 < mu) (hr : 0 < r) (hp : 0 < p) (he : 0 ≤ e)
    (he1 : e ≤ 0.95) :
    (∃ x y, F64.rFromPENu lib p e nu = .ok x ∧ rFromPENu p e nu = .ok y ∧ |x - y| ≤ 8e-16 / (1 - e) * |y|) ∧
    (∃ x y, F64.vFromMuRENu lib mu r e nu = .ok x ∧ vFromMuRENu mu r e nu = .ok y ∧ |x - y| ≤ 5e-15 / (1 - e) ^ 2 * |y|) := by
  have hu := F64.u_pos
  have hu' := F64.u_tiny
  have h1 := F64.conic_near hlib (nu := nu) he (by linarith)
  obtain ⟨δ, hδ⟩ : ∃ δ, δ = 1 - e := ⟨_, rfl⟩
  have δ0 : 0.05 ≤ δ := by linarith
  have δ1 : δ ≤ 1 := by linarith
  have δp : 0 < δ := by linarith
  have i0 : 1 ≤ 1 / δ := by rw [le_div_iff₀ δp]; linarith
  have i1 : 1 / δ ≤ 20 := by rw [div_le_iff₀ δp]; linarith
  have c1 := (abs_le.mp (Real.abs_cos_le_one nu)).1
  have c2 := (abs_le.mp (Real.abs_cos_le_one nu)).2
  have hd : δ ≤ 1 + e * cos nu := by nlinarith
  have hd' : 1 + e * cos nu ≤ 2 := by nlinarith
  have d0 : 0 < 1 + e * cos nu := by linarith
  obtain ⟨D, hD⟩ : ∃ D, D = 1 + e * cos nu := ⟨_, rfl⟩
  rw [← hD] at h1 hd hd' d0
  have n1 : F64.Near (F64.rnd (1 + F64.rnd (e * lib.cos nu))) D (5.1 * (1 / δ)) := by
    unfold F64.Near
    rw [abs_of_pos d0]
    refine h1.trans ?_
    have : 1 ≤ 1 / δ * D := by rw [one_div, inv_mul_eq_div, le_div_iff₀ δp]; linarith
    nlinarith
  rw [← hδ]
  constructor
  · obtain ⟨x, e1, -, n2⟩ := (F64.Near.refl p).divr n1 d0.ne' le_rfl (by linarith) (by norm_num) (by linarith)
    refine ⟨x, p / D, ?_, ?_, n2.rel ?_⟩
    · exact e1
    · simp only [rFromPENu, pyCos, ← hD, pyDiv_ok d0.ne']
    · rw [show (8e-16 : ℝ) / δ = 8e-16 * (1 / δ) by ring]
      linarith
  · have N : 1 - e * e = δ * (1 + e) := by rw [hδ]; ring
    have ee : e * e ≤ 1 := by nlinarith
    have a1 := F64.rnd_u (e * e)
    rw [abs_of_nonneg (mul_nonneg he he)] at a1
    have a2 : |1 - F64.rnd (e * e) - (1 - e * e)| ≤ F64.u := by
      rw [show 1 - F64.rnd (e * e) - (1 - e * e) = -(F64.rnd (e * e) - e * e) by ring, abs_neg]
      refine a1.trans ?_
      nlinarith
    have ee0 := mul_nonneg he he
    have a3 := F64.rabs a2 (M := 1.001) (by rw [abs_of_nonneg (by linarith)]; norm_num at hu' ⊢; linarith)
    have Np : δ ≤ 1 - e * e := by rw [N]; nlinarith
    have n2 : F64.Near (F64.rnd (1 - F64.rnd (e * e))) (1 - e * e) (2.1 * (1 / δ)) := by
      unfold F64.Near
      rw [abs_of_nonneg (show 0 ≤ 1 - e * e by linarith)]
      refine a3.trans ?_
      have : 1 ≤ 1 / δ * (1 - e * e) := by rw [one_div, inv_mul_eq_div, le_div_iff₀ δp]; linarith
      nlinarith
    obtain ⟨t, e1, -, n3⟩ := n2.divr n1 d0.ne' (by linarith) (by linarith) (by linarith) (by linarith)
    obtain ⟨q, e2, -, n4⟩ := (F64.Near.refl mu).divr (F64.Near.refl r) hr.ne' le_rfl le_rfl (by norm_num) (by norm_num)
    have T1 : (1 - e * e) / D ≤ 1 + e := by rw [div_le_iff₀ d0, N]; nlinarith
    have T0 : 0 ≤ (1 - e * e) / D := div_nonneg (by linarith) d0.le
    have d1 := F64.near_sub (k := 8.3 * (1 / δ)) ((F64.Near.refl 2).mono (by linarith)) (n3.mono (by linarith)) (by norm_num) T0
      (by linarith) (κ := 4 * (1 / δ)) (by
        have : 1 ≤ 1 / δ * (2 - (1 - e * e) / D) := by
          rw [one_div, inv_mul_eq_div, le_div_iff₀ δp]; linarith
        linarith) (by linarith)
    have b1 : 1 / δ ≤ (1 / δ) ^ 2 := by nlinarith
    have b2 : (1 / δ) ^ 2 ≤ 400 := by nlinarith
    have d2 := (d1.mono (l := 33.2 * (1 / δ) ^ 2) (by linarith)).round' (by positivity) (by linarith)
    have d3 := n4.mulr d2 (by norm_num) (by positivity) (by norm_num) (by linarith)
    have P : 0 ≤ 2 - (1 - e * e) / D := by linarith
    have q0 := n4.nonneg (show 0 ≤ mu / r by positivity) (by norm_num)
    have d4 := d2.nonneg P (by linarith)
    obtain ⟨x, e3, -, n5⟩ := d3.sqrtr (mul_nonneg (by positivity) P) (F64.rnd_nonneg (mul_nonneg q0 d4)) (by positivity) (by linarith)
    refine ⟨x, √(mu / r * (2 - (1 - e * e) / D)), ?_, ?_, n5.rel ?_⟩
    · simp only [F64.vFromMuRENu, e2, e1, ok_bind, e3]
    · simp only [vFromMuRENu, pyCos, ← hD, pyDiv_ok d0.ne', pyDiv_ok hr.ne', ok_bind, pySqrt_ok (mul_nonneg (by positivity : 0 ≤ mu / r) P)]
    · rw [show (5e-15 : ℝ) / δ ^ 2 = 5e-15 * (1 / δ) ^ 2 by ring]
      linarith

/-- the hypotheses are met by an orbit of the Earth: a mean motion of 0.001 rad/s, a period of 6000 s -/
example : ∃ lib : F64.Libm, Spec.Accurate lib ∧ Spec.PowAccurate lib ∧ (1e-20 : ℝ) ≤ 398600.4418 / (0.001 * 0.001) ∧
    (398600.4418 : ℝ) / (0.001 * 0.001) ≤ 1e20 ∧ 1e-20 ≤ 398600.4418 * (6000 / (2 * π)) * (6000 / (2 * π)) ∧
    398600.4418 * (6000 / (2 * π)) * (6000 / (2 * π)) ≤ 1e20 := by
  have h1 := Real.pi_gt_three
  have h2 := Real.pi_lt_four
  have a1 : 750 ≤ 6000 / (2 * π) := by rw [le_div_iff₀ (by positivity)]; linarith
  have a2 : 6000 / (2 * π) ≤ 1000 := by rw [div_le_iff₀ (by positivity)]; linarith
  refine ⟨F64.rounded, F64.rounded_accurate.1, F64.rounded_pow, by norm_num, by norm_num, ?_, ?_⟩
  · calc (1e-20 : ℝ) ≤ 398600.4418 * 750 * 750 := by norm_num
      _ ≤ _ := by gcongr
  · calc 398600.4418 * (6000 / (2 * π)) * (6000 / (2 * π)) ≤ 398600.4418 * 1000 * 1000 := by gcongr
      _ ≤ 1e20 := by norm_num

/-- and by the state at a radius of 7000 km on an orbit with a semi-major axis of 8000 km -/
example : (2 : ℝ) / 7000 + 1 / 8000 ≤ 3 * (2 / 7000 - 1 / 8000) ∧
    (398600.4418 : ℝ) / 7000 - (-398600.4418 / 16000) ≤ 3 * (398600.4418 / 7000 + -398600.4418 / 16000) ∧
    (2 : ℝ) / 7000 + 8 * 8 / 398600.4418 ≤ 4 * (2 / 7000 - 8 * 8 / 398600.4418) := by norm_num

end Openspace
