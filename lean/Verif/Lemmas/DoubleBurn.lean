import Verif.Lemmas.DoubleForces
import Verif.Model.DoubleBurn
import Verif.Spec.Exponential

/-! # Rounding errors of a finite burn -/

namespace Openspace.F64

open Real

/-- the largest double below one -/
theorem below_one : IsDouble (1 - 1 / 2 ^ 53) := by
  have h := isDouble_mul (2 ^ 53 - 1) (-53) (by norm_num)
  have e : ((2 ^ 53 - 1 : ℤ) : ℝ) * 2 ^ (-53 : ℤ) = 1 - 1 / 2 ^ 53 := by push_cast; norm_num
  rwa [e] at h

theorem one_isDouble : IsDouble 1 := by
  have h := isDouble_mul 1 0 (by norm_num)
  simpa using h

/-- numbers close to one are rounded to one -/
theorem rnd_one_sub {q : ℝ} (h0 : 0 < q) (h : q < 1 / 2 ^ 54) : rnd (1 - q) = 1 := by
  have hq : q < 1 / 2 := h.trans (by norm_num)
  have hx : 0 < 1 - q := by linarith
  have hl : Int.log 2 |1 - q| = -1 := by
    rw [abs_of_pos hx]
    apply le_antisymm
    · rw [← Int.lt_add_one_iff, ← Int.lt_zpow_iff_log_lt (by norm_num) hx]
      norm_num; linarith
    · rw [← Int.zpow_le_iff_le_log (by norm_num) hx]
      norm_num; linarith
  have hu : ulp (1 - q) = 1 / 2 ^ 53 := by
    unfold ulp
    rw [hl]; norm_num
  unfold rnd
  rw [if_neg hx.ne', hu, roundEven_eq (n := 2 ^ 53)]
  · push_cast; norm_num
  · push_cast
    rw [show (1 - q) / (1 / 2 ^ 53) - 9007199254740992 = -(q * 2 ^ 53) by norm_num; ring, abs_neg, abs_of_pos (by positivity)]
    calc q * 2 ^ 53 < 1 / 2 ^ 54 * 2 ^ 53 := by gcongr
      _ = 1 / 2 := by norm_num

/-- a scaled vector of which vector and factor have errors -/
theorem scaled_error {v' v : Vec3} {k' k κ δ : ℝ} (h : (v'.minus v).magnitude ≤ δ * u * v.magnitude) (hk : Near k' k κ)
    (_ : 0 ≤ δ) (hδ' : δ ≤ 1000) (hκ : 0 ≤ κ) (hκ' : κ ≤ 90) :
    ((scaled v' k').minus (v.scaled k)).magnitude ≤ (δ + κ + 1.02) * u * (v.scaled k).magnitude := by
  have hu := u_pos
  have hu' := u_tiny
  have h1 := scaled_round (a := v') hk hκ hκ'
  have h2 := minus_triangle (scaled v' k') (v'.scaled k) (v.scaled k)
  have e1 : (v'.scaled k).minus (v.scaled k) = (v'.minus v).scaled k := by ext <;> simp [Vec3.scaled, Vec3.minus] <;> ring
  rw [e1, Vec3.magnitude_scaled_abs] at h2
  rw [Vec3.magnitude_scaled_abs]
  have h3 := magnitude_le_of_minus v' v
  have hv := v.magnitude_nonneg
  have hk0 := abs_nonneg k
  have h4 : v'.magnitude ≤ (1 + 1e-12) * v.magnitude := by
    have : δ * u * v.magnitude ≤ 1000 * (12 / 10 ^ 17) * v.magnitude := by gcongr
    norm_num at this ⊢; linarith
  have h5 : |k| * (v'.minus v).magnitude ≤ |k| * (δ * u * v.magnitude) := by gcongr
  have h6 : (κ + 1.01) * u * (|k| * v'.magnitude) ≤ (κ + 1.01) * u * (|k| * ((1 + 1e-12) * v.magnitude)) := by gcongr
  have h7 : (κ + 1.01) * (1 + 1e-12) ≤ κ + 1.02 := by norm_num; linarith
  have h8 : (κ + 1.01) * (1 + 1e-12) * (u * (|k| * v.magnitude)) ≤ (κ + 1.02) * (u * (|k| * v.magnitude)) := by gcongr
  linarith

/-- the rounded unit vector -/
theorem normalized_error {a : Vec3} (h : a ≠ ⟨0, 0, 0⟩) : ∃ n, normalized a = .ok n ∧
    (n.minus (a.scaled (1 / a.magnitude))).magnitude ≤ 6.3 * u * (a.scaled (1 / a.magnitude)).magnitude := by
  obtain ⟨n, h1, h2⟩ := normalized_near h
  refine ⟨n, h1, ?_⟩
  have h0 := Vec3.magnitude_pos.mpr h
  rw [Vec3.magnitude_scaled_abs, abs_of_pos (by positivity), one_div, inv_mul_cancel₀ h0.ne', mul_one, ← one_div]
  exact h2

/-- the remaining mass -/
theorem mass_near {w m0 : ℝ} (h0 : 0 ≤ w) (h : w ≤ 0.9 * m0) (hm : 0 < m0) : Near (rnd (m0 - rnd w)) (m0 - w) 10.1 := by
  have hu := u_pos
  have hu' := u_tiny
  have h1 := rnd_u w
  rw [abs_of_nonneg h0] at h1
  norm_num at h
  have hp : 0 < m0 - w := by linarith
  have : Near (m0 - rnd w) (m0 - w) 9 := by
    unfold Near
    rw [show m0 - rnd w - (m0 - w) = -(rnd w - w) by ring, abs_neg, abs_of_pos hp]
    refine h1.trans ?_
    nlinarith
  exact (this.round' (by norm_num) (by norm_num)).mono (by norm_num)

theorem g_near : Near seaLevelG SEA_LEVEL_G 1 := near_rnd _

/-- `m_dot * isp * SEA_LEVEL_G` -/
theorem force_near (m_dot isp : ℝ) : Near (rnd (rnd (m_dot * isp) * seaLevelG)) (m_dot * isp * SEA_LEVEL_G) 3.01 :=
  (((near_rnd (m_dot * isp)).mul' g_near (by norm_num) (by norm_num) (by norm_num) (by norm_num)).round' (by norm_num)
    (by norm_num)).mono (by norm_num)

/-- the argument of the logarithm -/
theorem ratio_bounds {w m0 : ℝ} (hw : m0 / 2 ^ 52 ≤ w) (h : w ≤ 0.9 * m0) (hm : 0 < m0) :
    0 < rnd (1 - rnd (rnd w / m0)) ∧ rnd (1 - rnd (rnd w / m0)) < 1 := by
  have hu := u_pos
  have hu' := u_tiny
  have hw0 : 0 < w := lt_of_lt_of_le (by positivity) hw
  obtain ⟨-, h1⟩ := (near_rnd w).div' (Near.refl m0) hm.ne' le_rfl (by norm_num) (by norm_num) (by norm_num)
  have h2 := h1.round' (by norm_num) (by norm_num)
  unfold Near at h2
  have hq : 0 < w / m0 := by positivity
  have hq1 : w / m0 ≤ 0.9 := by rw [div_le_iff₀ hm]; exact h
  have hq2 : 1 / 2 ^ 52 ≤ w / m0 := by rw [le_div_iff₀ hm]; linarith
  rw [abs_of_pos hq, abs_le] at h2
  have h3 : (1 + 0 + 0.002 + 1.001) * u * (w / m0) ≤ 1e-10 * (w / m0) := by
    gcongr
    norm_num at hu' ⊢; linarith
  norm_num at hq1 hq2 h3
  constructor
  · apply rnd_pos
    linarith [h2.2]
  · have : rnd (1 - rnd (rnd w / m0)) ≤ 1 - 1 / 2 ^ 53 := by
      refine rnd_le below_one ?_
      norm_num
      linarith [h2.1]
    refine this.trans_lt (by norm_num)

theorem ratio_one {w m0 : ℝ} (hw : 0 < w) (h : w ≤ m0 / 2 ^ 55) (hm : 0 < m0) :
    rnd (1 - rnd (rnd w / m0)) = 1 := by
  have hu := u_pos
  have hu' := u_tiny
  obtain ⟨-, h1⟩ := (near_rnd w).div' (Near.refl m0) hm.ne' le_rfl (by norm_num) (by norm_num) (by norm_num)
  have h2 := h1.round' (by norm_num) (by norm_num)
  unfold Near at h2
  have hq : 0 < w / m0 := by positivity
  have hq1 : w / m0 ≤ 1 / 2 ^ 55 := by rw [div_le_iff₀ hm]; linarith
  rw [abs_of_pos hq, abs_le] at h2
  have h3 : (1 + 0 + 0.002 + 1.001) * u * (w / m0) ≤ 1e-10 * (w / m0) := by
    gcongr
    norm_num at hu' ⊢; linarith
  norm_num at hq1 h3
  apply rnd_one_sub
  · linarith [h2.1]
  · norm_num; linarith [h2.2]

/-- a logarithm with small relative errors has the sign of the logarithm -/
theorem ln_neg {ln : ℝ → ℝ} (h : Spec.LogAccurate ln) {x : ℝ} (h0 : 0 < x) (h1 : x < 1) : ln x < 0 := by
  have h2 := h x h0
  have h3 := Real.log_neg h0 h1
  rw [abs_of_neg h3, abs_le] at h2
  norm_num at h2
  linarith [h2.2]

theorem ln_one {ln : ℝ → ℝ} (h : Spec.LogAccurate ln) : ln 1 = 0 := by
  have h2 := h 1 one_pos
  simpa using h2

/-- the base `math.e` -/
theorem log_euler : 0 < euler ∧ |Real.log euler - 1| ≤ 1.1 * u := by
  have hu := u_pos
  have hu' := u_tiny
  have h0 : 0 < euler := rnd_pos (exp_pos 1)
  refine ⟨h0, ?_⟩
  have h1 := rnd_u (exp 1)
  rw [abs_of_pos (exp_pos 1)] at h1
  obtain ⟨d, hd⟩ : ∃ d, d = euler / exp 1 := ⟨_, rfl⟩
  have h2 : Real.log euler - 1 = Real.log d := by
    rw [hd, Real.log_div h0.ne' (exp_pos 1).ne', Real.log_exp]
  have hd0 : 0 < d := by rw [hd]; positivity
  have h3 : |d - 1| ≤ u := by
    rw [hd, show euler / exp 1 - 1 = (euler - exp 1) / exp 1 by field_simp, abs_div, abs_of_pos (exp_pos 1),
      div_le_iff₀ (exp_pos 1)]
    exact h1
  rw [h2]
  rw [abs_le] at h3 ⊢
  have h4 := Real.log_le_sub_one_of_pos hd0
  have h5 := Real.one_sub_inv_le_log_of_pos hd0
  have h6 : -(1.1 * u) ≤ 1 - d⁻¹ := by
    rw [show 1 - d⁻¹ = (d - 1) / d by field_simp, le_div_iff₀ hd0]
    norm_num at hu' ⊢
    nlinarith [h3.1]
  constructor
  · linarith
  · norm_num; linarith [h3.2]

/-- the exponential of a non-positive number with a relative error -/
theorem exp_near {y x k : ℝ} (h : Near y x k) (hx : x ≤ 0) (hk0 : 0 ≤ k) (hk : k ≤ 100) :
    |exp y - exp x| ≤ k * u ∧ exp y ≤ 1 := by
  have hu := u_pos
  have hu' := u_tiny
  unfold Near at h
  rw [abs_of_nonpos hx] at h
  have hku : k * u ≤ 1 / 2 := by
    calc k * u ≤ 100 * (12 / 10 ^ 17) := by gcongr
      _ ≤ 1 / 2 := by norm_num
  have hku0 : 0 ≤ k * u := by positivity
  obtain ⟨h1, h2⟩ := abs_le.mp h
  have hy : y ≤ x / 2 := by nlinarith
  have key : ∀ t : ℝ, 0 ≤ t → t * exp (-t / 2) ≤ 1 := by
    intro t ht
    have a1 : 1 + t / 2 + (t / 2) ^ 2 / 2 ≤ exp (t / 2) := Real.quadratic_le_exp_of_nonneg (by linarith)
    rw [show -t / 2 = -(t / 2) by ring, Real.exp_neg, ← div_eq_mul_inv, div_le_one (exp_pos _)]
    nlinarith [sq_nonneg (t / 2 - 1), sq_nonneg (t - 2)]
  have hd : |exp y - exp x| ≤ |y - x| * exp (x / 2) := by
    rcases le_total y x with g | g
    · rw [abs_of_nonpos (by linarith [exp_le_exp.mpr g]), abs_of_nonpos (by linarith)]
      have a := Real.add_one_le_exp (y - x)
      have b : exp y = exp x * exp (y - x) := by rw [← Real.exp_add]; ring_nf
      have c : exp x ≤ exp (x / 2) := exp_le_exp.mpr (by linarith)
      have := exp_pos x
      rw [b]
      nlinarith
    · rw [abs_of_nonneg (by linarith [exp_le_exp.mpr g]), abs_of_nonneg (by linarith)]
      have a := Real.add_one_le_exp (x - y)
      have b : exp x = exp y * exp (x - y) := by rw [← Real.exp_add]; ring_nf
      have c : exp y ≤ exp (x / 2) := exp_le_exp.mpr hy
      have := exp_pos y
      rw [b]
      nlinarith
  refine ⟨hd.trans ?_, ?_⟩
  · calc |y - x| * exp (x / 2) ≤ k * u * -x * exp (x / 2) := by gcongr
      _ = k * u * (-x * exp (-(-x) / 2)) := by ring_nf
      _ ≤ k * u * 1 := by gcongr; exact key _ (by linarith)
      _ = k * u := mul_one _
  · rw [Real.exp_le_one_iff]; linarith

/-- the product of the time and the spent share -/
theorem burn_product_error {R' R P X E : ℝ} (hR : Near R' R 2.1) (hR0 : 0 < R) (h1 : |X - E| ≤ 10.4 * u)
    (h2 : |P - X| ≤ 1 / 2 ^ 52 * X) (hX0 : 0 ≤ X) (hX : X ≤ 1) (hE0 : 0 ≤ E) (hE : E ≤ 1) :
    |rnd (R' * rnd (1 - P)) - R * (1 - E)| ≤ 2.5e-15 * R := by
  have hu := u_pos
  have hu' := u_tiny
  have e52 : (1 : ℝ) / 2 ^ 52 = 2 * u := by unfold u; norm_num
  rw [e52] at h2
  have h3 : |P - E| ≤ 12.4 * u := by
    have := abs_sub_le P X E
    have : 2 * u * X ≤ 2 * u * 1 := by gcongr
    norm_num at h1 ⊢; linarith
  obtain ⟨D, hD⟩ : ∃ D, D = rnd (1 - P) := ⟨_, rfl⟩
  have h4 := rnd_u (1 - P)
  rw [← hD] at h4 ⊢
  have h5 : |1 - P| ≤ 1.001 := by
    obtain ⟨a, b⟩ := abs_le.mp h3
    rw [abs_le]; norm_num at a b hu' ⊢; constructor <;> linarith
  have h6 : u * |1 - P| ≤ u * 1.001 := by gcongr
  have h7 : |D - (1 - E)| ≤ 13.5 * u := by
    have := abs_sub_le D (1 - P) (1 - E)
    have e : 1 - P - (1 - E) = -(P - E) := by ring
    rw [e, abs_neg] at this
    norm_num at h3 h6 ⊢; linarith
  have h8 : |D| ≤ 1.001 := by
    obtain ⟨a, b⟩ := abs_le.mp h7
    rw [abs_le]; norm_num at a b hu' ⊢; constructor <;> linarith
  unfold Near at hR
  rw [abs_of_pos hR0] at hR
  have h9 : |R' * D - R * (1 - E)| ≤ 15.7 * u * R := by
    have e : R' * D - R * (1 - E) = (R' - R) * D + R * (D - (1 - E)) := by ring
    rw [e]
    have a1 := abs_add_le ((R' - R) * D) (R * (D - (1 - E)))
    have a2 : |(R' - R) * D| ≤ 2.1 * u * R * 1.001 := by rw [abs_mul]; gcongr
    have a3 : |R * (D - (1 - E))| ≤ R * (13.5 * u) := by rw [abs_mul, abs_of_pos hR0]; gcongr
    have : 0 < u * R := by positivity
    norm_num only at a2 a3 ⊢
    linarith
  have h10 := rnd_u (R' * D)
  have h11 := abs_sub_le (rnd (R' * D)) (R' * D) (R * (1 - E))
  have h12 : |R' * D| ≤ 1.01 * R := by
    have a1 := abs_sub_abs_le_abs_sub (R' * D) (R * (1 - E))
    have a2 : |R * (1 - E)| ≤ R := by
      rw [abs_of_nonneg (mul_nonneg hR0.le (by linarith))]; nlinarith
    have a3 : 15.7 * u * R ≤ 15.7 * (12 / 10 ^ 17) * R := by gcongr
    norm_num only at h9 a3 ⊢; linarith
  have h13 : u * |R' * D| ≤ u * (1.01 * R) := by gcongr
  have h14 : 16.71 * u * R ≤ 2.5e-15 * R := by
    gcongr
    norm_num at hu' ⊢; linarith
  norm_num only at h9 h13 h14 ⊢
  linarith

end Openspace.F64
