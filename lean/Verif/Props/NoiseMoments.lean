import Verif.Lemmas.Draws
import Verif.Props.SimulatedObs

/-!
# C163: the statistics of simulated observations

For one draw, C06 and C87 say what an observation is.  Here the draws are the random numbers that the generator is documented to
return, and the theorems give the mean and the second moments of the vector that is observed.
-/

namespace Openspace

open Real Spec MeasureTheory ProbabilityTheory

/-- the two directions across a vector, as long as the vector, in which the noise tilts it -/
noncomputable def Vec3.across1 (v : Vec3) : Vec3 := ((v.cross ⟨0, 0, 1⟩).cross v).scaled (1 / (v.cross ⟨0, 0, 1⟩).magnitude)

noncomputable def Vec3.across2 (v : Vec3) : Vec3 := (v.cross v.across1).scaled (1 / v.magnitude)

/-- a noisy vector in those directions -/
noncomputable def Vec3.noisy (v : Vec3) (k c s c' s' : ℝ) : Vec3 :=
  ((v.scaled (k * c)).plus (v.across1.scaled (|k| * (s * c')))).plus (v.across2.scaled (k * (s * s')))

theorem axis_ne {v : Vec3} (h : ¬(v.x = 0 ∧ v.y = 0)) : v.cross ⟨0, 0, 1⟩ ≠ ⟨0, 0, 0⟩ := by
  intro e
  apply h
  simp only [Vec3.cross, Vec3.mk.injEq] at e
  constructor <;> linarith [e.1, e.2.1]

/-- the outcome of `with_noise` -/
theorem noise_form {v : Vec3} (h : ¬(v.x = 0 ∧ v.y = 0)) {r a z1 z2 u : ℝ} (hk : v.magnitude + r * z1 ≠ 0) :
    v.withNoise r a z1 z2 u = .ok (v.noisy (1 + r / v.magnitude * z1) (cos (z2 * a)) (sin (z2 * a)) (cos (2 * π * u)) (sin (2 * π * u))) := by
  have hv : v ≠ ⟨0, 0, 0⟩ := by rintro rfl; simp at h
  have hm := Vec3.magnitude_pos.mpr hv
  have hb := Vec3.magnitude_pos.mpr (axis_ne h)
  obtain ⟨k, ek⟩ : ∃ k, k = 1 + r / v.magnitude * z1 := ⟨_, rfl⟩
  have hk0 : k ≠ 0 := by
    intro e; apply hk; rw [e] at ek; field_simp at ek; linarith
  have e1 : v.withMagnitudeNoise r z1 = .ok (v.scaled k) := by
    simp only [Vec3.withMagnitudeNoise, Vec3.normalized_ok hv, ok_bind, pure_eq_ok, Except.ok.injEq, Vec3.gauss, ek]
    ext <;> simp only [Vec3.scaled] <;> field_simp
  have n1 : v.scaled k ≠ ⟨0, 0, 0⟩ := by
    rw [← Vec3.magnitude_pos, Vec3.magnitude_scaled]; have := abs_pos.mpr hk0; positivity
  have n2 : (v.scaled k).cross ⟨0, 0, 1⟩ ≠ ⟨0, 0, 0⟩ := by
    apply axis_ne; simpa [Vec3.scaled, hk0] using h
  have a0 := abs_pos.mpr hk0
  have r1 : (v.scaled k).rotate ((v.scaled k).cross ⟨0, 0, 1⟩) (z2 * a)
      = ((v.scaled k).scaled (cos (z2 * a))).plus (v.across1.scaled (|k| * sin (z2 * a))) := by
    have := Vec3.rotate_decomp n2 0 (z2 * a) (perp := v.scaled k) (by simp only [Vec3.dot, Vec3.cross]; ring)
    have z : (((v.scaled k).cross ⟨0, 0, 1⟩).scaled 0).plus (v.scaled k) = v.scaled k := by
      ext <;> simp only [Vec3.plus, Vec3.scaled] <;> ring
    rw [z] at this
    rw [this]
    have e2 : ((v.scaled k).cross ⟨0, 0, 1⟩) = (v.cross ⟨0, 0, 1⟩).scaled k := by
      ext <;> simp only [Vec3.cross, Vec3.scaled] <;> ring
    have e3 : ((v.cross ⟨0, 0, 1⟩).scaled k).cross (v.scaled k) = ((v.cross ⟨0, 0, 1⟩).cross v).scaled (|k| * |k|) := by
      rw [abs_mul_abs_self]
      ext <;> simp only [Vec3.cross, Vec3.scaled] <;> ring
    rw [e2, e3, Vec3.magnitude_scaled, Vec3.across1]
    obtain ⟨g, hg⟩ : ∃ g, g = (v.cross ⟨0, 0, 1⟩).cross v := ⟨_, rfl⟩
    obtain ⟨b, hb'⟩ : ∃ b, b = (v.cross ⟨0, 0, 1⟩).magnitude := ⟨_, rfl⟩
    rw [← hb'] at hb
    rw [← hg, ← hb']
    ext <;> simp only [Vec3.plus, Vec3.scaled] <;> field_simp <;> ring
  have ortho : v.across1.dot v = 0 := by
    unfold Vec3.across1; rw [Vec3.dot_scaled_left]
    have : ((v.cross ⟨0, 0, 1⟩).cross v).dot v = 0 := by simp only [Vec3.dot, Vec3.cross]; ring
    rw [this, mul_zero]
  have r2 : (((v.scaled k).scaled (cos (z2 * a))).plus (v.across1.scaled (|k| * sin (z2 * a)))).rotate (v.scaled k) (2 * π * u)
      = v.noisy k (cos (z2 * a)) (sin (z2 * a)) (cos (2 * π * u)) (sin (2 * π * u)) := by
    rw [Vec3.rotate_decomp n1 _ _ (by rw [Vec3.dot_scaled_left, Vec3.dot_scaled_right, ortho]; ring), Vec3.noisy, Vec3.across2,
      Vec3.magnitude_scaled]
    have e2 : (v.scaled k).cross (v.across1.scaled (|k| * sin (z2 * a))) = (v.cross v.across1).scaled (k * |k| * sin (z2 * a)) := by
      ext <;> simp only [Vec3.cross, Vec3.scaled] <;> ring
    rw [e2]
    obtain ⟨g, hg⟩ : ∃ g, g = v.cross v.across1 := ⟨_, rfl⟩
    rw [← hg]
    ext <;> simp only [Vec3.plus, Vec3.scaled] <;> field_simp
  rw [← ek]
  simp only [Vec3.withNoise, e1, ok_bind, Vec3.withAngularNoise, Vec3.rotationAboutAxis_ok _ n2, Vec3.rotationAboutAxis_ok _ n1]
  rw [← r2, ← r1]
  simp only [Vec3.gauss, Vec3.uniform, pyPi, zero_add, sub_zero]

/-- the three directions are orthogonal and equally long -/
theorem across_parseval {v : Vec3} (h : ¬(v.x = 0 ∧ v.y = 0)) (w : Vec3) :
    v.across1.dot w ^ 2 + v.across2.dot w ^ 2 = v.magnitude ^ 2 * w.magnitude ^ 2 - v.dot w ^ 2 := by
  have hv : v ≠ ⟨0, 0, 0⟩ := by rintro rfl; simp at h
  have hm := Vec3.magnitude_pos.mpr hv
  have hb := Vec3.magnitude_pos.mpr (axis_ne h)
  obtain ⟨b, hb'⟩ : ∃ b, b = (v.cross ⟨0, 0, 1⟩).magnitude := ⟨_, rfl⟩
  obtain ⟨g, hg⟩ : ∃ g, g = v.across1 := ⟨_, rfl⟩
  have vg : v.dot g = 0 := by
    rw [hg, Vec3.across1, Vec3.dot_scaled_right]
    have : v.dot ((v.cross ⟨0, 0, 1⟩).cross v) = 0 := by simp only [Vec3.dot, Vec3.cross]; ring
    rw [this, mul_zero]
  have gg : g.magnitude ^ 2 = v.magnitude ^ 2 := by
    rw [hg, Vec3.across1, Vec3.magnitude_scaled, mul_pow, sq_abs]
    have : ((v.cross ⟨0, 0, 1⟩).cross v).magnitude ^ 2 = (v.cross ⟨0, 0, 1⟩).magnitude ^ 2 * v.magnitude ^ 2 := by
      rw [Vec3.magnitude_sq_dot, Vec3.magnitude_sq_dot, Vec3.magnitude_sq_dot, Vec3.lagrange]
      have : (v.cross ⟨0, 0, 1⟩).dot v = 0 := by simp only [Vec3.dot, Vec3.cross]; ring
      rw [this]; ring
    rw [this]; field_simp
  have cw : (v.cross g).dot w ^ 2 = v.magnitude ^ 2 * (v.magnitude ^ 2 * w.magnitude ^ 2 - g.dot w ^ 2 - v.dot w ^ 2) := by
    have gram : (v.cross g).dot w ^ 2
        = v.magnitude ^ 2 * g.magnitude ^ 2 * w.magnitude ^ 2 - v.magnitude ^ 2 * g.dot w ^ 2 - g.magnitude ^ 2 * v.dot w ^ 2 := by
      rw [Vec3.magnitude_sq_dot, Vec3.magnitude_sq_dot, Vec3.magnitude_sq_dot]
      simp only [Vec3.dot, Vec3.cross] at vg ⊢
      linear_combination (2 * (g.x * w.x + g.y * w.y + g.z * w.z) * (v.x * w.x + v.y * w.y + v.z * w.z)
        - (v.x * g.x + v.y * g.y + v.z * g.z) * (w.x * w.x + w.y * w.y + w.z * w.z)) * vg
    rw [gram, gg]; ring
  rw [Vec3.across2, ← hg, Vec3.dot_scaled_left, mul_pow, cw]
  field_simp; ring

/-- a noisy vector seen along `w` -/
theorem noisy_dot (v w : Vec3) (k c s c' s' : ℝ) : (v.noisy k c s c' s').dot w
    = v.dot w * (k * (c * 1)) + v.across1.dot w * (|k| * (s * c')) + v.across2.dot w * (k * (s * s')) := by
  simp only [Vec3.noisy, Vec3.dot, Vec3.plus, Vec3.scaled]; ring

/-- and its square -/
theorem noisy_dot_sq (v w : Vec3) (k c s c' s' : ℝ) : (v.noisy k c s c' s').dot w ^ 2
    = v.dot w ^ 2 * (k ^ 2 * (c ^ 2 * 1)) + v.across1.dot w ^ 2 * (k ^ 2 * (s ^ 2 * c' ^ 2))
      + v.across2.dot w ^ 2 * (k ^ 2 * (s ^ 2 * s' ^ 2)) + 2 * v.dot w * v.across1.dot w * (k * |k| * (c * s * c'))
      + 2 * v.dot w * v.across2.dot w * (k ^ 2 * (c * s * s'))
      + 2 * v.across1.dot w * v.across2.dot w * (k * |k| * (s ^ 2 * (s' * c'))) := by
  rw [noisy_dot]
  have := sq_abs k
  linear_combination (v.across1.dot w ^ 2 * (s ^ 2 * c' ^ 2)) * this

/-- the noisy vector as a random variable -/
noncomputable def noisyDraw (v : Vec3) (r a : ℝ) (d : ℝ × ℝ × ℝ) : Vec3 :=
  v.noisy (1 + r / v.magnitude * d.1) (cos (d.2.1 * a)) (sin (d.2.1 * a)) (cos (2 * π * d.2.2)) (sin (2 * π * d.2.2))

theorem iadd {f g : ℝ × ℝ × ℝ → ℝ} (hf : Integrable f draws) (hg : Integrable g draws) : Integrable (fun d => f d + g d) draws := hf.add hg

theorem int_cos (a : ℝ) : Integrable (fun x => cos (x * a)) (gaussianReal 0 1) :=
  integrable_bdd (by fun_prop) fun x => abs_cos_le_one _

theorem int_sin (a : ℝ) : Integrable (fun x => sin (x * a)) (gaussianReal 0 1) :=
  integrable_bdd (by fun_prop) fun x => abs_sin_le_one _

theorem int_cos_sq (a : ℝ) : Integrable (fun x => cos (x * a) ^ 2) (gaussianReal 0 1) :=
  integrable_bdd (c := 1) (by fun_prop) fun x => by rw [abs_of_nonneg (sq_nonneg _)]; exact cos_sq_le_one _

theorem int_sin_sq (a : ℝ) : Integrable (fun x => sin (x * a) ^ 2) (gaussianReal 0 1) :=
  integrable_bdd (c := 1) (by fun_prop) fun x => by rw [abs_of_nonneg (sq_nonneg _)]; exact sin_sq_le_one _

theorem int_cos_sin (a : ℝ) : Integrable (fun x => cos (x * a) * sin (x * a)) (gaussianReal 0 1) :=
  integrable_bdd (c := 1) (by fun_prop) fun x => by
    rw [abs_mul]; exact mul_le_one₀ (abs_cos_le_one _) (abs_nonneg _) (abs_sin_le_one _)

theorem turn_int {f : ℝ → ℝ} (hf : Continuous f) : Integrable f (volume.restrict (Set.Icc (0 : ℝ) 1)) :=
  (hf.integrableOn_Icc).integrable

theorem line_abs_integrable (m s : ℝ) : Integrable (fun x : ℝ => |m + s * x|) (gaussianReal 0 1) := (line_integrable m s).abs

theorem line_mul_abs_integrable (m s : ℝ) : Integrable (fun x : ℝ => (m + s * x) * |m + s * x|) (gaussianReal 0 1) := by
  refine (line_sq_integrable m s).mono' (by fun_prop) (Filter.Eventually.of_forall fun x => le_of_eq ?_)
  rw [Real.norm_eq_abs, abs_mul, abs_abs, abs_mul_abs_self, pow_two]

/-- the mean of a noisy vector -/
theorem noisy_mean (v : Vec3) (r a : ℝ) (w : Vec3) :
    Integrable (fun d => (noisyDraw v r a d).dot w) draws ∧
      ∫ d, (noisyDraw v r a d).dot w ∂draws = exp (-(a ^ 2 / 2)) * v.dot w := by
  have i1 : Integrable (fun d : ℝ × ℝ × ℝ => v.dot w * ((1 + r / v.magnitude * d.1) * (cos (d.2.1 * a) * 1))) draws :=
    (draws_integrable (line_integrable _ _) (int_cos a) (integrable_const 1)).const_mul _
  have i2 : Integrable (fun d : ℝ × ℝ × ℝ => v.across1.dot w * (|1 + r / v.magnitude * d.1| * (sin (d.2.1 * a) * cos (2 * π * d.2.2))))
      draws := (draws_integrable (line_abs_integrable _ _) (int_sin a) (turn_int (f := fun x => cos (2 * π * x)) (by fun_prop))).const_mul _
  have i3 : Integrable (fun d : ℝ × ℝ × ℝ => v.across2.dot w * ((1 + r / v.magnitude * d.1) * (sin (d.2.1 * a) * sin (2 * π * d.2.2))))
      draws := (draws_integrable (line_integrable _ _) (int_sin a) (turn_int (f := fun x => sin (2 * π * x)) (by fun_prop))).const_mul _
  simp only [noisyDraw, noisy_dot]
  refine ⟨iadd (iadd i1 i2) i3, ?_⟩
  rw [integral_add (iadd i1 i2) i3, integral_add i1 i2, integral_const_mul, integral_const_mul, integral_const_mul,
    draws_mul (fun x => 1 + r / v.magnitude * x) (fun x => cos (x * a)) (fun _ => 1),
    draws_mul (fun x => |1 + r / v.magnitude * x|) (fun x => sin (x * a)) (fun x => cos (2 * π * x)),
    draws_mul (fun x => 1 + r / v.magnitude * x) (fun x => sin (x * a)) (fun x => sin (2 * π * x)), turn_cos, turn_sin, line_mean, mean_cos]
  simp [mul_comm]

/-- the second moments of a noisy vector -/
theorem noisy_square {v : Vec3} (h : ¬(v.x = 0 ∧ v.y = 0)) (r a : ℝ) (w : Vec3) :
    Integrable (fun d => (noisyDraw v r a d).dot w ^ 2) draws ∧
      ∫ d, (noisyDraw v r a d).dot w ^ 2 ∂draws = (1 + (r / v.magnitude) ^ 2) *
        ((1 + exp (-(2 * a ^ 2))) / 2 * v.dot w ^ 2
          + (1 - exp (-(2 * a ^ 2))) / 4 * (v.magnitude ^ 2 * w.magnitude ^ 2 - v.dot w ^ 2)) := by
  obtain ⟨q, hq⟩ : ∃ q, q = r / v.magnitude := ⟨_, rfl⟩
  simp only [noisyDraw, noisy_dot_sq, ← hq]
  have i1 : Integrable (fun d : ℝ × ℝ × ℝ => v.dot w ^ 2 * ((1 + q * d.1) ^ 2 * (cos (d.2.1 * a) ^ 2 * 1))) draws :=
    (draws_integrable (line_sq_integrable _ _) (int_cos_sq a) (integrable_const 1)).const_mul _
  have i2 : Integrable (fun d : ℝ × ℝ × ℝ => v.across1.dot w ^ 2 * ((1 + q * d.1) ^ 2 * (sin (d.2.1 * a) ^ 2 * cos (2 * π * d.2.2) ^ 2)))
      draws := (draws_integrable (line_sq_integrable _ _) (int_sin_sq a) (turn_int (f := fun x => cos (2 * π * x) ^ 2) (by fun_prop))).const_mul _
  have i3 : Integrable (fun d : ℝ × ℝ × ℝ => v.across2.dot w ^ 2 * ((1 + q * d.1) ^ 2 * (sin (d.2.1 * a) ^ 2 * sin (2 * π * d.2.2) ^ 2)))
      draws := (draws_integrable (line_sq_integrable _ _) (int_sin_sq a) (turn_int (f := fun x => sin (2 * π * x) ^ 2) (by fun_prop))).const_mul _
  have i4 : Integrable (fun d : ℝ × ℝ × ℝ => 2 * v.dot w * v.across1.dot w
      * ((1 + q * d.1) * |1 + q * d.1| * (cos (d.2.1 * a) * sin (d.2.1 * a) * cos (2 * π * d.2.2)))) draws :=
    (draws_integrable (line_mul_abs_integrable _ _) (int_cos_sin a) (turn_int (f := fun x => cos (2 * π * x)) (by fun_prop))).const_mul _
  have i5 : Integrable (fun d : ℝ × ℝ × ℝ => 2 * v.dot w * v.across2.dot w
      * ((1 + q * d.1) ^ 2 * (cos (d.2.1 * a) * sin (d.2.1 * a) * sin (2 * π * d.2.2)))) draws :=
    (draws_integrable (line_sq_integrable _ _) (int_cos_sin a) (turn_int (f := fun x => sin (2 * π * x)) (by fun_prop))).const_mul _
  have i6 : Integrable (fun d : ℝ × ℝ × ℝ => 2 * v.across1.dot w * v.across2.dot w
      * ((1 + q * d.1) * |1 + q * d.1| * (sin (d.2.1 * a) ^ 2 * (sin (2 * π * d.2.2) * cos (2 * π * d.2.2))))) draws :=
    (draws_integrable (line_mul_abs_integrable _ _) (int_sin_sq a)
      (turn_int (f := fun x => sin (2 * π * x) * cos (2 * π * x)) (by fun_prop))).const_mul _
  have i12 := iadd i1 i2
  have i13 := iadd i12 i3
  have i14 := iadd i13 i4
  have i15 := iadd i14 i5
  refine ⟨iadd i15 i6, ?_⟩
  rw [integral_add i15 i6, integral_add i14 i5, integral_add i13 i4, integral_add i12 i3, integral_add i1 i2]
  simp only [integral_const_mul]
  rw [draws_mul (fun x => (1 + q * x) ^ 2) (fun x => cos (x * a) ^ 2) (fun _ => 1),
    draws_mul (fun x => (1 + q * x) ^ 2) (fun x => sin (x * a) ^ 2) (fun x => cos (2 * π * x) ^ 2),
    draws_mul (fun x => (1 + q * x) ^ 2) (fun x => sin (x * a) ^ 2) (fun x => sin (2 * π * x) ^ 2),
    draws_mul (fun x => (1 + q * x) * |1 + q * x|) (fun x => cos (x * a) * sin (x * a)) (fun x => cos (2 * π * x)),
    draws_mul (fun x => (1 + q * x) ^ 2) (fun x => cos (x * a) * sin (x * a)) (fun x => sin (2 * π * x)),
    draws_mul (fun x => (1 + q * x) * |1 + q * x|) (fun x => sin (x * a) ^ 2) (fun x => sin (2 * π * x) * cos (2 * π * x)),
    turn_cos, turn_sin, turn_sin_cos, turn_cos_sq, turn_sin_sq, line_sq_mean, mean_cos_sq, mean_sin_sq, ← across_parseval h w]
  simp only [integral_const, measureReal_restrict_apply_univ, Real.volume_real_Icc, smul_eq_mul]
  norm_num
  ring

/-- a draw that makes the length zero has probability zero -/
theorem length_ne (m r : ℝ) (hm : m ≠ 0) : ∀ᵐ d ∂draws, m + r * d.1 ≠ 0 := by
  have h : ∀ᵐ x ∂gaussianReal 0 1, m + r * x ≠ 0 := by
    by_cases hr : r = 0
    · exact Filter.Eventually.of_forall fun x => by rw [hr]; simpa using hm
    · have := nullSingletonClass_gaussianReal (μ := 0) (v := 1) one_ne_zero
      have h0 : ∀ᵐ x ∂gaussianReal 0 1, x ≠ -m / r := by
        rw [ae_iff]; simp
      filter_upwards [h0] with x hx e
      apply hx
      field_simp; linarith
  exact Measure.quasiMeasurePreserving_fst.ae h

/-- the length of a noisy vector -/
theorem noisy_length {v : Vec3} (h : ¬(v.x = 0 ∧ v.y = 0)) {r a : ℝ} {d : ℝ × ℝ × ℝ} (hd : v.magnitude + r * d.1 ≠ 0) :
    (noisyDraw v r a d).magnitude = |v.magnitude + r * d.1| := by
  obtain ⟨n, e1, e2⟩ := (C06_noise v r a d.1 d.2.1 d.2.2 h).1 hd
  rw [noise_form h hd, Except.ok.injEq] at e1
  rw [noisyDraw, e1, e2]

/-- the mean square length of a noisy vector, and its mean square distance from the true one -/
theorem noisy_error {v : Vec3} (h : ¬(v.x = 0 ∧ v.y = 0)) (r a : ℝ) :
    (Integrable (fun d => (noisyDraw v r a d).magnitude ^ 2) draws ∧
      ∫ d, (noisyDraw v r a d).magnitude ^ 2 ∂draws = v.magnitude ^ 2 + r ^ 2) ∧
    Integrable (fun d => ((noisyDraw v r a d).minus v).magnitude ^ 2) draws ∧
      ∫ d, ((noisyDraw v r a d).minus v).magnitude ^ 2 ∂draws = r ^ 2 + 2 * (1 - exp (-(a ^ 2 / 2))) * v.magnitude ^ 2 := by
  have hv : v ≠ ⟨0, 0, 0⟩ := by rintro rfl; simp at h
  have i0 : Integrable (fun d : ℝ × ℝ × ℝ => (v.magnitude + r * d.1) ^ 2 * (1 * 1)) draws :=
    draws_integrable (f := fun x => (v.magnitude + r * x) ^ 2) (line_sq_integrable _ _) (integrable_const 1) (integrable_const 1)
  have ae : ∀ᵐ d ∂draws, (v.magnitude + r * d.1) ^ 2 * (1 * 1) = (noisyDraw v r a d).magnitude ^ 2 := by
    filter_upwards [length_ne v.magnitude r (Vec3.magnitude_pos.mpr hv).ne'] with d hd
    rw [noisy_length h hd, sq_abs]; ring
  have i1 : Integrable (fun d => (noisyDraw v r a d).magnitude ^ 2) draws := i0.congr ae
  have m1 : ∫ d, (noisyDraw v r a d).magnitude ^ 2 ∂draws = v.magnitude ^ 2 + r ^ 2 := by
    rw [← integral_congr_ae ae, draws_mul (fun x => (v.magnitude + r * x) ^ 2) (fun _ => 1) (fun _ => 1), line_sq_mean]
    simp
  obtain ⟨i2, m2⟩ := noisy_mean v r a v
  have e : ∀ d, ((noisyDraw v r a d).minus v).magnitude ^ 2
      = (noisyDraw v r a d).magnitude ^ 2 + (v.magnitude ^ 2 + (-2) * (noisyDraw v r a d).dot v) := by
    intro d
    rw [Vec3.magnitude_sq_dot, Vec3.magnitude_sq_dot, Vec3.magnitude_sq_dot]
    simp only [Vec3.dot, Vec3.minus]; ring
  simp only [e]
  have i3 := iadd (integrable_const (v.magnitude ^ 2)) (i2.const_mul (-2))
  refine ⟨⟨i1, m1⟩, iadd i1 i3, ?_⟩
  rw [integral_add i1 i3, integral_add (integrable_const _) (i2.const_mul _), m1,
    integral_const_mul, m2, integral_const, ← Vec3.magnitude_sq_dot]
  simp only [probReal_univ, smul_eq_mul]; ring

/-- what a random vector `N` has to be on average, to be a measurement of `v` with range error `r` and angular error `a` -/
structure NoiseStatistics (v : Vec3) (r a : ℝ) (N : ℝ × ℝ × ℝ → Vec3) : Prop where
  /-- its mean is along `v` -/
  mean : ∀ w, Integrable (fun d => (N d).dot w) draws ∧ ∫ d, (N d).dot w ∂draws = exp (-(a ^ 2 / 2)) * v.dot w
  /-- its second moments, along `v` and, alike in all directions, across it -/
  second : ∀ w, Integrable (fun d => (N d).dot w ^ 2) draws ∧ ∫ d, (N d).dot w ^ 2 ∂draws
    = (1 + (r / v.magnitude) ^ 2) * ((1 + exp (-(2 * a ^ 2))) / 2 * v.dot w ^ 2
      + (1 - exp (-(2 * a ^ 2))) / 4 * (v.magnitude ^ 2 * w.magnitude ^ 2 - v.dot w ^ 2))
  /-- its mean square length -/
  length : Integrable (fun d => (N d).magnitude ^ 2) draws ∧ ∫ d, (N d).magnitude ^ 2 ∂draws = v.magnitude ^ 2 + r ^ 2
  /-- its mean square distance from `v` -/
  error : Integrable (fun d => ((N d).minus v).magnitude ^ 2) draws ∧
    ∫ d, ((N d).minus v).magnitude ^ 2 ∂draws = r ^ 2 + 2 * (1 - exp (-(a ^ 2 / 2))) * v.magnitude ^ 2

/-- **C163.** `with_noise` succeeds with probability one for every vector that is not on the z axis.  The mean of the noisy vector is
the true one, shortened by the factor `exp (- a² / 2)`; its second moments, its mean square length and its mean square distance from
the true vector are as stated in `NoiseStatistics`. -/
theorem C163_noise (v : Vec3) (r a : ℝ) (h : ¬(v.x = 0 ∧ v.y = 0)) :
    ∃ N, (∀ᵐ d ∂draws, v.withNoise r a d.1 d.2.1 d.2.2 = .ok (N d)) ∧ NoiseStatistics v r a N := by
  have hv : v ≠ ⟨0, 0, 0⟩ := by rintro rfl; simp at h
  obtain ⟨e1, e2⟩ := noisy_error h r a
  refine ⟨noisyDraw v r a, ?_, fun w => noisy_mean v r a w, fun w => noisy_square h r a w, e1, e2⟩
  filter_upwards [length_ne v.magnitude r (Vec3.magnitude_pos.mpr hv).ne'] with d hd
  exact noise_form h hd

/-- **C163.** Hence the root mean square error of a noisy vector is at most that of a range error `r` and an error of `a` radians, the
mean is off by at most `a² / 2` of the length, and across the line of sight the mean square is at most half of `a²` times the mean
square length in each direction. -/
theorem C163_bounds {v : Vec3} {r a : ℝ} {N : ℝ × ℝ × ℝ → Vec3} (h : NoiseStatistics v r a N) :
    ∫ d, ((N d).minus v).magnitude ^ 2 ∂draws ≤ r ^ 2 + a ^ 2 * v.magnitude ^ 2 ∧
    (∀ w, |∫ d, (N d).dot w ∂draws - v.dot w| ≤ a ^ 2 / 2 * |v.dot w|) ∧
    ∀ w, v.dot w = 0 → ∫ d, (N d).dot w ^ 2 ∂draws ≤ a ^ 2 / 2 * (v.magnitude ^ 2 + r ^ 2) * w.magnitude ^ 2 := by
  have b1 : 1 - a ^ 2 / 2 ≤ exp (-(a ^ 2 / 2)) := by have := add_one_le_exp (-(a ^ 2 / 2)); linarith
  have b2 : exp (-(a ^ 2 / 2)) ≤ 1 := exp_le_one_iff.mpr (by nlinarith [sq_nonneg a])
  have b3 : 1 - 2 * a ^ 2 ≤ exp (-(2 * a ^ 2)) := by have := add_one_le_exp (-(2 * a ^ 2)); linarith
  refine ⟨?_, fun w => ?_, fun w hw => ?_⟩
  · rw [h.error.2]
    have := mul_le_mul_of_nonneg_right (by linarith : 2 * (1 - exp (-(a ^ 2 / 2))) ≤ a ^ 2) (sq_nonneg v.magnitude)
    linarith
  · rw [(h.mean w).2, show exp (-(a ^ 2 / 2)) * v.dot w - v.dot w = -((1 - exp (-(a ^ 2 / 2))) * v.dot w) by ring, abs_neg, abs_mul,
      abs_of_nonneg (by linarith)]
    exact mul_le_mul_of_nonneg_right (by linarith) (abs_nonneg _)
  · rw [(h.second w).2, hw]
    by_cases hm : v.magnitude = 0
    · rw [hm]; simp; positivity
    · have e : (1 + (r / v.magnitude) ^ 2) * ((1 + exp (-(2 * a ^ 2))) / 2 * 0 ^ 2
          + (1 - exp (-(2 * a ^ 2))) / 4 * (v.magnitude ^ 2 * w.magnitude ^ 2 - 0 ^ 2))
          = (1 - exp (-(2 * a ^ 2))) / 4 * ((v.magnitude ^ 2 + r ^ 2) * w.magnitude ^ 2) := by field_simp; ring
      rw [e, mul_assoc (a ^ 2 / 2)]
      exact mul_le_mul_of_nonneg_right (by linarith) (by positivity)

theorem observe_statistics {ι : Type} (cam : Camera) (s t : Spacecraft ι) (hr : t.body_radius ≠ 0)
    (hxy : ¬(t.currentState.position.x = s.currentState.position.x ∧ t.currentState.position.y = s.currentState.position.y)) :
    ∃ ob : ℝ × ℝ × ℝ → SpaceObservation, (∀ᵐ d ∂draws, Spacecraft.observe cam s t d.1 d.2.1 d.2.2 = .ok (ob d)) ∧
      NoiseStatistics (t.currentState.position.minus s.currentState.position)
        (tan cam.fov * cam.resolution_factor * s.range t ^ 2 / (2 * t.body_radius)) s.pointing_accuracy
        fun d => (ob d).observed_direction := by
  obtain ⟨err, herr⟩ : ∃ err, err = tan cam.fov * cam.resolution_factor * s.range t ^ 2 / (2 * t.body_radius) := ⟨_, rfl⟩
  have e0 : s.targetVector t = t.currentState.position.minus s.currentState.position := rfl
  have e1 : cam.rangeError (s.targetVector t).magnitude (t.body_radius * 2) = .ok err := by
    have hr2 : t.body_radius * 2 ≠ 0 := mul_ne_zero hr two_ne_zero
    have : s.range t = (s.targetVector t).magnitude := rfl
    simp only [Camera.rangeError, pyDiv_ok hr2, ok_bind, pure_eq_ok, Camera.resolution, pyTan, herr, this, Except.ok.injEq]
    field_simp
  obtain ⟨N, hN, hs⟩ := C163_noise (s.targetVector t) err s.pointing_accuracy (by
    rw [e0]; simpa only [Vec3.minus, sub_eq_zero] using hxy)
  refine ⟨fun d => SpaceObservation.new s.currentState (N d) err s.pointing_accuracy, ?_, by rw [← herr, ← e0]; exact hs⟩
  filter_upwards [hN] with d hd
  simp only [Spacecraft.observe, e1, ok_bind, hd, pure_eq_ok]

/-- **C163.** For a target with a size that is not exactly along the z axis from the observer, `observe_wfov` and `observe_nfov` succeed
with probability one, and the vector they report has the statistics of a measurement of the true relative position with the range error
of the camera used and the pointing accuracy of the observer. -/
theorem C163_observe {ι : Type} (s t : Spacecraft ι) (hr : t.body_radius ≠ 0)
    (hxy : ¬(t.currentState.position.x = s.currentState.position.x ∧ t.currentState.position.y = s.currentState.position.y)) :
    (∃ ob : ℝ × ℝ × ℝ → SpaceObservation, (∀ᵐ d ∂draws, s.observeWfov t d.1 d.2.1 d.2.2 = .ok (ob d)) ∧
      NoiseStatistics (t.currentState.position.minus s.currentState.position)
        (tan s.wfov.fov * s.wfov.resolution_factor * s.range t ^ 2 / (2 * t.body_radius)) s.pointing_accuracy
        fun d => (ob d).observed_direction) ∧
    ∃ ob : ℝ × ℝ × ℝ → SpaceObservation, (∀ᵐ d ∂draws, s.observeNfov t d.1 d.2.1 d.2.2 = .ok (ob d)) ∧
      NoiseStatistics (t.currentState.position.minus s.currentState.position)
        (tan s.nfov.fov * s.nfov.resolution_factor * s.range t ^ 2 / (2 * t.body_radius)) s.pointing_accuracy
        fun d => (ob d).observed_direction :=
  ⟨observe_statistics _ s t hr hxy, observe_statistics _ s t hr hxy⟩

/-- two freshly built spacecraft 10 km apart -/
example : ∃ s t : Spacecraft (Fin 2), ∃ ob : ℝ × ℝ × ℝ → SpaceObservation,
    (∀ᵐ d ∂draws, s.observeWfov t d.1 d.2.1 d.2.2 = .ok (ob d)) ∧
    ∫ d, (ob d).observed_direction.dot ⟨1, 0, 0⟩ ∂draws = exp (-(s.pointing_accuracy ^ 2 / 2)) * 10 := by
  obtain ⟨w, hw, hg⟩ := exists_fresh (ι := Fin 2) fun k => GCRF.new ⟨0⟩ ⟨7000 + 10 * (k.val : ℝ), 0, 0⟩ ⟨0, 1, 0⟩
  have hpos : ∀ k, (w k).currentState.position = ⟨7000 + 10 * (k.val : ℝ), 0, 0⟩ := by
    intro k
    obtain ⟨s, h1, -, -, h2, -⟩ := new_ok (ι := Fin 2) (GCRF.new ⟨0⟩ ⟨7000 + 10 * (k.val : ℝ), 0, 0⟩ ⟨0, 1, 0⟩)
    rw [hg k] at h1
    cases h1
    unfold Spacecraft.currentState
    rw [h2]
    rfl
  obtain ⟨-, -, h3⟩ := fresh_sensorDefaults hw 1
  obtain ⟨⟨ob, h1, h2⟩, -⟩ := C163_observe (w 0) (w 1) (by rw [h3]; norm_num) (by
    rintro ⟨h, -⟩
    rw [hpos, hpos] at h
    norm_num at h)
  refine ⟨w 0, w 1, ob, h1, ?_⟩
  rw [(h2.mean _).2, hpos, hpos]
  congr 1
  norm_num [Vec3.dot, Vec3.minus]

end Openspace
