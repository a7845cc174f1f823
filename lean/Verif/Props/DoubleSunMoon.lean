import Verif.Lemmas.DoubleSunMoon

/-! # C140: the Sun and the Moon in double precision -/

namespace Openspace

/-- From 1858 to 2217 the rounded position of the Sun is within four metres of the exact one, -/
theorem C140_sun {lib : F64.Libm} (hlib : Spec.Accurate lib) {e : ℝ} (h0 : 1 ≤ e) (h1 : e ≤ 131072) :
    ((F64.sunPosition lib e).minus (Sun.getPosition ⟨e⟩)).magnitude ≤ 4e-3 := F64.sunPosition_error hlib h0 h1

/-- and so of the published series. -/
theorem C140_sun_series {lib : F64.Libm} (hlib : Spec.Accurate lib) {e : ℝ} (h0 : 1 ≤ e) (h1 : e ≤ 131072) :
    ∑ i, ((F64.sunPosition lib e).toFun i - Spec.sunPosition ((⟨e⟩ : Epoch).days / 36525) i) ^ 2 ≤ 4e-3 ^ 2 := by
  have h := F64.sunPosition_error hlib h0 h1
  rw [← C120_sun]
  have h2 := pow_le_pow_left₀ (Vec3.magnitude_nonneg _) h 2
  rw [Vec3.magnitude_sq_dot] at h2
  refine le_trans (le_of_eq ?_) h2
  rw [Fin.sum_univ_three]
  simp only [Vec3.dot, Vec3.minus, Vec3.toFun, Matrix.cons_val]
  ring

/-- The position of the Moon is computed without exception and is within thirty centimetres of the exact one, -/
theorem C140_moon {lib : F64.Libm} (hlib : Spec.Accurate lib) {e : ℝ} (h0 : 1 ≤ e) (h1 : e ≤ 131072) :
    ∃ m' m, F64.moonPosition lib e = .ok m' ∧ Moon.getPosition ⟨e⟩ = .ok m ∧ (m'.minus m).magnitude ≤ 3e-4 :=
  F64.moonPosition_error hlib h0 h1

/-- and so at a distance between 356095 and 413905 km. -/
theorem C140_moon_distance {lib : F64.Libm} (hlib : Spec.Accurate lib) {e : ℝ} (h0 : 1 ≤ e) (h1 : e ≤ 131072) :
    ∃ m, F64.moonPosition lib e = .ok m ∧ 356095 ≤ m.magnitude ∧ m.magnitude ≤ 413905 := by
  obtain ⟨m', m, a1, a2, a3⟩ := C140_moon hlib h0 h1
  obtain ⟨m2, b1, b2, b3⟩ := C30_moon ⟨e⟩
  rw [a2, Except.ok.injEq] at b1
  subst b1
  have e1 : m' = m.plus (m'.minus m) := by ext <;> simp [Vec3.plus, Vec3.minus]
  have e2 : m = m'.plus ((m'.minus m).scaled (-1)) := by ext <;> simp [Vec3.plus, Vec3.minus, Vec3.scaled]
  have c1 := Vec3.magnitude_plus_le m (m'.minus m)
  have c2 := Vec3.magnitude_plus_le m' ((m'.minus m).scaled (-1))
  rw [← e1] at c1
  rw [← e2, Vec3.magnitude_scaled_abs, abs_neg, abs_one, one_mul] at c2
  norm_num at a3
  exact ⟨m', a1, by linarith, by linarith⟩

/-- 5 April 2022, with correctly rounded functions -/
example : ∃ m' m, F64.moonPosition F64.rounded 59674 = .ok m' ∧ Moon.getPosition ⟨59674⟩ = .ok m ∧
    (m'.minus m).magnitude ≤ 3e-4 := C140_moon F64.rounded_accurate.1 (by norm_num) (by norm_num)

end Openspace
