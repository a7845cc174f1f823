import Verif.Props.GaussConvergence
import Verif.Props.GaussWitness
import Verif.Props.KeplerMotion
import Verif.Props.Forces

/-!
# C134: the Gauss method recovers the orbit of the observed object
-/

namespace Openspace

open Real Spec

namespace Gauss

/-! ## The equation has one root -/

/-- `X` grows on `(0, π)` -/
theorem X_monotone {g g' : ℝ} (h0 : 0 < g) (hg : g ≤ g') (h1 : g' < π) : X g ≤ X g' := by
  have hs : ∀ x ∈ Set.Icc g g', 0 < sin x := fun x hx =>
    sin_pos_of_pos_of_lt_pi (lt_of_lt_of_le h0 hx.1) (lt_of_le_of_lt hx.2 h1)
  have hψ : ∀ x : ℝ, HasDerivAt (fun x : ℝ => 4 * sin x ^ 3 - 3 * cos x * (2 * x - sin (2 * x)))
      (3 * sin x * (2 * x - sin (2 * x))) x := by
    intro x
    have h2 : HasDerivAt (fun x : ℝ => 2 * x) 2 x := by simpa using (hasDerivAt_id x).const_mul 2
    have h3 := (((hasDerivAt_sin x).pow 3).const_mul 4).sub (((hasDerivAt_cos x).const_mul 3).mul (h2.sub h2.sin))
    refine h3.congr_deriv ?_
    have hc : cos (2 * x) = 1 - 2 * sin x ^ 2 := by
      rw [cos_two_mul]; linear_combination 2 * sin_sq_add_cos_sq x
    simp only [Pi.sub_apply]
    rw [hc]
    push_cast
    ring
  have hpos : ∀ x ∈ Set.Icc 0 π, 0 ≤ 4 * sin x ^ 3 - 3 * cos x * (2 * x - sin (2 * x)) := by
    intro x hx
    have : MonotoneOn (fun x : ℝ => 4 * sin x ^ 3 - 3 * cos x * (2 * x - sin (2 * x))) (Set.Icc 0 π) := by
      apply monotoneOn_of_deriv_nonneg (convex_Icc 0 π)
      · exact fun x _ => (hψ x).continuousAt.continuousWithinAt
      · exact fun x _ => (hψ x).differentiableAt.differentiableWithinAt
      · intro y hy
        obtain ⟨y0, y1⟩ := interior_subset hy
        rw [(hψ y).deriv]
        have := sin_nonneg_of_nonneg_of_le_pi y0 y1
        have := sin_le1 (x := 2 * y) (by linarith)
        have : 0 ≤ 2 * y - sin (2 * y) := by linarith
        positivity
    have := this (Set.left_mem_Icc.mpr pi_pos.le) hx hx.1
    simpa using this
  have : MonotoneOn X (Set.Icc g g') := by
    apply monotoneOn_of_deriv_nonneg (convex_Icc g g')
    · exact fun x hx => (X_hasDeriv (hs x hx).ne').continuousAt.continuousWithinAt
    · exact fun x hx => (X_hasDeriv (hs x (interior_subset hx)).ne').differentiableAt.differentiableWithinAt
    · intro x hx
      have hx' := interior_subset hx
      rw [(X_hasDeriv (hs x hx').ne').deriv]
      have := hs x hx'
      exact div_nonneg (hpos x ⟨(lt_of_lt_of_le h0 hx'.1).le, (lt_of_le_of_lt hx'.2 h1).le⟩) (by positivity)
  exact this (Set.left_mem_Icc.mpr hg) (Set.right_mem_Icc.mpr hg) hg

/-- what `f_of_nu` returns, wherever it returns -/
theorem fOfNu_value {n m l y : ℝ} (h : fOfNu n m l = .ok y) :
    n ≠ 0 ∧ 0 < m / n ^ 2 - l ∧ m / n ^ 2 - l < 1 ∧ y = F m l n := by
  obtain ⟨hn, h0, h1⟩ := (C58_domain n m l).2.2.mp ⟨y, h⟩
  refine ⟨hn, h0, h1, ?_⟩
  have hs0 := sqrt_pos.mpr h0
  have hs1 : √(m / n ^ 2 - l) < 1 := by rw [sqrt_lt' one_pos]; linarith
  have hg0 := arcsin_pos.mpr hs0
  have hg1 : arcsin √(m / n ^ 2 - l) < π / 2 := arcsin_lt_pi_div_two.mpr hs1
  have e0 : sin (2 * arcsin √(m / n ^ 2 - l) / 2) ^ 2 = m / n ^ 2 - l := by
    rw [mul_div_cancel_left₀ _ two_ne_zero, sin_arcsin (by linarith) hs1.le, sq_sqrt h0.le]
  have e : pyDiv m (n * n) = .ok (m / n ^ 2) := by rw [pyDiv_ok (mul_ne_zero hn hn), sq n]
  simp only [fOfNu, e, ok_bind] at h
  rw [← e0, wOfOmega_half (by linarith) (by linarith)] at h
  simp only [ok_bind, pure_eq_ok, Except.ok.injEq] at h
  rw [← h, F, X]
  congr 3
  ring

/-- no two positive numbers are roots -/
theorem root_unique {a b m l : ℝ} (ha0 : 0 < a) (hb0 : 0 < b) (hm : 0 < m) (ha : fOfNu a m l = .ok 0)
    (hb : fOfNu b m l = .ok 0) : a = b := by
  have key : ∀ {a b : ℝ}, 0 < a → 0 < b → fOfNu a m l = .ok 0 → fOfNu b m l = .ok 0 → ¬ a < b := by
    intro a b ha0 hb0 ha hb hab
    obtain ⟨-, a0, a1, ea⟩ := fOfNu_value ha
    obtain ⟨-, b0, b1, eb⟩ := fOfNu_value hb
    have hx : m / b ^ 2 ≤ m / a ^ 2 := div_le_div_of_nonneg_left hm.le (by positivity) (by gcongr)
    have hg := monotone_arcsin (sqrt_le_sqrt (sub_le_sub_right hx l))
    have hgb := arcsin_pos.mpr (sqrt_pos.mpr b0)
    have hga : arcsin √(m / a ^ 2 - l) < π / 2 := arcsin_lt_pi_div_two.mpr (by rw [sqrt_lt' one_pos]; linarith)
    have hX := X_monotone (g := 2 * arcsin √(m / b ^ 2 - l)) (g' := 2 * arcsin √(m / a ^ 2 - l)) (by linarith)
      (by linarith) (by linarith)
    have hX0 : 0 ≤ X (2 * arcsin √(m / b ^ 2 - l)) :=
      div_nonneg (by linarith [sin_le1 (x := 2 * (2 * arcsin √(m / b ^ 2 - l))) (by linarith)])
        (pow_nonneg (sin_nonneg_of_nonneg_of_le_pi (by linarith) (by linarith)) 3)
    have := mul_le_mul hx hX hX0 (by positivity)
    simp only [F] at ea eb
    linarith
  rcases lt_trichotomy a b with h | h | h
  · exact absurd h (key ha0 hb0 ha hb)
  · exact h
  · exact absurd h (key hb0 ha0 hb ha)

/-! ## Two points of an ellipse -/

section points

variable {el : ClassicalElements} (ha : 0 < el.semimajor_axis) (he : 0 ≤ el.eccentricity) (he' : el.eccentricity < 1)
  (E : ℝ)
include ha he he'

/-- distance from the centre -/
theorem orbitPos_mag : (orbitPos el E).magnitude = el.semimajor_axis * (1 - el.eccentricity * cos E) := by
  have hE := one_sub_e_cos_pos he he' E
  apply Vec3.magnitude_of_dot (by positivity)
  rw [orbitPos, comb_dot el.dirP_unit el.dirQ_unit el.dirP_dirQ]
  have h2e : (0 : ℝ) ≤ 1 - el.eccentricity * el.eccentricity := by nlinarith
  have hss := Real.mul_self_sqrt h2e
  linear_combination el.semimajor_axis ^ 2 * sin E ^ 2 * hss +
    el.semimajor_axis ^ 2 * (1 - el.eccentricity ^ 2) * sin_sq_add_cos_sq E

end points

/-- twice the area of the triangle between the centre and two points, with sign -/
noncomputable def area (el : ClassicalElements) (Ea Eb : ℝ) : ℝ :=
  el.semimajor_axis * (cos Ea - el.eccentricity) *
      (el.semimajor_axis * √(1 - el.eccentricity * el.eccentricity) * sin Eb) -
    el.semimajor_axis * √(1 - el.eccentricity * el.eccentricity) * sin Ea *
      (el.semimajor_axis * (cos Eb - el.eccentricity))

theorem orbitPos_cross (el : ClassicalElements) (Ea Eb : ℝ) :
    (orbitPos el Ea).cross (orbitPos el Eb) = el.dirW.scaled (area el Ea Eb) := by
  rw [orbitPos, orbitPos, comb_cross, el.dirP_cross_dirQ, area]

/-- The velocity at the first of two points of an ellipse, from the two points and the ratio of the areas of the sector
and the triangle between them -/
theorem orbitVel_chord {el : ClassicalElements} (ha : 0 < el.semimajor_axis) (he : 0 ≤ el.eccentricity)
    (he' : el.eccentricity < 1) {n0 : ℝ} (hn0 : n0 = √(Earth.MU / el.semimajor_axis ^ 3)) {Ea Eb dt n : ℝ} (hdt : 0 < dt)
    (hn : 0 < n) (hD : 0 < area el Ea Eb)
    (hp : el.semimajor_axis * (1 - el.eccentricity ^ 2) = (area el Ea Eb * n) ^ 2 / (Earth.MU * dt ^ 2)) :
    (orbitVel el n0 Ea).scaled dt = (((orbitPos el Eb).minus (orbitPos el Ea)).scaled n).plus ((orbitPos el Ea).scaled
      (2 * gaussK (orbitPos el Ea) (orbitPos el Eb) * gaussM (orbitPos el Ea) (orbitPos el Eb) dt /
        (n * (orbitPos el Ea).magnitude))) := by
  have hmu := mu_pos
  obtain ⟨a, hae⟩ : ∃ a, a = el.semimajor_axis := ⟨_, rfl⟩
  obtain ⟨e, hee⟩ : ∃ e, e = el.eccentricity := ⟨_, rfl⟩
  obtain ⟨b, hbe⟩ : ∃ b, b = √(1 - e * e) := ⟨_, rfl⟩
  have h2e : (0 : ℝ) < 1 - e * e := by rw [hee]; nlinarith
  have hbb : b * b = 1 - e * e := by rw [hbe, Real.mul_self_sqrt h2e.le]
  have hb : 0 < b := by rw [hbe]; exact sqrt_pos.mpr h2e
  have hA := orbitPos_mag ha he he' Ea
  have hB := orbitPos_mag ha he he' Eb
  have hdot : (orbitPos el Ea).dot (orbitPos el Eb) = a * (cos Ea - e) * (a * (cos Eb - e)) +
      a * b * sin Ea * (a * b * sin Eb) := by
    rw [orbitPos, orbitPos, comb_dot el.dirP_unit el.dirQ_unit el.dirP_dirQ, hae, hbe, hee]
  have hDe : area el Ea Eb = a * (cos Ea - e) * (a * b * sin Eb) - a * b * sin Ea * (a * (cos Eb - e)) := by
    rw [area, hae, hbe, hee]
  have hEa := one_sub_e_cos_pos he he' Ea
  have hEb := one_sub_e_cos_pos he he' Eb
  rw [← hae] at ha
  rw [← hee] at he he'
  rw [← hae, ← hee] at hA hB hp
  rw [← hae] at hn0
  rw [← hee] at hEa hEb
  obtain ⟨A, hAe⟩ : ∃ A, A = a * (1 - e * cos Ea) := ⟨_, rfl⟩
  obtain ⟨B, hBe⟩ : ∃ B, B = a * (1 - e * cos Eb) := ⟨_, rfl⟩
  obtain ⟨xa, hxa⟩ : ∃ x, x = a * (cos Ea - e) := ⟨_, rfl⟩
  obtain ⟨xb, hxb⟩ : ∃ x, x = a * (cos Eb - e) := ⟨_, rfl⟩
  obtain ⟨ya, hya⟩ : ∃ x, x = a * b * sin Ea := ⟨_, rfl⟩
  obtain ⟨yb, hyb⟩ : ∃ x, x = a * b * sin Eb := ⟨_, rfl⟩
  obtain ⟨D, hDD⟩ : ∃ D, D = area el Ea Eb := ⟨_, rfl⟩
  obtain ⟨p, hpe⟩ : ∃ p, p = a * (1 - e ^ 2) := ⟨_, rfl⟩
  rw [← hDD] at hD hp hDe
  rw [← hpe] at hp
  rw [← hxa, ← hxb, ← hya, ← hyb] at hdot hDe
  rw [← hAe] at hA
  rw [← hBe] at hB
  have hAp : 0 < A := by rw [hAe]; positivity
  have hBp : 0 < B := by rw [hBe]; positivity
  have hpp : 0 < p := by rw [hpe]; have : 0 < 1 - e ^ 2 := by linarith [sq e]
                         positivity
  have fA : A = p - e * xa := by rw [hAe, hpe, hxa]; ring
  have fB : B = p - e * xb := by rw [hBe, hpe, hxb]; ring
  have sA : A ^ 2 = xa ^ 2 + ya ^ 2 := by
    rw [hAe, hxa, hya]
    linear_combination -a ^ 2 * sin Ea ^ 2 * hbb - a ^ 2 * (1 - e ^ 2) * sin_sq_add_cos_sq Ea
  have sB : B ^ 2 = xb ^ 2 + yb ^ 2 := by
    rw [hBe, hxb, hyb]
    linear_combination -a ^ 2 * sin Eb ^ 2 * hbb - a ^ 2 * (1 - e ^ 2) * sin_sq_add_cos_sq Eb
  obtain ⟨rho, hrho⟩ : ∃ r, r = xa * xb + ya * yb := ⟨_, rfl⟩
  rw [← hrho] at hdot
  have hD2 : D ^ 2 = (A * B - rho) * (A * B + rho) := by
    rw [hDe, hrho]
    linear_combination (-B ^ 2) * sA - (xa ^ 2 + ya ^ 2) * sB
  have habs : |rho| < A * B := by
    apply abs_lt_of_sq_lt_sq _ (by positivity)
    nlinarith [pow_pos hD 2]
  have hplus : 0 < A * B + rho := by linarith [neg_abs_le rho]
  have hn03 : 0 ≤ Earth.MU / a ^ 3 := by positivity
  have hnn : n0 * n0 = Earth.MU / a ^ 3 := by rw [hn0]; exact Real.mul_self_sqrt hn03
  have hn0p : 0 < n0 := by rw [hn0]; exact sqrt_pos.mpr (by positivity)
  have hmun : Earth.MU = n0 ^ 2 * a ^ 3 := by rw [sq, hnn]; field_simp
  have hDn2 : (D * n) ^ 2 = p * (Earth.MU * dt ^ 2) := by rw [hp]; field_simp
  have hDn : D * n = dt * n0 * a ^ 2 * b := by
    apply (pow_left_inj₀ (by positivity) (by positivity) two_ne_zero).mp
    rw [hDn2, hmun, hpe]
    linear_combination (-(n0 ^ 2 * a ^ 4 * dt ^ 2)) * hbb
  have hK2 : gaussK (orbitPos el Ea) (orbitPos el Eb) ^ 2 = 2 * (A * B + rho) := by
    rw [gaussK, hA, hB, hdot, sq_sqrt (by linarith)]
  have hKp : 0 < gaussK (orbitPos el Ea) (orbitPos el Eb) := by
    rw [gaussK, hA, hB, hdot]; exact sqrt_pos.mpr (by linarith)
  have hcoef : 2 * gaussK (orbitPos el Ea) (orbitPos el Eb) * gaussM (orbitPos el Ea) (orbitPos el Eb) dt /
      (n * (orbitPos el Ea).magnitude) = n * (A * B - rho) / (p * A) := by
    rw [gaussM, hA]
    obtain ⟨K, hK⟩ : ∃ K, K = gaussK (orbitPos el Ea) (orbitPos el Eb) := ⟨_, rfl⟩
    rw [← hK] at hK2 hKp ⊢
    have e1 : 2 * K * (Earth.MU * dt ^ 2 / K ^ 3) / (n * A) = 2 * (Earth.MU * dt ^ 2) / (K ^ 2 * n * A) := by
      field_simp
    rw [e1, hK2, div_eq_div_iff (by positivity) (by positivity)]
    linear_combination (-2 * A) * hDn2 + (2 * n ^ 2 * A) * hD2
  rw [hcoef]
  have hane := ha.ne'
  have hbne := hb.ne'
  have h1a : (1 - e * cos Ea) ≠ 0 := hEa.ne'
  have e1 : -(n0 * a) * sin Ea / (1 - e * cos Ea) * dt = n * (xb - xa) + xa * (n * (A * B - rho) / (p * A)) := by
    have e2 : -(n0 * a) * sin Ea / (1 - e * cos Ea) * dt = -(D * n) * ya / (p * A) := by
      rw [div_mul_eq_mul_div, div_eq_div_iff h1a (by positivity), hDn, hya, hAe, hpe]
      linear_combination (-n0 * a ^ 3 * sin Ea * dt * (1 - e * cos Ea)) * (-hbb)
    rw [e2, div_eq_iff (by positivity)]
    have e3 : (n * (xb - xa) + xa * (n * (A * B - rho) / (p * A))) * (p * A) =
        n * (xb - xa) * (p * A) + xa * (n * (A * B - rho)) := by field_simp
    rw [e3, hDe, hrho]
    linear_combination (-n * xb) * sA + (n * xb * A) * fA - n * xa * A * fB
  have e2 : n0 * a * b * cos Ea / (1 - e * cos Ea) * dt = n * (yb - ya) + ya * (n * (A * B - rho) / (p * A)) := by
    have e2 : n0 * a * b * cos Ea / (1 - e * cos Ea) * dt = D * n * (xa + e * A) / (p * A) := by
      rw [div_mul_eq_mul_div, div_eq_div_iff h1a (by positivity), hDn, hxa, hAe, hpe]
      ring
    rw [e2, div_eq_iff (by positivity)]
    have e3 : (n * (yb - ya) + ya * (n * (A * B - rho) / (p * A))) * (p * A) =
        n * (yb - ya) * (p * A) + ya * (n * (A * B - rho)) := by field_simp
    rw [e3, hDe, hrho]
    linear_combination (-n * yb) * sA + (n * yb * A) * fA - n * ya * A * fB
  rw [orbitVel, orbitPos, orbitPos, ← hae, ← hee, ← hbe, ← hxa, ← hxb, ← hya, ← hyb]
  ext
  · simp only [Vec3.scaled, Vec3.plus, Vec3.minus]
    linear_combination el.dirP.x * e1 + el.semilatusRectumVector.x * e2
  · simp only [Vec3.scaled, Vec3.plus, Vec3.minus]
    linear_combination el.dirP.y * e1 + el.semilatusRectumVector.y * e2
  · simp only [Vec3.scaled, Vec3.plus, Vec3.minus]
    linear_combination el.dirP.z * e1 + el.semilatusRectumVector.z * e2

/-- every eccentric anomaly has a true anomaly -/
theorem exists_true {e : ℝ} (he0 : 0 ≤ e) (he1 : e < 1) (E : ℝ) : ∃ nu, IsEccentricAnomaly e nu E := by
  have hN := one_sub_e_cos_pos he0 he1 E
  obtain ⟨b, hb⟩ : ∃ b, b = √(1 - e ^ 2) := ⟨_, rfl⟩
  have hb2 : b ^ 2 = 1 - e ^ 2 := by rw [hb, sq_sqrt (by nlinarith)]
  have hnn : √((cos E - e) * (cos E - e) + b * sin E * (b * sin E)) = 1 - e * cos E := by
    rw [show (cos E - e) * (cos E - e) + b * sin E * (b * sin E) = (1 - e * cos E) ^ 2 by
      linear_combination (sin E) ^ 2 * hb2 + (1 - e ^ 2) * sin_sq_add_cos_sq E]
    exact sqrt_sq hN.le
  obtain ⟨nu, hnu⟩ : ∃ nu, nu = pyAtan2 (b * sin E) (cos E - e) := ⟨_, rfl⟩
  have h1 := mul_cos_atan2 (b * sin E) (cos E - e)
  have h2 := mul_sin_atan2 (b * sin E) (cos E - e)
  rw [hnn, ← hnu] at h1 h2
  refine ⟨nu, ?_, ?_⟩
  · apply mul_left_cancel₀ hN.ne'
    linear_combination (e * cos E - 1) * h1
  · apply mul_left_cancel₀ hN.ne'
    rw [← hb]
    linear_combination e * sin E * h1 - b * h2 - sin E * hb2

/-- coordinates in the plane of the orbit, from the true and from the eccentric anomaly -/
theorem anomaly_coords {e nu E : ℝ} (a : ℝ) (he0 : 0 ≤ e) (he1 : e < 1) (h : IsEccentricAnomaly e nu E) :
    a * (1 - e * cos E) * (1 + e * cos nu) = a * (1 - e ^ 2) ∧
    a * (1 - e * cos E) * cos nu = a * (cos E - e) ∧ a * (1 - e * cos E) * sin nu = a * √(1 - e * e) * sin E := by
  obtain ⟨hc, hs⟩ := h
  have hb2 : √(1 - e ^ 2) ^ 2 = 1 - e ^ 2 := sq_sqrt (by nlinarith)
  rw [← sq]
  have hv : 0 < 1 + e * cos nu := by nlinarith [neg_one_le_cos nu]
  refine ⟨by linear_combination -a * e * hc, ?_, ?_⟩
  · apply mul_left_cancel₀ hv.ne'
    linear_combination (-a * (1 + e * cos nu)) * hc
  · apply mul_left_cancel₀ hv.ne'
    linear_combination (-a * e * sin nu) * hc - a * √(1 - e ^ 2) * hs - a * sin nu * hb2

theorem orbitPoint_eq {el : ClassicalElements} (he : 0 ≤ el.eccentricity) (he' : el.eccentricity < 1) {nu E : ℝ}
    (h : IsEccentricAnomaly el.eccentricity nu E) : orbitPoint el nu = orbitPos el E := by
  obtain ⟨h1, h2, h3⟩ := anomaly_coords el.semimajor_axis he he' h
  have hv : 0 < 1 + el.eccentricity * cos nu := by nlinarith [neg_one_le_cos nu]
  have e1 : el.semimajor_axis * (1 - el.eccentricity ^ 2) / (1 + el.eccentricity * cos nu) =
      el.semimajor_axis * (1 - el.eccentricity * cos E) := by
    rw [div_eq_iff hv.ne', h1]
  rw [orbitPoint, e1, orbitPos, ← h2, ← h3]
  ext
  · simp only [latitudeDir, Vec3.scaled, Vec3.plus, ClassicalElements.dirP, ClassicalElements.semilatusRectumVector,
      cos_add, sin_add, pySin, pyCos]; ring
  · simp only [latitudeDir, Vec3.scaled, Vec3.plus, ClassicalElements.dirP, ClassicalElements.semilatusRectumVector,
      cos_add, sin_add, pySin, pyCos]; ring
  · simp only [latitudeDir, Vec3.scaled, Vec3.plus, ClassicalElements.dirP, ClassicalElements.semilatusRectumVector,
      cos_add, sin_add, pySin, pyCos]; ring

theorem area_eq {el : ClassicalElements} (ha : 0 < el.semimajor_axis) (he : 0 ≤ el.eccentricity)
    (he' : el.eccentricity < 1) {nu d Ea Eb : ℝ} (h1 : IsEccentricAnomaly el.eccentricity nu Ea)
    (h2 : IsEccentricAnomaly el.eccentricity (nu + d) Eb) :
    (orbitPos el Ea).magnitude * (orbitPos el Eb).magnitude * sin d = area el Ea Eb ∧
    (orbitPos el Ea).magnitude * (orbitPos el Eb).magnitude * cos d = (orbitPos el Ea).dot (orbitPos el Eb) := by
  obtain ⟨-, a2, a3⟩ := anomaly_coords el.semimajor_axis he he' h1
  obtain ⟨-, b2, b3⟩ := anomaly_coords el.semimajor_axis he he' h2
  rw [orbitPos_mag ha he he', orbitPos_mag ha he he', orbitPos, orbitPos,
    comb_dot el.dirP_unit el.dirQ_unit el.dirP_dirQ, area, ← a2, ← a3, ← b2, ← b3]
  have hs : sin d = sin (nu + d) * cos nu - cos (nu + d) * sin nu := by rw [← sin_sub]; ring_nf
  have hc : cos d = cos (nu + d) * cos nu + sin (nu + d) * sin nu := by rw [← cos_sub]; ring_nf
  constructor
  · rw [hs]; ring
  · rw [hc]; ring

/-- the ratio of the areas of the sector and the triangle is a root -/
theorem true_root {el : ClassicalElements} (ha : 0 < el.semimajor_axis) (he : 0 ≤ el.eccentricity)
    (he' : el.eccentricity < 1) {Ea Eb dt n : ℝ} (hdt : 0 < dt) (h1 : Ea ≤ Eb) (h2 : Eb < Ea + 2 * π)
    (hD : 0 < area el Ea Eb) (hkep : (Eb - el.eccentricity * sin Eb) - (Ea - el.eccentricity * sin Ea) =
      √(Earth.MU / el.semimajor_axis ^ 3) * dt) (hn : 0 < n)
    (hp : el.semimajor_axis * (1 - el.eccentricity ^ 2) = (area el Ea Eb * n) ^ 2 / (Earth.MU * dt ^ 2)) :
    fOfNu n (gaussM (orbitPos el Ea) (orbitPos el Eb) dt) (gaussL (orbitPos el Ea) (orbitPos el Eb)) = .ok 0 := by
  have hmu := mu_pos
  obtain ⟨nu, hnu⟩ := exists_true he he' Ea
  obtain ⟨nub, hnub⟩ := exists_true he he' Eb
  obtain ⟨d, hd⟩ : ∃ d, nub = nu + d := ⟨nub - nu, by ring⟩
  rw [hd] at hnub
  obtain ⟨hs, hc⟩ := area_eq ha he he' hnu hnub
  have hA := orbitPos_mag ha he he' Ea
  have hB := orbitPos_mag ha he he' Eb
  have hEa := one_sub_e_cos_pos he he' Ea
  have hEb := one_sub_e_cos_pos he he' Eb
  obtain ⟨a1, -, -⟩ := anomaly_coords el.semimajor_axis he he' hnu
  obtain ⟨b1, -, -⟩ := anomaly_coords el.semimajor_axis he he' hnub
  rw [← hA] at a1
  rw [← hB] at b1
  have hAp : 0 < (orbitPos el Ea).magnitude := by rw [hA]; positivity
  have hBp : 0 < (orbitPos el Eb).magnitude := by rw [hB]; positivity
  have hsin : 0 < sin d := by
    rw [← hs] at hD
    exact (pos_iff_pos_of_mul_pos hD).mp (by positivity)
  have hcos : -1 < cos d := by
    rcases (neg_one_le_cos d).lt_or_eq with h | h
    · exact h
    · nlinarith [sin_sq_add_cos_sq d, pow_pos hsin 2]
  obtain ⟨k, hk⟩ : ∃ k, k = gaussK (orbitPos el Ea) (orbitPos el Eb) := ⟨_, rfl⟩
  have hbase : 0 < 2 * ((orbitPos el Ea).magnitude * (orbitPos el Eb).magnitude * (1 + cos d)) := by
    have : 0 < 1 + cos d := by linarith
    positivity
  have hk2 : k ^ 2 = 2 * ((orbitPos el Ea).magnitude * (orbitPos el Eb).magnitude * (1 + cos d)) := by
    rw [hk, gaussK, ← hc, ← mul_one_add, sq_sqrt hbase.le]
  have hkp : 0 < k := by
    rw [hk, gaussK, ← hc, ← mul_one_add]; exact sqrt_pos.mpr hbase
  have htau : √Earth.MU * dt * (√Earth.MU * dt) = Earth.MU * dt ^ 2 := by
    linear_combination dt ^ 2 * (mul_self_sqrt hmu.le)
  have htp : 0 < √Earth.MU * dt := by have := sqrt_pos.mpr hmu; positivity
  obtain ⟨G, hG0, hG1, -, hw, hmn, hkep', hrate⟩ := gauss_equations (A := (orbitPos el Ea).magnitude)
    (B := (orbitPos el Eb).magnitude) (k := k) (tau := √Earth.MU * dt) (n := n) ha he he' hnu hnub h1 h2 a1 b1 hsin hkp hk2
    htp hn.ne' (by rw [hs, hp, div_pow, ← htau]; ring)
  rw [abs_of_pos hn] at hrate
  rw [hkep', show √(Earth.MU / el.semimajor_axis ^ 3) * dt = √(1 / el.semimajor_axis ^ 3) * (√Earth.MU * dt) by
    rw [div_eq_mul_one_div, sqrt_mul hmu.le]; ring, ← hrate] at hkep
  have hM : √Earth.MU * dt * (√Earth.MU * dt) / k ^ 3 = gaussM (orbitPos el Ea) (orbitPos el Eb) dt := by
    rw [htau, gaussM, hk]
  have hL : ((orbitPos el Ea).magnitude + (orbitPos el Eb).magnitude) / (2 * k) - 1 / 2 =
      gaussL (orbitPos el Ea) (orbitPos el Eb) := by rw [gaussL, hk]
  rw [hM] at hmn hw
  rw [hL] at hw
  have e : pyDiv (gaussM (orbitPos el Ea) (orbitPos el Eb) dt) (n * n) =
      .ok (gaussM (orbitPos el Ea) (orbitPos el Eb) dt / n ^ 2) := by
    rw [pyDiv_ok (mul_pos hn hn).ne', sq n]
  simp only [fOfNu, e, ok_bind, hw, wOfOmega_half hG0 hG1, pure_eq_ok, Except.ok.injEq]
  rw [hmn]
  have hsG := sin_pos_of_pos_of_lt_pi hG0 hG1
  field_simp at hkep ⊢
  linear_combination hkep

/-- The velocity at the first position, from the positions and a ratio: `r₂ - r₁` times the ratio, plus a vector along `r₁`
inversely proportional to it, divided by the time -/
noncomputable def chordVelocity (ra rb : Vec3) (dt n : ℝ) : Vec3 :=
  (((rb.minus ra).scaled n).plus (ra.scaled (2 * gaussK ra rb * gaussM ra rb dt / (n * ra.magnitude)))).scaled (1 / dt)

/-- how an error of the ratio changes it -/
theorem chordVelocity_near {ra rb : Vec3} {dt n r : ℝ} (hdt : 0 < dt) (hk : 0 < gaussK ra rb) (hm : gaussM ra rb dt ≤ 1 / 10)
    (hr : 1 ≤ r) (hn : |n - r| ≤ 3 / 2 * 1e-12) :
    ((chordVelocity ra rb dt n).minus (chordVelocity ra rb dt r)).magnitude ≤
      3 / 2 * 1e-12 * ((rb.minus ra).magnitude + (ra.magnitude + rb.magnitude) / 4) / dt := by
  have hmu := mu_pos
  have hn' := abs_le.mp hn
  norm_num at hn'
  have hnp : 0.9 ≤ n := by norm_num; linarith
  obtain ⟨K, hK⟩ : ∃ K, K = gaussK ra rb := ⟨_, rfl⟩
  obtain ⟨M, hM⟩ : ∃ M, M = gaussM ra rb dt := ⟨_, rfl⟩
  have hM0 : 0 ≤ M := by rw [hM, gaussM, ← hK]; rw [← hK] at hk; positivity
  have hL := L_nonneg hk
  have hKs : K ≤ ra.magnitude + rb.magnitude := by
    rw [gaussL, ← hK, sub_nonneg, div_le_div_iff₀ (by norm_num) (by rw [← hK] at hk; positivity)] at hL
    linarith
  rw [← hK] at hk
  rw [← hM] at hm
  have e : (chordVelocity ra rb dt n).minus (chordVelocity ra rb dt r) = ((rb.minus ra).scaled ((n - r) / dt)).plus
      (ra.scaled (2 * K * M * (1 / n - 1 / r) / ra.magnitude / dt)) := by
    have hn0 : n ≠ 0 := by norm_num at hnp; linarith
    have hr0 : r ≠ 0 := by linarith
    have e1 : 2 * K * M * (1 / n - 1 / r) / ra.magnitude / dt = (2 * K * M / (n * ra.magnitude)) * (1 / dt) -
        (2 * K * M / (r * ra.magnitude)) * (1 / dt) := by
      by_cases h0 : ra.magnitude = 0
      · simp [h0]
      · field_simp
    rw [e1]
    ext <;> simp only [chordVelocity, Vec3.minus, Vec3.plus, Vec3.scaled, ← hK, ← hM] <;> ring
  rw [e]
  refine (Vec3.magnitude_plus_le _ _).trans ?_
  rw [Vec3.magnitude_scaled, Vec3.magnitude_scaled]
  have h1 : |(n - r) / dt| ≤ 3 / 2 * 1e-12 / dt := by
    rw [abs_div, abs_of_pos hdt]; gcongr
  have h2 : |2 * K * M * (1 / n - 1 / r) / ra.magnitude / dt| * ra.magnitude ≤ 3 / 2 * 1e-12 * (K / 4) / dt := by
    rw [abs_div, abs_div, abs_mul, abs_of_pos hdt, abs_of_nonneg (Vec3.magnitude_nonneg ra),
      abs_of_nonneg (by positivity : 0 ≤ 2 * K * M)]
    have e2 : |1 / n - 1 / r| ≤ 3 / 2 * 1e-12 * (10 / 9) := by
      have hn0 : 0 < n := by norm_num at hnp; linarith
      have e3 : 1 / n - 1 / r = -((n - r) * (1 / n * (1 / r))) := by field_simp; ring
      rw [e3, abs_neg, abs_mul]
      have : |1 / n * (1 / r)| ≤ 10 / 9 := by
        rw [abs_of_pos (by positivity), one_div_mul_one_div, div_le_div_iff₀ (by positivity) (by norm_num)]
        norm_num at hnp
        nlinarith
      exact mul_le_mul hn this (abs_nonneg _) (by norm_num)
    have e4 : 2 * K * M * |1 / n - 1 / r| ≤ 3 / 2 * 1e-12 * (K / 4) := by
      calc 2 * K * M * |1 / n - 1 / r| ≤ 2 * K * (1 / 10) * (3 / 2 * 1e-12 * (10 / 9)) := by gcongr
        _ ≤ 3 / 2 * 1e-12 * (K / 4) := by norm_num; linarith
    have e5 : 2 * K * M * |1 / n - 1 / r| / ra.magnitude / dt * ra.magnitude ≤ 2 * K * M * |1 / n - 1 / r| / dt := by
      rcases (Vec3.magnitude_nonneg ra).eq_or_lt with h0 | h0
      · rw [← h0]; simp; positivity
      · apply le_of_eq; field_simp
    exact e5.trans (by gcongr)
  calc _ ≤ 3 / 2 * 1e-12 / dt * (rb.minus ra).magnitude + 3 / 2 * 1e-12 * (K / 4) / dt :=
        add_le_add (mul_le_mul_of_nonneg_right h1 (Vec3.magnitude_nonneg _)) h2
    _ ≤ 3 / 2 * 1e-12 / dt * (rb.minus ra).magnitude + 3 / 2 * 1e-12 * ((ra.magnitude + rb.magnitude) / 4) / dt := by gcongr
    _ = _ := by ring

/-- the returned mean anomaly is in the range of the solver of Kepler's equation -/
theorem mean_anomaly_range {epoch : Epoch} {pl : Plane} {rb : Vec3} {n tau : ℝ} {ce : ClassicalElements}
    (h : elementsFromRatio epoch pl rb n tau = .ok ce) (he0 : 0 ≤ ce.eccentricity) (he1 : ce.eccentricity < 1) :
    -(2 * π) ≤ ce.mean_anomaly ∧ ce.mean_anomaly ≤ 2 * π := by
  simp only [elementsFromRatio, bind_eq_ok, pure_eq_ok, Except.ok.injEq] at h
  obtain ⟨_, -, _, -, _, -, _, -, _, -, _, -, e, -, _, -, se, -, rfl⟩ := h
  simp only [pySin] at he0 he1 ⊢
  generalize hx : se * sin _ = x
  generalize hy : pyCos _ + e = y
  have h1 := pyAtan2_gt x y
  have h2 := pyAtan2_le x y
  have h3 := neg_one_le_sin (pyAtan2 x y)
  have h4 := sin_le_one (pyAtan2 x y)
  have := pi_gt_three
  constructor <;> nlinarith

/-- what the method returned: an ellipse with the two positions, and a velocity at the first that depends on nothing but the
positions, the time and the ratio -/
theorem returned_velocity {fuel : ℕ} {ra rb : Vec3} {t1 t2 : Epoch} {ce : ClassicalElements} {dt : ℝ}
    (h : coesFromVectors fuel ra rb t1 t2 = .ok ce) (hdt : dt = (t2.value - t1.value) * 86400) (ht : 0 < dt)
    (hq : ¬ (ra.z = 0 ∧ rb.z = 0)) {r : ℝ} (hr : solveNu (gaussM ra rb dt) (gaussL ra rb) fuel
      (gaussStart (gaussM ra rb dt) (gaussL ra rb) + 0.1) (gaussStart (gaussM ra rb dt) (gaussL ra rb)) = .ok r) (hr0 : 0 < r) :
    ce.epoch = t1 ∧ 0 < ce.semimajor_axis ∧ 0 ≤ ce.eccentricity ∧ ce.eccentricity < 1 ∧
      -(2 * π) ≤ ce.mean_anomaly ∧ ce.mean_anomaly ≤ 2 * π ∧
      ∃ E, E - ce.eccentricity * sin E = ce.mean_anomaly ∧ orbitPos ce E = ra ∧
        orbitVel ce (√(Earth.MU / ce.semimajor_axis ^ 3)) E = chordVelocity ra rb dt r := by
  simp only [coesFromVectors, bind_eq_ok] at h
  obtain ⟨pl, hp, n, hn, he⟩ := h
  have hmu := mu_pos
  have hsec : SECONDS_IN_DAY = 86400 := by norm_num [SECONDS_IN_DAY]
  obtain ⟨tau, htau⟩ : ∃ tau, tau = sqrtNN Earth.MU * (t2.value - t1.value) * SECONDS_IN_DAY := ⟨_, rfl⟩
  rw [← htau] at hn he
  have htau' : tau = √Earth.MU * dt := by rw [htau, hdt, hsec]; simp only [sqrtNN]; ring
  have htau2 : tau ^ 2 = Earth.MU * dt ^ 2 := by
    rw [htau', mul_pow, sq_sqrt hmu.le]
  obtain ⟨e0, hA, hr0', hB, hu, -, -, hea, -, -, -, -, -, -⟩ := plane_ok hp
  have hAm : pl.ra_mag = ra.magnitude := by
    simp only [Gauss.plane, bind_eq_ok, pure_eq_ok, Except.ok.injEq] at hp
    obtain ⟨_, -, _, -, rfl⟩ := hp; rfl
  have hBm : pl.rb_mag = rb.magnitude := by
    simp only [Gauss.plane, bind_eq_ok, pure_eq_ok, Except.ok.injEq] at hp
    obtain ⟨_, -, _, -, rfl⟩ := hp; rfl
  have hnr : n = r := by
    rw [hAm, hBm, htau'] at hn
    have := ratio_gives hn
    rw [hr, Except.ok.injEq] at this
    exact this.symm
  subst hnr
  obtain ⟨he0, he1, hep, nua, d, pa, pb, ⟨Ea, hEa, hM⟩, hcd, hsd, hP, hPa, hPb, hPp⟩ := through hp he hq
  obtain ⟨Eb, hEb, -, -⟩ := exists_eccentric he0 he1 (nua + d) Ea
  have hepos : 0 < 1 - ce.eccentricity ^ 2 := by nlinarith
  have hsma : 0 < ce.semimajor_axis := by
    have := hP.symm ▸ hPp
    exact (pos_iff_pos_of_mul_pos this).mpr hepos
  rw [orbitPoint_eq he0 he1 hEa] at pa
  rw [orbitPoint_eq he0 he1 hEb] at pb
  obtain ⟨hs, -⟩ := area_eq hsma he0 he1 hEa hEb
  rw [pa, pb, ← hAm, ← hBm, mul_assoc, hsd] at hs
  obtain ⟨m1, m2⟩ := mean_anomaly_range he he0 he1
  have hv := orbitVel_chord hsma he0 he1 rfl (Ea := Ea) (Eb := Eb) ht hr0 (by rw [← hs]; positivity)
    (by rw [hP, ← hs, div_pow, htau2])
  refine ⟨hep, hsma, he0, he1, m1, m2, Ea, hM.symm, pa, ?_⟩
  rw [pa, pb] at hv
  rw [chordVelocity, ← hv]
  ext <;> simp only [Vec3.scaled] <;> field_simp

end Gauss

theorem Gauss.momentum (el : ClassicalElements) (he : 0 ≤ el.eccentricity) (he' : el.eccentricity < 1) (n0 E : ℝ) :
    (orbitPos el E).cross (orbitVel el n0 E) =
      el.dirW.scaled (n0 * el.semimajor_axis ^ 2 * √(1 - el.eccentricity * el.eccentricity)) := by
  have hE := (one_sub_e_cos_pos he he' E).ne'
  rw [orbitPos, orbitVel, comb_cross, el.dirP_cross_dirQ]
  congr 1
  generalize √(1 - el.eccentricity * el.eccentricity) = b
  generalize el.semimajor_axis = a
  have hsc := sin_sq_add_cos_sq E
  generalize el.eccentricity = e at *
  obtain ⟨q, hq⟩ : ∃ q, q = 1 - e * cos E := ⟨_, rfl⟩
  rw [← hq] at hE ⊢
  field_simp
  rw [hq]
  linear_combination (a ^ 2 * n0 * b) * hsc

/-- `m ≤ 1/10` excludes a full turn -/
theorem Gauss.less_than_turn {a e ca cb n0 dt K mu : ℝ} (ha : 0 < a) (he : 0 ≤ e) (he' : e < 1) (hca : -1 ≤ ca) (hcb : -1 ≤ cb)
    (hK : 0 < K) (hL : 0 ≤ (a * (1 - e * ca) + a * (1 - e * cb)) / (2 * K) - 1 / 2) (hm : mu * dt ^ 2 / K ^ 3 ≤ 1 / 10)
    (hnn : n0 ^ 2 = mu / a ^ 3) : n0 * dt < 6 := by
  rw [sub_nonneg, div_le_div_iff₀ (by norm_num) (by positivity)] at hL
  have hK4 : K ≤ 4 * a := by
    have c1 : -(e * ca) ≤ 1 := by nlinarith
    have c2 : -(e * cb) ≤ 1 := by nlinarith
    nlinarith [mul_le_mul_of_nonneg_left c1 ha.le, mul_le_mul_of_nonneg_left c2 ha.le]
  rw [div_le_iff₀ (by positivity)] at hm
  have h3 : K ^ 3 ≤ (4 * a) ^ 3 := pow_le_pow_left₀ hK.le hK4 3
  have h4 : (n0 * dt) ^ 2 ≤ 6.4 := by
    rw [mul_pow, hnn, div_mul_eq_mul_div, div_le_iff₀ (by positivity)]
    norm_num
    linarith [show (4 * a) ^ 3 = 64 * a ^ 3 by ring]
  by_contra hc
  norm_num at h4
  nlinarith

/-- The true motion: its velocity at the first of two times, from the positions, the time and the ratio to which the method
converges -/
theorem Gauss.true_velocity {s : ℝ → State} {I : Set ℝ} (hI : I.OrdConnected)
    (h : TwoBody Earth.MU I (fun t => (s t).position.toE) (fun t => (s t).velocity.toE)) {t0 dt : ℝ} (ht0 : t0 ∈ I)
    (ht1 : t0 + dt ∈ I) (hdt : 0 < dt)
    (hb : (s t0).velocity.magnitude ^ 2 / 2 < Earth.MU / (s t0).position.magnitude)
    (hp : ((s t0).position.cross (s t0).velocity).x ≠ 0 ∨ ((s t0).position.cross (s t0).velocity).y ≠ 0)
    (hdir : 0 < ((s t0).position.cross (s (t0 + dt)).position).dot ((s t0).position.cross (s t0).velocity))
    (hm : gaussM (s t0).position (s (t0 + dt)).position dt ≤ 1 / 10) :
    ¬ ((s t0).position.z = 0 ∧ (s (t0 + dt)).position.z = 0) ∧ 0 < gaussK (s t0).position (s (t0 + dt)).position ∧
    ∃ r, 0 < r ∧ (s t0).velocity = Gauss.chordVelocity (s t0).position (s (t0 + dt)).position dt r ∧
      Gauss.fOfNu r (gaussM (s t0).position (s (t0 + dt)).position dt) (gaussL (s t0).position (s (t0 + dt)).position) = .ok 0 := by
  have hmu := mu_pos
  obtain ⟨el, -, -, -, h0, -⟩ := perigee_pair hI h ht0 ht0 hp hb
  obtain ⟨ha, he, he', Ea, ka, hEa, hpa, hva⟩ := motion_of_elements hI h ht0 ht0 hp hb h0
  obtain ⟨-, -, -, Eb', kb, hEb', hpb', -⟩ := motion_of_elements hI h ht1 ht0 hp hb h0
  obtain ⟨n0, hn0⟩ : ∃ n0, n0 = √(Earth.MU / el.semimajor_axis ^ 3) := ⟨_, rfl⟩
  rw [← hn0] at hEa hEb' hva
  have hn3 : 0 < Earth.MU / el.semimajor_axis ^ 3 := by positivity
  have hn0p : 0 < n0 := by rw [hn0]; exact sqrt_pos.mpr hn3
  have hnn : n0 ^ 2 = Earth.MU / el.semimajor_axis ^ 3 := by rw [hn0, sq_sqrt hn3.le]
  -- the second point in the same turn
  obtain ⟨Eb, hEbe⟩ : ∃ Eb, Eb = Eb' + 2 * π * ((ka - kb : ℤ) : ℝ) := ⟨_, rfl⟩
  have hpb : (s (t0 + dt)).position = orbitPos el Eb := by
    rw [hpb', hEbe, orbitPos, orbitPos, cos_turn, sin_turn]
  have hkep : (Eb - el.eccentricity * sin Eb) - (Ea - el.eccentricity * sin Ea) = n0 * dt := by
    rw [hEa, hEbe, sin_turn]
    push_cast
    linear_combination hEb'
  have hEc := one_sub_e_cos_pos he he'
  -- the area
  have hcr := Gauss.orbitPos_cross el Ea Eb
  have hmom : (s t0).position.cross (s t0).velocity =
      el.dirW.scaled (n0 * el.semimajor_axis ^ 2 * √(1 - el.eccentricity * el.eccentricity)) := by
    rw [hpa, hva]; exact Gauss.momentum el he he' n0 Ea
  have h2e : (0 : ℝ) < 1 - el.eccentricity * el.eccentricity := by nlinarith
  have hbp := sqrt_pos.mpr h2e
  have hD : 0 < Gauss.area el Ea Eb := by
    rw [hmom, hpa, hpb, hcr, Vec3.dot_scaled_left, Vec3.dot_scaled_right, el.dirW_unit, mul_one] at hdir
    exact (pos_iff_pos_of_mul_pos hdir).mpr (by positivity)
  have hq : ¬ ((s t0).position.z = 0 ∧ (s (t0 + dt)).position.z = 0) := by
    rintro ⟨z1, z2⟩
    rw [← hpa, ← hpb] at hcr
    have ex := congrArg Vec3.x hcr
    have ey := congrArg Vec3.y hcr
    simp only [Vec3.cross, Vec3.scaled, z1, z2, mul_zero, zero_mul, sub_zero] at ex ey
    have wx : el.dirW.x = 0 := (mul_eq_zero.mp ex.symm).resolve_right hD.ne'
    have wy : el.dirW.y = 0 := (mul_eq_zero.mp ey.symm).resolve_right hD.ne'
    rw [hmom] at hp
    simp [Vec3.scaled, wx, wy] at hp
  have hA := Gauss.orbitPos_mag ha he he' Ea
  have hB := Gauss.orbitPos_mag ha he he' Eb
  have hAp : 0 < (orbitPos el Ea).magnitude := by have := hEc Ea; rw [hA]; positivity
  have hBp : 0 < (orbitPos el Eb).magnitude := by have := hEc Eb; rw [hB]; positivity
  have hcm : ((orbitPos el Ea).cross (orbitPos el Eb)).dot ((orbitPos el Ea).cross (orbitPos el Eb)) = Gauss.area el Ea Eb ^ 2 := by
    rw [hcr, Vec3.dot_scaled_left, Vec3.dot_scaled_right, el.dirW_unit]; ring
  have hlag : ((orbitPos el Ea).cross (orbitPos el Eb)).dot ((orbitPos el Ea).cross (orbitPos el Eb)) =
      ((orbitPos el Ea).magnitude * (orbitPos el Eb).magnitude) ^ 2 - ((orbitPos el Ea).dot (orbitPos el Eb)) ^ 2 := by
    rw [mul_pow, Vec3.magnitude_sq_dot, Vec3.magnitude_sq_dot]
    simp only [Vec3.dot, Vec3.cross]; ring
  have hK : 0 < gaussK (orbitPos el Ea) (orbitPos el Eb) := by
    rw [hcm] at hlag
    have : |(orbitPos el Ea).dot (orbitPos el Eb)| < (orbitPos el Ea).magnitude * (orbitPos el Eb).magnitude := by
      apply abs_lt_of_sq_lt_sq _ (by positivity)
      nlinarith [pow_pos hD 2]
    apply sqrt_pos.mpr
    linarith [neg_abs_le ((orbitPos el Ea).dot (orbitPos el Eb))]
  refine ⟨hq, by rw [hpa, hpb]; exact hK, ?_⟩
  -- less than one turn
  have hturn : n0 * dt < 2 * π := by
    have hL := Gauss.L_nonneg hK
    rw [hpa, hpb, gaussM] at hm
    rw [gaussL, hA, hB] at hL
    linarith [pi_gt_three, Gauss.less_than_turn ha he he' (neg_one_le_cos Ea) (neg_one_le_cos Eb) hK hL hm hnn]
  have hmono := kepler_strictMono he he'
  have h1 : Ea ≤ Eb := by
    apply hmono.le_iff_le.mp
    unfold kepler
    have := mul_pos hn0p hdt
    linarith
  have h2 : Eb < Ea + 2 * π := by
    apply hmono.lt_iff_lt.mp
    unfold kepler
    rw [sin_add_two_pi]
    linarith
  obtain ⟨r, hr⟩ : ∃ r, r = dt * n0 * el.semimajor_axis ^ 2 * √(1 - el.eccentricity * el.eccentricity) / Gauss.area el Ea Eb :=
    ⟨_, rfl⟩
  have hr0 : 0 < r := by rw [hr]; positivity
  have hpr : el.semimajor_axis * (1 - el.eccentricity ^ 2) = (Gauss.area el Ea Eb * r) ^ 2 / (Earth.MU * dt ^ 2) := by
    have e1 : Gauss.area el Ea Eb * r = dt * n0 * el.semimajor_axis ^ 2 * √(1 - el.eccentricity * el.eccentricity) := by
      rw [hr]; field_simp
    have e2 : Earth.MU = n0 ^ 2 * el.semimajor_axis ^ 3 := by rw [hnn]; field_simp
    rw [e1, eq_div_iff (by positivity), mul_pow, sq_sqrt h2e.le, e2]
    ring
  refine ⟨r, hr0, ?_, ?_⟩
  · have hv := Gauss.orbitVel_chord ha he he' hn0 (Ea := Ea) (Eb := Eb) hdt hr0 hD hpr
    rw [hva, hpa, hpb, Gauss.chordVelocity, ← hv]
    ext <;> simp only [Vec3.scaled] <;> field_simp
  · rw [hpa, hpb]
    exact Gauss.true_root ha he he' hdt h1 h2 hD (by rw [← hn0]; exact hkep) hr0 hpr

/-- **C134.** An object in two-body motion, on a bound orbit outside the equatorial plane, is observed twice, `dt` seconds
apart and less than half a turn further.  If the auxiliary numbers of the two positions satisfy `m ≤ 1/10` and `25 l < 16 m`,
the elements that the method returns are those of the object's orbit: `to_ijk` turns them into a state at the first position
(within the tolerance of the solver of Kepler's equation) whose velocity differs from the true velocity of the object by at
most `1.5e-12 (|r₂ - r₁| + (|r₁| + |r₂|) / 4) / dt`, plus that tolerance. -/
theorem C134_recovers {s : ℝ → State} {I : Set ℝ} (hI : I.OrdConnected)
    (h : TwoBody Earth.MU I (fun t => (s t).position.toE) (fun t => (s t).velocity.toE)) {t0 dt : ℝ} (ht0 : t0 ∈ I)
    (ht1 : t0 + dt ∈ I) (hdt : 0 < dt)
    (hb : (s t0).velocity.magnitude ^ 2 / 2 < Earth.MU / (s t0).position.magnitude)
    (hp : ((s t0).position.cross (s t0).velocity).x ≠ 0 ∨ ((s t0).position.cross (s t0).velocity).y ≠ 0)
    (hdir : 0 < ((s t0).position.cross (s (t0 + dt)).position).dot ((s t0).position.cross (s t0).velocity))
    (hm : gaussM (s t0).position (s (t0 + dt)).position dt ≤ 1 / 10)
    (hl : 25 * gaussL (s t0).position (s (t0 + dt)).position < 16 * gaussM (s t0).position (s (t0 + dt)).position dt)
    {ob1 ob2 : Observation} (h1 : ob1.ijkPosition = .ok (s t0).position) (h2 : ob2.ijkPosition = .ok (s (t0 + dt)).position)
    (he : dt = (ob2.epoch.value - ob1.epoch.value) * 86400) {fuel : ℕ} (hf : 60 ≤ fuel) {ce : ClassicalElements}
    (hce : Gauss.coesFromPositions fuel ob1 ob2 = .ok ce) :
    ce.epoch = ob1.epoch ∧ ∃ s' N, (∀ fuel', N ≤ fuel' → ce.toIjk fuel' = .ok s') ∧
      (s'.position.minus (s t0).position).magnitude ≤ ce.semimajor_axis * (5e-25 / (1 - ce.eccentricity)) ∧
      (s'.velocity.minus (s t0).velocity).magnitude ≤
        3 / 2 * 1e-12 * (((s (t0 + dt)).position.minus (s t0).position).magnitude +
          ((s t0).position.magnitude + (s (t0 + dt)).position.magnitude) / 4) / dt +
        √(Earth.MU / ce.semimajor_axis) * (5e-25 / (1 - ce.eccentricity) ^ 3) := by
  simp only [Gauss.coesFromPositions, h1, h2, ok_bind] at hce
  obtain ⟨hq, hK, r, hr0, hv, hroot⟩ := Gauss.true_velocity hI h ht0 ht1 hdt hb hp hdir hm
  have hL := Gauss.L_nonneg hK
  obtain ⟨r', n, hr1, hr2, hroot', hsolve, hnr, -⟩ := Gauss.iteration hm hL hl fuel hf
  have hrr : r' = r := Gauss.root_unique (by linarith) hr0 (Gauss.m_pos hL hl) hroot' hroot
  subst hrr
  have hn0 : 0 < n := by have := abs_le.mp hnr; norm_num at this; linarith
  obtain ⟨hep, ha, he0, he1, m1, m2, E, hE, hpos, hvel⟩ := Gauss.returned_velocity hce he hdt hq hsolve hn0
  obtain ⟨s', N, hN⟩ := C22_returns ce ha he0 he1 m1 m2
  obtain ⟨c1, c2⟩ := toIjk_near ha he0 he1 rfl (hN N le_rfl) (E := E) (k := 0) (by rw [hE]; simp)
  rw [hpos] at c1
  rw [hvel] at c2
  refine ⟨hep, s', N, hN, c1, ?_⟩
  have := Gauss.chordVelocity_near hdt hK hm hr1 hnr
  rw [← hv] at this
  have e : s'.velocity.minus (s t0).velocity =
      (s'.velocity.minus (Gauss.chordVelocity (s t0).position (s (t0 + dt)).position dt n)).plus
        ((Gauss.chordVelocity (s t0).position (s (t0 + dt)).position dt n).minus (s t0).velocity) := by
    ext <;> simp only [Vec3.minus, Vec3.plus] <;> ring
  rw [e]
  refine (Vec3.magnitude_plus_le _ _).trans ?_
  linarith

/-- a satellite in a circular orbit of 7000 km radius, inclined by 1 radian and seen twice, a twelfth of a turn apart, meets
the hypotheses of C134 -/
example : ∃ (s : ℝ → State) (dt : ℝ) (ob1 ob2 : Observation) (ce : ClassicalElements),
    TwoBody Earth.MU Set.univ (fun t => (s t).position.toE) (fun t => (s t).velocity.toE) ∧ 0 < dt ∧
    (s 0).velocity.magnitude ^ 2 / 2 < Earth.MU / (s 0).position.magnitude ∧
    ((s 0).position.cross (s 0).velocity).y ≠ 0 ∧
    0 < ((s 0).position.cross (s (0 + dt)).position).dot ((s 0).position.cross (s 0).velocity) ∧
    gaussM (s 0).position (s (0 + dt)).position dt ≤ 1 / 10 ∧
    25 * gaussL (s 0).position (s (0 + dt)).position < 16 * gaussM (s 0).position (s (0 + dt)).position dt ∧
    ob1.ijkPosition = .ok (s 0).position ∧ ob2.ijkPosition = .ok (s (0 + dt)).position ∧
    dt = (ob2.epoch.value - ob1.epoch.value) * 86400 ∧ Gauss.coesFromPositions 60 ob1 ob2 = .ok ce := by
  have hmu := mu_pos
  have hpi := pi_pos
  obtain ⟨el, hel⟩ : ∃ el : ClassicalElements, el = ⟨⟨0⟩, 7000, 0, 1, 0, 0, 0⟩ := ⟨_, rfl⟩
  have ha : el.semimajor_axis = 7000 := by rw [hel]
  have he : el.eccentricity = 0 := by rw [hel]
  have ha0 : 0 < el.semimajor_axis := by rw [ha]; norm_num
  have he0 : 0 ≤ el.eccentricity := by rw [he]
  have he1 : el.eccentricity < 1 := by rw [he]; norm_num
  obtain ⟨n0, hn0⟩ : ∃ n0, n0 = √(Earth.MU / el.semimajor_axis ^ 3) := ⟨_, rfl⟩
  have hn3 : 0 < Earth.MU / el.semimajor_axis ^ 3 := by positivity
  have hn0p : 0 < n0 := by rw [hn0]; exact sqrt_pos.mpr hn3
  have hnn : n0 ^ 2 = Earth.MU / 7000 ^ 3 := by rw [hn0, sq_sqrt hn3.le, ha]
  obtain ⟨E, hE, hT⟩ := kepler_motion el ha0 he0 he1 hn0
  have hEt : ∀ t, E t = n0 * t := by
    intro t
    have := hE t
    rw [he, show el.mean_anomaly = 0 by rw [hel]] at this
    linarith
  obtain ⟨dt, hdt⟩ : ∃ dt, dt = π / 6 / n0 := ⟨_, rfl⟩
  have hdtp : 0 < dt := by rw [hdt]; positivity
  have hE0 : E 0 = 0 := by rw [hEt, mul_zero]
  have hE1 : E (0 + dt) = π / 6 := by rw [hEt, hdt]; field_simp; ring
  have hmag : ∀ x, (orbitPos el x).magnitude = 7000 := by
    intro x; rw [Gauss.orbitPos_mag ha0 he0 he1, ha, he]; ring
  have hdot : (orbitPos el 0).dot (orbitPos el (π / 6)) = 7000 ^ 2 * (√3 / 2) := by
    rw [orbitPos, orbitPos, comb_dot el.dirP_unit el.dirQ_unit el.dirP_dirQ, ha, he, cos_zero, sin_zero, cos_pi_div_six]
    ring
  have hs3 : √3 ^ 2 = 3 := sq_sqrt (by norm_num)
  have hs3p := sqrt_nonneg (3 : ℝ)
  have l3 : 1.732 ≤ √3 := by rw [le_sqrt (by norm_num) (by norm_num)]; norm_num
  have u3 : √3 ≤ 1.7321 := by rw [sqrt_le_left (by norm_num)]; norm_num
  obtain ⟨k, hk⟩ : ∃ k, k = √(2 + √3) := ⟨_, rfl⟩
  have hk2 : k ^ 2 = 2 + √3 := by rw [hk, sq_sqrt (by positivity)]
  have lk : 1.9318 ≤ k := by rw [hk, le_sqrt (by norm_num) (by positivity)]; norm_num at l3 ⊢; linarith
  have uk : k ≤ 1.9319 := by rw [hk, sqrt_le_left (by norm_num)]; norm_num at u3 ⊢; linarith
  have hK : gaussK (orbitPos el 0) (orbitPos el (π / 6)) = 7000 * k := by
    rw [gaussK, hmag, hmag, hdot, show 2 * ((7000 : ℝ) * 7000 + 7000 ^ 2 * (√3 / 2)) = (7000 * k) ^ 2 by
      rw [mul_pow, hk2]; ring]
    exact sqrt_sq (by norm_num at lk; linarith)
  have hM : gaussM (orbitPos el 0) (orbitPos el (π / 6)) dt = (π / 6) ^ 2 / k ^ 3 := by
    have hkp : k ≠ 0 := by norm_num at lk; linarith
    have e : Earth.MU * dt ^ 2 = 7000 ^ 3 * (π / 6) ^ 2 := by
      rw [hdt, div_pow, hnn]; field_simp
    rw [gaussM, hK, e]; field_simp
  have hL : gaussL (orbitPos el 0) (orbitPos el (π / 6)) = 1 / k - 1 / 2 := by
    have hkp : k ≠ 0 := by norm_num at lk; linarith
    rw [gaussL, hK, hmag, hmag]; field_simp; ring
  have hkp : 0 < k := by norm_num at lk; linarith
  have hM1 : gaussM (orbitPos el 0) (orbitPos el (π / 6)) dt ≤ 1 / 10 := by
    rw [hM, div_le_iff₀ (by positivity)]
    have : (7.2 : ℝ) ≤ k ^ 3 := le_trans (by norm_num) (pow_le_pow_left₀ (by norm_num) lk 3)
    norm_num at this
    nlinarith [pi_lt_d2, pi_pos]
  have hLM : 25 * gaussL (orbitPos el 0) (orbitPos el (π / 6)) < 16 * gaussM (orbitPos el 0) (orbitPos el (π / 6)) dt := by
    rw [hM, hL]
    have h1 : 1 / k ≤ 1 / 1.9318 := one_div_le_one_div_of_le (by norm_num) lk
    have h3 : k ^ 3 ≤ 1.9319 ^ 3 := pow_le_pow_left₀ hkp.le uk 3
    have h2 : (3.14 / 6) ^ 2 / 1.9319 ^ 3 ≤ (π / 6) ^ 2 / k ^ 3 := by
      have := pi_gt_d2
      gcongr
    norm_num at h1 h2 ⊢
    linarith
  have hmom := Gauss.momentum el he0 he1 n0 0
  have hcr := Gauss.orbitPos_cross el 0 (π / 6)
  have hA : Gauss.area el 0 (π / 6) = 7000 ^ 2 / 2 := by
    rw [Gauss.area, ha, he, sin_zero, cos_zero, sin_pi_div_six]; norm_num
  have hwy : el.dirW.y ≠ 0 := by
    have : 0 < sin (1 : ℝ) := sin_pos_of_pos_of_lt_pi one_pos (by linarith [pi_gt_three])
    rw [hel]; simp [ClassicalElements.dirW]; exact this.ne'
  have hcne : (orbitPos el 0).cross (orbitPos el (π / 6)) ≠ ⟨0, 0, 0⟩ := by
    rw [hcr, hA]
    intro h0
    have := congrArg Vec3.y h0
    simp only [Vec3.scaled] at this
    norm_num at this
    exact hwy this
  obtain ⟨ob1, o2, o1⟩ := exists_observation ⟨0⟩ (orbitPos el 0)
  obtain ⟨ob2, o4, o3⟩ := exists_observation ⟨dt / 86400⟩ (orbitPos el (π / 6))
  obtain ⟨r, n, -, -, -, -, -, ⟨ce, hce⟩ | ⟨-, hh, -⟩⟩ := C84_solves (t1 := ob1.epoch) (t2 := ob2.epoch) (dt := dt)
    (by rw [o2, o4]; ring) hdtp hcne hM1 hLM (fuel := 60) le_rfl
  · refine ⟨fun t => State.new ⟨0⟩ (orbitPos el (E t)) (orbitVel el n0 (E t)), dt, ob1, ob2, ce, hT, hdtp, ?_, ?_, ?_, ?_, ?_,
      ?_, ?_, by rw [o2, o4]; ring, ?_⟩
    · show (orbitVel el n0 (E 0)).magnitude ^ 2 / 2 < Earth.MU / (orbitPos el (E 0)).magnitude
      rw [hE0]
      have : (orbitVel el n0 0).magnitude ^ 2 = (n0 * 7000) ^ 2 := by
        rw [Vec3.magnitude_sq_dot, orbitVel, comb_dot el.dirP_unit el.dirQ_unit el.dirP_dirQ, ha, he, sin_zero, cos_zero]
        norm_num
        ring
      rw [this, hmag, mul_pow, hnn]
      norm_num
      linarith
    · show ((orbitPos el (E 0)).cross (orbitVel el n0 (E 0))).y ≠ 0
      rw [hE0, hmom, ha, he]
      simp only [Vec3.scaled]
      norm_num
      exact ⟨hwy, hn0p.ne'⟩
    · show 0 < ((orbitPos el (E 0)).cross (orbitPos el (E (0 + dt)))).dot ((orbitPos el (E 0)).cross (orbitVel el n0 (E 0)))
      rw [hE0, hE1, hmom, hcr, hA, Vec3.dot_scaled_left, Vec3.dot_scaled_right, el.dirW_unit, ha, he]
      norm_num
      exact hn0p
    · simp only [State.new, hE0, hE1]; exact hM1
    · simp only [State.new, hE0, hE1]; exact hLM
    · simp only [State.new, hE0]; exact o1
    · simp only [State.new, hE1]; exact o3
    · simp only [Gauss.coesFromPositions, o1, o3, ok_bind]; exact hce
  · rw [hmag, hmag] at hh; exact absurd rfl hh

end Openspace
