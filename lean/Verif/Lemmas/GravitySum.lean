import Verif.Lemmas.Geopotential
import Verif.Props.Functions
import Verif.Props.Positions
import Verif.Props.States
import Mathlib.Analysis.Calculus.Gradient.Basic

/-!
# Lemmas: the loops of `acceleration_from_gravity` as sums, and the gradient of the geopotential
-/

namespace Openspace

open Spec Polynomial

/-! ## loops as sums -/

/-- componentwise sum of two sets of partials -/
noncomputable def Partials.add (a b : Partials) : Partials := ⟨a.r + b.r, a.phi + b.phi, a.lamb + b.lamb⟩

theorem foldlM_range_sum (k : ℕ) (f : Partials → ℕ → Py Partials) (g : ℕ → Partials)
    (h : ∀ acc m, m < k → f acc m = .ok (acc.add (g m))) (acc : Partials) :
    (List.range k).foldlM f acc = .ok (acc.add
      ⟨∑ m ∈ Finset.range k, (g m).r, ∑ m ∈ Finset.range k, (g m).phi, ∑ m ∈ Finset.range k, (g m).lamb⟩) := by
  induction k with
  | zero => simp [Partials.add, pure_eq_ok]
  | succ k ih =>
    rw [List.range_succ, List.foldlM_append, ih (fun acc m hm => h acc m (by omega)), ok_bind]
    simp only [List.foldlM_cons, List.foldlM_nil, h _ k (by omega), ok_bind, pure_eq_ok, Partials.add,
      Finset.sum_range_succ, add_assoc]

/-- degree-`n`, order-`m` cosine coefficient as used by the code, and the sine one -/
noncomputable abbrev cf (n m : ℕ) : ℝ := Cbar n m * normFactor n m
noncomputable abbrev sf (n m : ℕ) : ℝ := Sbar n m * normFactor n m

/-- what one turn of the inner loop adds -/
noncomputable def gterm (ra dec q : ℝ) (n m : ℕ) : Partials :=
  ⟨q ^ n * (n + 1) * assocLegendre n m dec * (cf n m * Real.cos (m * ra) + sf n m * Real.sin (m * ra)),
   q ^ n * (assocLegendre n (m + 1) dec - m * Real.tan dec * assocLegendre n m dec) *
     (cf n m * Real.cos (m * ra) + sf n m * Real.sin (m * ra)),
   q ^ n * m * assocLegendre n m dec * (sf n m * Real.cos (m * ra) - cf n m * Real.sin (m * ra))⟩

theorem legendreDeriv_eq_zero (n : ℕ) (u : ℝ) : legendreDeriv n (n + 1) u = 0 := by
  have hd : (legendre n).natDegree < n + 1 := by
    have h1 : (derivative^[n] ((X ^ 2 - 1 : ℝ[X]) ^ n)).natDegree ≤ n * 2 - n :=
      (natDegree_iterate_derivative _ _).trans (Nat.sub_le_sub_right (by compute_degree) _)
    have h2 := natDegree_C_mul_le (1 / (2 ^ n * (n.factorial : ℝ))) (derivative^[n] ((X ^ 2 - 1 : ℝ[X]) ^ n))
    unfold legendre
    omega
  rw [legendreDeriv, iterate_derivative_eq_zero hd, eval_zero]

theorem index_next (phi : ℝ) (n m : ℕ) (hn : n ≤ 4) (hm : m ≤ n) :
    pyIndex2 (legendreP phi) n (m + 1) = .ok (assocLegendre n (m + 1) phi) := by
  rw [C11_legendre]
  by_cases h : m + 1 ≤ n
  · rw [if_pos ⟨hn, h⟩]
  · have : m = n := by omega
    subst this
    rw [if_neg (by omega), if_pos ⟨hn, rfl⟩, assocLegendre, legendreDeriv_eq_zero, mul_zero]

theorem gravityTerm_eq (ra dec q : ℝ) (n m : ℕ) (h2 : 2 ≤ n) (h4 : n ≤ 4) (hm : m ≤ n) (acc : Partials) :
    gravityTerm (legendreP dec) ra dec (pyPowNat q n) n acc m = .ok (acc.add (gterm ra dec q n m)) := by
  have hc := C12_coefficients n m h2 h4 hm
  have h0 := C11_legendre dec n m
  rw [if_pos ⟨h4, hm⟩] at h0
  simp only [gravityTerm, hc.1, hc.2, h0, index_next dec n m h4 hm, ok_bind, pure_eq_ok, Partials.add,
    gterm, pyPowNat, ofNat, pyCos, pySin, pyTan]

/-- sums over degrees 2 to 4 and all orders -/
noncomputable def gsum (f : ℕ → ℕ → ℝ) : ℝ := ∑ n ∈ Finset.Icc 2 4, ∑ m ∈ Finset.range (n + 1), f n m

theorem gsum_eq (f : ℕ → ℕ → ℝ) : gsum f = (∑ m ∈ Finset.range 3, f 2 m) +
    (∑ m ∈ Finset.range 4, f 3 m) + ∑ m ∈ Finset.range 5, f 4 m := by
  have : Finset.Icc 2 4 = {2, 3, 4} := by decide
  rw [gsum, this]
  simp [add_assoc]

theorem gravitySums_eq (ra dec q : ℝ) :
    gravitySums (legendreP dec) ra dec q = .ok ⟨gsum fun n m => (gterm ra dec q n m).r,
      gsum fun n m => (gterm ra dec q n m).phi, gsum fun n m => (gterm ra dec q n m).lamb⟩ := by
  have hr : List.range' 2 (Earth.DEGREE_AND_ORDER - 2) = [2, 3, 4] := rfl
  rw [gravitySums, hr]
  simp only [List.foldlM_cons, List.foldlM_nil]
  rw [foldlM_range_sum 3 _ (gterm ra dec q 2) (fun acc m hm =>
    gravityTerm_eq ra dec q 2 m (by omega) (by omega) (by omega) acc), ok_bind,
    foldlM_range_sum 4 _ (gterm ra dec q 3) (fun acc m hm =>
    gravityTerm_eq ra dec q 3 m (by omega) (by omega) (by omega) acc), ok_bind,
    foldlM_range_sum 5 _ (gterm ra dec q 4) (fun acc m hm =>
    gravityTerm_eq ra dec q 4 m (by omega) (by omega) (by omega) acc), ok_bind]
  simp only [Partials.add, pure_eq_ok, gsum_eq, zero_add]

/-! ## the field in spherical components -/

/-- `k` times the radial part `a` and northward part `b`, and the eastward part `e` divided by `k`, at
latitude `phi` and longitude `lam` -/
noncomputable def fieldVec (k phi lam a b e : ℝ) : Vec3 :=
  ⟨k * (a * (Real.cos phi * Real.cos lam) - b * (Real.sin phi * Real.cos lam)) - k⁻¹ * e * Real.sin lam,
   k * (a * (Real.cos phi * Real.sin lam) - b * (Real.sin phi * Real.sin lam)) + k⁻¹ * e * Real.cos lam,
   k * (a * Real.sin phi + b * Real.cos phi)⟩

theorem fieldVec_sq (k phi lam a b e : ℝ) :
    (fieldVec k phi lam a b e).magnitude ^ 2 = k ^ 2 * (a ^ 2 + b ^ 2) + (k⁻¹) ^ 2 * e ^ 2 := by
  rw [Vec3.magnitude_sq_dot]
  simp only [fieldVec, Vec3.dot]
  have h1 := Real.sin_sq_add_cos_sq phi
  have h2 := Real.sin_sq_add_cos_sq lam
  linear_combination (k ^ 2 * (a * Real.cos phi - b * Real.sin phi) ^ 2 + k⁻¹ ^ 2 * e ^ 2) * h2 +
    k ^ 2 * (a ^ 2 + b ^ 2) * h1

theorem fieldVec_sub (k phi lam a b e : ℝ) (hk : 1 ≤ k) (ε : ℝ) (hε : k ≤ 1 + ε) :
    ((fieldVec k phi lam a b e).minus (fieldVec 1 phi lam a b e)).magnitude ≤
      ε * (fieldVec 1 phi lam a b e).magnitude := by
  have h1 := Real.sin_sq_add_cos_sq phi
  have h2 := Real.sin_sq_add_cos_sq lam
  have hk0 : 0 < k := by linarith
  have hj : k⁻¹ ≤ 1 := inv_le_one_of_one_le₀ hk
  have hj2 : 1 - k⁻¹ ≤ k - 1 := by
    have : 1 - k⁻¹ = (k - 1) * k⁻¹ := by field_simp
    rw [this]
    nlinarith [inv_nonneg.mpr hk0.le]
  have e1 : ((fieldVec k phi lam a b e).minus (fieldVec 1 phi lam a b e)).magnitude ^ 2 =
      (k - 1) ^ 2 * (a ^ 2 + b ^ 2) + (k⁻¹ - 1) ^ 2 * e ^ 2 := by
    rw [Vec3.magnitude_sq_dot]
    simp only [fieldVec, Vec3.dot, Vec3.minus, inv_one]
    linear_combination ((k - 1) ^ 2 * (a * Real.cos phi - b * Real.sin phi) ^ 2 + (k⁻¹ - 1) ^ 2 * e ^ 2) * h2 +
      (k - 1) ^ 2 * (a ^ 2 + b ^ 2) * h1
  have e2 := fieldVec_sq 1 phi lam a b e
  simp only [inv_one, one_pow, one_mul] at e2
  have hn := Vec3.magnitude_nonneg (fieldVec 1 phi lam a b e)
  refine le_of_sq_le_sq ?_ (mul_nonneg (by linarith) hn) |>.trans le_rfl
  rw [e1, mul_pow, e2]
  have q1 : (k - 1) ^ 2 ≤ ε ^ 2 := by nlinarith
  have q2 : (k⁻¹ - 1) ^ 2 ≤ ε ^ 2 := by nlinarith
  nlinarith [mul_le_mul_of_nonneg_right q1 (by positivity : 0 ≤ a ^ 2 + b ^ 2),
    mul_le_mul_of_nonneg_right q2 (sq_nonneg e)]

/-! ## the gradient -/

/-- the point at distance `d`, latitude `phi`, longitude `lam` -/
noncomputable def polar (d phi lam : ℝ) : Vec3 :=
  ⟨d * Real.cos phi * Real.cos lam, d * Real.cos phi * Real.sin lam, d * Real.sin phi⟩

theorem polar_magnitude {d : ℝ} (hd : 0 ≤ d) (phi lam : ℝ) : (polar d phi lam).magnitude = d := by
  refine Vec3.magnitude_of_dot hd ?_
  simp only [polar, Vec3.dot]
  linear_combination d ^ 2 * Real.cos phi ^ 2 * Real.sin_sq_add_cos_sq lam + d ^ 2 * Real.sin_sq_add_cos_sq phi

theorem toE_zero (v : Vec3) : v.toE 0 = v.x := rfl
theorem toE_one (v : Vec3) : v.toE 1 = v.y := rfl
theorem toE_two (v : Vec3) : v.toE 2 = v.z := rfl

theorem inner_toE' (v : Vec3) (w : EuclideanSpace ℝ (Fin 3)) :
    inner ℝ v.toE w = v.x * w 0 + v.y * w 1 + v.z * w 2 := by
  rw [PiLp.inner_apply, Fin.sum_univ_three]
  simp only [toE_zero, toE_one, toE_two, RCLike.inner_apply, conj_trivial]
  ring

/-- gradient of one harmonic in spherical components -/
theorem hasGradientAt_harmonic (mu R c s : ℝ) (n m : ℕ) {d phi lam : ℝ} (hd : 0 < d)
    (hC : Real.cos phi ≠ 0) :
    HasGradientAt (harmonic mu R c s n m)
      (fieldVec 1 phi lam
        (-(mu / d ^ 2) * ((R / d) ^ n * (n + 1) * assocLegendre n m phi *
          (c * Real.cos (m * lam) + s * Real.sin (m * lam))))
        (mu / d ^ 2 * ((R / d) ^ n * (assocLegendre n (m + 1) phi - m * Real.tan phi * assocLegendre n m phi) *
          (c * Real.cos (m * lam) + s * Real.sin (m * lam))))
        (mu / d ^ 2 / Real.cos phi * ((R / d) ^ n * m * assocLegendre n m phi *
          (s * Real.cos (m * lam) - c * Real.sin (m * lam))))).toE
      (polar d phi lam).toE := by
  have hnorm : ‖(polar d phi lam).toE‖ = d := by rw [Vec3.norm_toE, polar_magnitude hd.le]
  have hx : (polar d phi lam).toE ≠ 0 := by
    intro h; rw [h, norm_zero] at hnorm; exact hd.ne hnorm
  obtain ⟨D, hD, hDv⟩ := hasFDerivAt_harmonic mu R c s n m hx
  rw [hasGradientAt_iff_hasFDerivAt]
  refine hD.congr_fderiv ?_
  ext1 v
  rw [hDv, hnorm]
  simp only [InnerProductSpace.toDual_apply_apply, inner_toE', toE_zero, toE_one, toE_two]
  have hS : (polar d phi lam).z * d⁻¹ = Real.sin phi := by simp only [polar]; field_simp
  rw [hS]
  have key := harmonic_spherical_deriv n m c s d d⁻¹ (Real.cos phi) (Real.sin phi) (Real.cos lam)
    (Real.sin lam) lam (legendreDeriv n m (Real.sin phi)) (legendreDeriv n (m + 1) (Real.sin phi))
    (v 0) (v 1) (v 2) (inv_mul_cancel₀ hd.ne') hC (Real.sin_sq_add_cos_sq phi) (Real.sin_sq_add_cos_sq lam)
    rfl rfl
  have hin : (polar d phi lam).x * v 0 + (polar d phi lam).y * v 1 + (polar d phi lam).z * v 2 =
      d * (Real.cos phi * Real.cos lam * v 0 + Real.cos phi * Real.sin lam * v 1 + Real.sin phi * v 2) := by
    simp only [polar]; ring
  rw [hin, mul_assoc (mu * R ^ n)]
  simp only [polar] at key ⊢
  rw [key, Real.tan_eq_sin_div_cos]
  simp only [fieldVec, assocLegendre, div_eq_mul_inv]
  obtain ⟨i, hi⟩ : ∃ x, x = d⁻¹ := ⟨_, rfl⟩
  obtain ⟨j, hj⟩ : ∃ x, x = (Real.cos phi)⁻¹ := ⟨_, rfl⟩
  have e2 : (d ^ 2)⁻¹ = i ^ 2 := by rw [hi, inv_pow]
  rw [e2, ← hi, ← hj, inv_one]
  ring

theorem fieldVec_sum {ι : Type} (t : Finset ι) (k phi lam : ℝ) (a b e : ι → ℝ) :
    ∑ i ∈ t, (fieldVec k phi lam (a i) (b i) (e i)).toE =
      (fieldVec k phi lam (∑ i ∈ t, a i) (∑ i ∈ t, b i) (∑ i ∈ t, e i)).toE := by
  classical
  induction t using Finset.induction_on with
  | empty =>
    have : fieldVec k phi lam 0 0 0 = ⟨0, 0, 0⟩ := by simp [fieldVec]
    simp only [Finset.sum_empty, this]
    ext j; fin_cases j <;> rfl
  | insert i t hi ih =>
    rw [Finset.sum_insert hi, ih, Finset.sum_insert hi, Finset.sum_insert hi, Finset.sum_insert hi]
    ext j
    fin_cases j
    · change (fieldVec k phi lam (a i) (b i) (e i)).x + (fieldVec k phi lam _ _ _).x = (fieldVec k phi lam _ _ _).x
      simp only [fieldVec]; ring
    · change (fieldVec k phi lam (a i) (b i) (e i)).y + (fieldVec k phi lam _ _ _).y = (fieldVec k phi lam _ _ _).y
      simp only [fieldVec]; ring
    · change (fieldVec k phi lam (a i) (b i) (e i)).z + (fieldVec k phi lam (∑ i ∈ t, a i) (∑ i ∈ t, b i) (∑ i ∈ t, e i)).z =
        (fieldVec k phi lam (a i + ∑ i ∈ t, a i) (b i + ∑ i ∈ t, b i) (e i + ∑ i ∈ t, e i)).z
      simp only [fieldVec]; ring

theorem hasGradientAt_sum {ι : Type} (t : Finset ι) (f : ι → EuclideanSpace ℝ (Fin 3) → ℝ)
    (g : ι → EuclideanSpace ℝ (Fin 3)) (x : EuclideanSpace ℝ (Fin 3))
    (h : ∀ i ∈ t, HasGradientAt (f i) (g i) x) :
    HasGradientAt (fun y => ∑ i ∈ t, f i y) (∑ i ∈ t, g i) x := by
  rw [hasGradientAt_iff_hasFDerivAt, map_sum]
  exact HasFDerivAt.fun_sum fun i hi => (h i hi).hasFDerivAt

/-- gradient of the geopotential in spherical components -/
theorem hasGradientAt_geopotential (mu R : ℝ) {d phi lam : ℝ} (hd : 0 < d) (hC : Real.cos phi ≠ 0) :
    HasGradientAt (geopotential mu R)
      (fieldVec 1 phi lam
        (-(mu / d ^ 2) * gsum fun n m => (gterm lam phi (R / d) n m).r)
        (mu / d ^ 2 * gsum fun n m => (gterm lam phi (R / d) n m).phi)
        (mu / d ^ 2 / Real.cos phi * gsum fun n m => (gterm lam phi (R / d) n m).lamb)).toE
      (polar d phi lam).toE := by
  have h := hasGradientAt_sum (Finset.Icc 2 4)
    (fun n y => ∑ m ∈ Finset.range (n + 1), harmonic mu R (cf n m) (sf n m) n m y) _ (polar d phi lam).toE
    (fun n _ => hasGradientAt_sum (Finset.range (n + 1))
      (fun m y => harmonic mu R (cf n m) (sf n m) n m y) _ (polar d phi lam).toE
      (fun m _ => hasGradientAt_harmonic mu R (cf n m) (sf n m) n m hd hC))
  simp only [fieldVec_sum] at h
  have hg : geopotential mu R = fun y => ∑ n ∈ Finset.Icc 2 4, ∑ m ∈ Finset.range (n + 1),
      harmonic mu R (cf n m) (sf n m) n m y := rfl
  rw [hg]
  simpa only [gsum, gterm, Finset.mul_sum] using h

/-! ## the body-fixed vector computed by the code -/

theorem gravityItrf_eq (ecef : Vec3) {d : ℝ} (hd : 0 < d) (hxy : 0 < ecef.x * ecef.x + ecef.y * ecef.y) :
    gravityItrf ecef d = .ok (fieldVec (ecef.magnitude / d)
      (SphericalPosition.fromCartesian ecef).declination (SphericalPosition.fromCartesian ecef).right_ascension
      (-(Earth.MU / d ^ 2) * gsum fun n m => (gterm (SphericalPosition.fromCartesian ecef).right_ascension
        (SphericalPosition.fromCartesian ecef).declination (Earth.RADIUS / d) n m).r)
      (Earth.MU / d ^ 2 * gsum fun n m => (gterm (SphericalPosition.fromCartesian ecef).right_ascension
        (SphericalPosition.fromCartesian ecef).declination (Earth.RADIUS / d) n m).phi)
      (Earth.MU / d ^ 2 / Real.cos (SphericalPosition.fromCartesian ecef).declination * gsum fun n m =>
        (gterm (SphericalPosition.fromCartesian ecef).right_ascension
        (SphericalPosition.fromCartesian ecef).declination (Earth.RADIUS / d) n m).lamb)) := by
  have hroot : 0 < √(ecef.x * ecef.x + ecef.y * ecef.y) := Real.sqrt_pos.mpr hxy
  have h1 := mag_mul_cos_dec ecef
  have h2 := mag_mul_sin_dec ecef
  have h3 := rho_mul_cos_ra ecef
  have h4 := rho_mul_sin_ra ecef
  simp only [gravityItrf, sqrtNN]
  rw [pyDiv_ok hd.ne', ok_bind, pyDiv_ok hroot.ne', ok_bind, gravitySums_eq, ok_bind,
    pyDiv_ok (by positivity), ok_bind, pure_eq_ok]
  have hq : Earth.RADIUS * (1 / d) = Earth.RADIUS / d := by ring
  rw [hq]
  obtain ⟨phi, hphi⟩ : ∃ x, x = (SphericalPosition.fromCartesian ecef).declination := ⟨_, rfl⟩
  obtain ⟨lam, hlam⟩ : ∃ x, x = (SphericalPosition.fromCartesian ecef).right_ascension := ⟨_, rfl⟩
  rw [← hphi] at h1 h2 ⊢
  rw [← hlam] at h3 h4 ⊢
  obtain ⟨sr, hsr⟩ : ∃ x, x = gsum fun n m => (gterm lam phi (Earth.RADIUS / d) n m).r := ⟨_, rfl⟩
  obtain ⟨sp, hsp⟩ : ∃ x, x = gsum fun n m => (gterm lam phi (Earth.RADIUS / d) n m).phi := ⟨_, rfl⟩
  obtain ⟨sl, hsl⟩ : ∃ x, x = gsum fun n m => (gterm lam phi (Earth.RADIUS / d) n m).lamb := ⟨_, rfl⟩
  rw [← hsr, ← hsp, ← hsl]
  rw [← h1] at h3 h4 hroot ⊢
  obtain ⟨rho, hrho⟩ : ∃ x, x = ecef.magnitude := ⟨_, rfl⟩
  rw [← hrho] at h1 h2 h3 h4 hroot ⊢
  have hC : Real.cos phi ≠ 0 := fun h => by rw [h, mul_zero] at hroot; exact lt_irrefl _ hroot
  have hr : rho ≠ 0 := fun h => by rw [h, zero_mul] at hroot; exact lt_irrefl _ hroot
  rw [← h2, ← h3, ← h4]
  have hd' := hd.ne'
  congr 1
  simp only [fieldVec]
  refine Vec3.ext ?_ ?_ ?_
  · field_simp
    try ring
  · field_simp
    try ring
  · field_simp
    try ring

end Openspace
