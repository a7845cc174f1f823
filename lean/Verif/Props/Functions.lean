import Verif.Lemmas.Angles
import Mathlib.Analysis.SpecialFunctions.Trigonometric.Bounds
import Verif.Lemmas.Legendre
import Verif.Model.Celestial

/-!
# Properties C11–C15, C19, C20: Legendre table, coefficients and the equations of motion
-/

namespace Openspace

open Real Spec

/-! ## C11 -/

/-- every entry of the table, for all latitudes: associated Legendre function, with a zero after
the last order; nothing else is in the table -/
theorem C11_legendre (phi : ℝ) (n m : ℕ) :
    pyIndex2 (legendreP phi) n m =
      if n ≤ 4 ∧ m ≤ n then .ok (assocLegendre n m phi)
      else if n ≤ 4 ∧ m = n + 1 then .ok 0
      else .error .indexError := by
  have hlen : (legendreP phi).length = 5 := rfl
  by_cases hn : n ≤ 4
  · have : n = 0 ∨ n = 1 ∨ n = 2 ∨ n = 3 ∨ n = 4 := by omega
    have hs := sin_sq_add_cos_sq phi
    rcases this with rfl | rfl | rfl | rfl | rfl
    · rcases m with _ | _ | m
      · simp [pyIndex2, legendreP, assocLegendre, ld00]
      · simp [pyIndex2, legendreP]
      · simp [pyIndex2, legendreP]
    · rcases m with _ | _ | _ | m
      · simp [pyIndex2, legendreP, assocLegendre, ld10, pySin]
      · simp [pyIndex2, legendreP, assocLegendre, ld11, pyCos]
      · simp [pyIndex2, legendreP]
      · simp [pyIndex2, legendreP]
    · rcases m with _ | _ | _ | _ | m
      · simp [pyIndex2, legendreP, assocLegendre, ld20, pySin, pyCos]; ring
      · simp [pyIndex2, legendreP, assocLegendre, ld21, pySin, pyCos]; ring
      · simp [pyIndex2, legendreP, assocLegendre, ld22, pySin, pyCos]; ring
      · simp [pyIndex2, legendreP]
      · simp [pyIndex2, legendreP]
    · rcases m with _ | _ | _ | _ | _ | m
      · simp [pyIndex2, legendreP, assocLegendre, ld30, pySin, pyCos]; ring
      · simp [pyIndex2, legendreP, assocLegendre, ld31, pySin, pyCos]; ring
      · simp [pyIndex2, legendreP, assocLegendre, ld32, pySin, pyCos]; ring
      · simp [pyIndex2, legendreP, assocLegendre, ld33, pySin, pyCos]; ring
      · simp [pyIndex2, legendreP]
      · simp [pyIndex2, legendreP]
    · rcases m with _ | _ | _ | _ | _ | _ | m
      · simp [pyIndex2, legendreP, assocLegendre, ld40, pySin, pyCos]; ring
      · simp [pyIndex2, legendreP, assocLegendre, ld41, pySin, pyCos]; ring
      · simp [pyIndex2, legendreP, assocLegendre, ld42, pySin, pyCos]; ring
      · simp [pyIndex2, legendreP, assocLegendre, ld43, pySin, pyCos]; ring
      · simp [pyIndex2, legendreP, assocLegendre, ld44, pySin, pyCos]; ring
      · simp [pyIndex2, legendreP]
      · simp [pyIndex2, legendreP]
  · have h1 : (legendreP phi)[n]? = none := by
      rw [List.getElem?_eq_none_iff]; rw [hlen]; omega
    simp [pyIndex2, h1, hn]

example : pyIndex2 (legendreP (π / 6)) 2 1 = .ok (3 * (1 / 2) * (√3 / 2)) := by
  rw [C11_legendre]
  simp [assocLegendre, ld21]
  ring

/-! ## C12 -/

theorem div_sqrt_inv {x a b : ℝ} (hb : b = 1 / a) : x / sqrtNN a = x * √b := by
  rw [sqrtNN, hb, Real.sqrt_div zero_le_one, Real.sqrt_one]; ring

/-- every stored coefficient is the published normalised one times the normalisation factor -/
theorem C12_coefficients (n m : ℕ) (hn : 2 ≤ n) (hn' : n ≤ 4) (hm : m ≤ n) :
    pyIndex2 Earth.C n m = .ok (Cbar n m * normFactor n m) ∧
    pyIndex2 Earth.S n m = .ok (Sbar n m * normFactor n m) := by
  have : n = 2 ∨ n = 3 ∨ n = 4 := by omega
  rcases this with rfl | rfl | rfl
  · have : m = 0 ∨ m = 1 ∨ m = 2 := by omega
    rcases this with rfl | rfl | rfl <;>
    (simp only [pyIndex2, Earth.C, Earth.S, List.getElem?_cons_succ, List.getElem?_cons_zero, Cbar,
      Sbar, Except.ok.injEq, normFactor]
     constructor
     · first
         | exact div_sqrt_inv (by norm_num [Nat.factorial])
     · first
         | exact div_sqrt_inv (by norm_num [Nat.factorial])
         | rw [zero_mul])
  · have : m = 0 ∨ m = 1 ∨ m = 2 ∨ m = 3 := by omega
    rcases this with rfl | rfl | rfl | rfl <;>
    (simp only [pyIndex2, Earth.C, Earth.S, List.getElem?_cons_succ, List.getElem?_cons_zero, Cbar,
      Sbar, Except.ok.injEq, normFactor]
     constructor
     · first
         | exact div_sqrt_inv (by norm_num [Nat.factorial])
     · first
         | exact div_sqrt_inv (by norm_num [Nat.factorial])
         | rw [zero_mul])
  · have : m = 0 ∨ m = 1 ∨ m = 2 ∨ m = 3 ∨ m = 4 := by omega
    rcases this with rfl | rfl | rfl | rfl | rfl <;>
    (simp only [pyIndex2, Earth.C, Earth.S, List.getElem?_cons_succ, List.getElem?_cons_zero, Cbar,
      Sbar, Except.ok.injEq, normFactor]
     constructor
     · first
         | exact div_sqrt_inv (by norm_num [Nat.factorial])
     · first
         | exact div_sqrt_inv (by norm_num [Nat.factorial])
         | rw [zero_mul])

/-! ## C13 -/

theorem cube_root {a x : ℝ} (ha : 0 < a) (hx : x = a ^ 3) : x ^ ((1 : ℝ) / 3) = a := by
  rw [hx, ← Real.rpow_natCast, ← Real.rpow_mul ha.le]; norm_num

theorem C13_mean_motion (a mu : ℝ) (ha : 0 < a) (hmu : 0 < mu) :
    ∃ n, nFromAMu a mu = .ok n ∧ 0 < n ∧ n ^ 2 * a ^ 3 = mu ∧ aFromMuN mu n = .ok a := by
  have hq : 0 < mu / (a * a * a) := by positivity
  refine ⟨√(mu / (a * a * a)), ?_, Real.sqrt_pos.mpr hq, ?_, ?_⟩
  · simp [nFromAMu, pyDiv_ok (show a * a * a ≠ 0 by positivity), pySqrt_ok hq.le]
  · rw [Real.sq_sqrt hq.le]; field_simp
  · have hn : √(mu / (a * a * a)) * √(mu / (a * a * a)) = mu / (a * a * a) :=
      Real.mul_self_sqrt hq.le
    simp only [aFromMuN, hn, pyDiv_ok hq.ne', ok_bind]
    have h3 : mu / (mu / (a * a * a)) = a ^ 3 := by field_simp
    rw [h3, pyPow_ok (by positivity), cube_root ha rfl]

theorem C13_period (a mu : ℝ) (ha : 0 < a) (hmu : 0 < mu) :
    ∃ tau, tauFromAMu a mu = .ok tau ∧ 0 < tau ∧ tau ^ 2 * mu = 4 * π ^ 2 * a ^ 3 ∧
      aFromMuTau mu tau = .ok a ∧ nFromTau tau = nFromAMu a mu := by
  have hq : 0 < a * a * a / mu := by positivity
  have hs := Real.sqrt_pos.mpr hq
  have hss := Real.mul_self_sqrt hq.le
  have hp := pi_pos
  refine ⟨2 * π * √(a * a * a / mu), ?_, by positivity, ?_, ?_, ?_⟩
  · simp [tauFromAMu, pyDiv_ok hmu.ne', pySqrt_ok hq.le, pyPi]
  · have : (2 * π * √(a * a * a / mu)) ^ 2 * mu
        = 4 * π ^ 2 * (√(a * a * a / mu) * √(a * a * a / mu)) * mu := by ring
    rw [this, hss]; field_simp
  · have : mu * (2 * π * √(a * a * a / mu) / (2 * pyPi)) * (2 * π * √(a * a * a / mu) / (2 * pyPi))
        = a ^ 3 := by
      rw [pyPi, mul_div_cancel_left₀ _ (by positivity), mul_assoc, hss]; field_simp
    simp only [aFromMuTau, this]
    rw [pyPow_ok (by positivity), cube_root ha rfl]
  · have hne : 2 * π * √(a * a * a / mu) ≠ 0 := by positivity
    have hq' : (0 : ℝ) ≤ mu / (a * a * a) := by positivity
    simp only [nFromTau, nFromAMu, pyDiv_ok hne, pyDiv_ok (show a * a * a ≠ 0 by positivity), ok_bind,
      pySqrt_ok hq', pyPi, Except.ok.injEq]
    rw [show mu / (a * a * a) = (a * a * a / mu)⁻¹ by rw [inv_div], Real.sqrt_inv]
    field_simp

theorem C13_vis_viva (a mu r : ℝ) (ha : 0 < a) (hmu : 0 < mu) (hr : 0 < r) (hra : r < 2 * a) :
    ∃ v, vFromAMuR a mu r = .ok v ∧ 0 < v ∧ v ^ 2 = mu * (2 / r - 1 / a) ∧
      aFromMuRV mu r v = .ok a := by
  have h1 : 0 < 2 / r - 1 / a := by
    rw [sub_pos, div_lt_div_iff₀ ha hr]; linarith
  have hq : 0 < mu * (2 / r - 1 / a) := by positivity
  have hss := Real.mul_self_sqrt hq.le
  refine ⟨√(mu * (2 / r - 1 / a)), ?_, Real.sqrt_pos.mpr hq, Real.sq_sqrt hq.le, ?_⟩
  · simp only [vFromAMuR, pyDiv_ok hr.ne', pyDiv_ok ha.ne', ok_bind, pySqrt_ok hq.le]
  · simp only [aFromMuRV, pyDiv_ok hr.ne', pyDiv_ok hmu.ne', ok_bind, hss]
    have : 2 / r - mu * (2 / r - 1 / a) / mu = 1 / a := by
      rw [mul_div_cancel_left₀ _ hmu.ne']; ring
    rw [this, pyDiv_ok (by positivity), one_div_one_div]

example : ∃ n, nFromAMu 42164 398600.4418 = .ok n ∧ aFromMuN 398600.4418 n = .ok 42164 := by
  obtain ⟨n, h1, _, _, h2⟩ := C13_mean_motion 42164 398600.4418 (by norm_num) (by norm_num)
  exact ⟨n, h1, h2⟩

/-! ## C14 -/

theorem C14_semi_minor (a e : ℝ) (ha : 0 < a) (he : 0 ≤ e) (he' : e ≤ 1) :
    ∃ b, bFromAE a e = .ok b ∧ 0 ≤ b ∧ b ^ 2 = a ^ 2 * (1 - e ^ 2) ∧ eFromAB a b = .ok e ∧
      pFromAB a b = .ok (pFromAE a e) := by
  have h1 : 0 ≤ 1 - e * e := by nlinarith
  have hss := Real.mul_self_sqrt h1
  have hb : a * √(1 - e * e) * (a * √(1 - e * e)) = a * a * (1 - e * e) := by
    linear_combination a * a * hss
  refine ⟨a * √(1 - e * e), ?_, by positivity, ?_, ?_, ?_⟩
  · simp [bFromAE, pySqrt_ok h1]
  · rw [mul_pow, Real.sq_sqrt h1]; ring
  · have h2 : a * a - a * √(1 - e * e) * (a * √(1 - e * e)) = (a * e) * (a * e) := by
      rw [hb]; ring
    simp only [eFromAB, h2, pySqrt_ok (mul_self_nonneg _), ok_bind,
      Real.sqrt_mul_self (by positivity : 0 ≤ a * e), pyDiv_ok ha.ne']
    rw [mul_div_cancel_left₀ _ ha.ne']
  · simp only [pFromAB, hb, pyDiv_ok ha.ne', pFromAE]
    rw [mul_assoc, mul_div_cancel_left₀ _ ha.ne']

theorem C14_semi_parameter (a e : ℝ) (ha : 0 < a) (he : 0 ≤ e) :
    eFromAP a (pFromAE a e) = .ok e := by
  simp only [eFromAP, pFromAE, pyDiv_ok ha.ne', ok_bind, mul_div_cancel_left₀ _ ha.ne']
  have : 1 - (1 - e * e) = e * e := by ring
  rw [this, pySqrt_ok (mul_self_nonneg _), Real.sqrt_mul_self he]

theorem C14_areal_velocity (mu p : ℝ) (hmu : 0 < mu) (hp : 0 ≤ p) :
    ∃ h, hFromMuP mu p = .ok h ∧ 0 ≤ h ∧ pFromMuH mu h = .ok p := by
  have h0 : 0 ≤ mu * p := by positivity
  refine ⟨√(mu * p), pySqrt_ok h0, Real.sqrt_nonneg _, ?_⟩
  simp only [pFromMuH, Real.mul_self_sqrt h0, pyDiv_ok hmu.ne', mul_div_cancel_left₀ _ hmu.ne']

/-- the exact domains: a math domain error exactly where the orbit does not exist, a division
error exactly at a zero denominator -/
theorem C14_domains (a b e p mu : ℝ) :
    (eFromAB a b = .error .valueError ↔ |a| < |b|) ∧
    (eFromAB a b = .error .zeroDivision ↔ a = 0 ∧ b = 0) ∧
    (0 < a → (eFromAP a p = .error .valueError ↔ a < p)) ∧
    (eFromAP a p = .error .zeroDivision ↔ a = 0) ∧
    (bFromAE a e = .error .valueError ↔ 1 < |e|) ∧
    (hFromMuP mu p = .error .valueError ↔ mu * p < 0) ∧
    (pFromAB a b = .error .zeroDivision ↔ a = 0) ∧
    (∀ err, eFromAB a b = .error err ∨ eFromAP a p = .error err →
      err = .valueError ∨ err = .zeroDivision) := by
  have hab : a * a - b * b < 0 ↔ |a| < |b| := by
    rw [← sq_lt_sq]; constructor <;> intro h <;> nlinarith
  refine ⟨?_, ?_, ?_, ?_, ?_, ?_, ?_, ?_⟩
  · rw [eFromAB, bind_eq_error, pySqrt_eq_error, hab]
    simp [pyDiv_eq_error]
  · rw [eFromAB, bind_eq_error, pySqrt_eq_error]
    simp only [reduceCtorEq, and_false, false_or, pySqrt_eq_ok, pyDiv_eq_error, and_true]
    constructor
    · rintro ⟨c, ⟨h1, h2⟩, h3⟩
      subst h3
      refine ⟨rfl, ?_⟩
      nlinarith
    · rintro ⟨rfl, rfl⟩
      exact ⟨_, ⟨by simp, rfl⟩, rfl⟩
  · intro ha
    rw [eFromAP, pyDiv_ok ha.ne', ok_bind, pySqrt_eq_error]
    simp only [and_true, sub_neg, one_lt_div ha]
  · rw [eFromAP, bind_eq_error, pyDiv_eq_error]
    simp [pySqrt_eq_error]
  · rw [bFromAE, bind_eq_error, pySqrt_eq_error]
    simp only [and_true, pure_eq_ok, reduceCtorEq, and_false, exists_false, or_false]
    rw [← abs_one, ← sq_lt_sq, abs_one]; constructor <;> intro h <;> nlinarith
  · rw [hFromMuP, pySqrt_eq_error]; simp
  · rw [pFromAB, pyDiv_eq_error]; simp
  · rintro err (h | h)
    · rw [eFromAB, bind_eq_error, pySqrt_eq_error] at h
      rcases h with h | ⟨c, _, h⟩
      · exact Or.inl h.2
      · rw [pyDiv_eq_error] at h; exact Or.inr h.2
    · rw [eFromAP, bind_eq_error, pyDiv_eq_error] at h
      rcases h with h | ⟨c, _, h⟩
      · exact Or.inr h.2
      · rw [pySqrt_eq_error] at h; exact Or.inl h.2

/-! ## C15 -/

theorem one_add_e_cos_pos {e : ℝ} (he : 0 ≤ e) (he' : e < 1) (nu : ℝ) : 0 < 1 + e * cos nu := by
  nlinarith [neg_one_le_cos nu]

theorem one_sub_e_cos_pos {e : ℝ} (he : 0 ≤ e) (he' : e < 1) (x : ℝ) : 0 < 1 - e * cos x := by
  nlinarith [cos_le_one x]

/-- at every point of an elliptic orbit the three speed formulas give the same speed, which
satisfies vis-viva, and both energy formulas give the same energy -/
theorem C15_speed (a e mu nu : ℝ) (ha : 0 < a) (he : 0 ≤ e) (he' : e < 1) (hmu : 0 < mu) :
    ∃ r v, rFromPENu (pFromAE a e) e nu = .ok r ∧ 0 < r ∧ 0 < v ∧ v ^ 2 = mu * (2 / r - 1 / a) ∧
      vFromAMuR a mu r = .ok v ∧ (xiFromMuA mu a >>= vFromMuRXi mu r) = .ok v ∧
      vFromMuRENu mu r e nu = .ok v ∧ xiFromMuRV mu r v = xiFromMuA mu a := by
  have hd := one_add_e_cos_pos he he' nu
  have h1 : 0 < 1 - e * e := by nlinarith
  have hr : 0 < a * (1 - e * e) / (1 + e * cos nu) := by positivity
  have hr2 : a * (1 - e * e) / (1 + e * cos nu) < 2 * a := by
    rw [div_lt_iff₀ hd]
    have k1 : 0 ≤ a * (e * (1 + cos nu)) := by
      have : 0 ≤ 1 + cos nu := by linarith [neg_one_le_cos nu]
      positivity
    have k2 : 0 < a * ((1 - e) * (1 - e)) := by
      have : 0 < 1 - e := by linarith
      positivity
    linarith
  obtain ⟨v, hv, hv0, hv2, _⟩ := C13_vis_viva a mu _ ha hmu hr hr2
  set r := a * (1 - e * e) / (1 + e * cos nu) with hrdef
  have hq : 0 ≤ mu * (2 / r - 1 / a) := by rw [← hv2]; positivity
  have hvs : v = √(mu * (2 / r - 1 / a)) := by rw [← hv2, Real.sqrt_sq hv0.le]
  refine ⟨r, v, ?_, hr, hv0, hv2, hv, ?_, ?_, ?_⟩
  · simp only [rFromPENu, pFromAE, pyCos, pyDiv_ok hd.ne', ← hrdef]
  · have e1 : 2 * (mu / r + -0.5 * mu / a) = mu * (2 / r - 1 / a) := by ring
    simp only [xiFromMuA, vFromMuRXi, pyDiv_ok ha.ne', pyDiv_ok hr.ne', ok_bind, e1, pySqrt_ok hq,
      ← hvs]
  · have e1 : mu / r * (2 - (1 - e * e) / (1 + e * cos nu)) = mu * (2 / r - 1 / a) := by
      have : (1 - e * e) / (1 + e * cos nu) = r / a := by rw [hrdef]; field_simp
      rw [this]; field_simp
    simp only [vFromMuRENu, pyCos, pyDiv_ok hr.ne', pyDiv_ok hd.ne', ok_bind, e1, pySqrt_ok hq, ← hvs]
  · have e1 : v * v * 0.5 - mu / r = -0.5 * mu / a := by
      rw [show v * v = v ^ 2 by ring, hv2]; ring
    simp only [xiFromMuRV, xiFromMuA, pyDiv_ok ha.ne', pyDiv_ok hr.ne', ok_bind, pure_eq_ok, e1]

/-! ## C19 -/

/-- the true anomaly is in `[0, 2 pi)` and puts the body at the point of the ellipse given by
the eccentric anomaly -/
theorem C19_true_anomaly (a e E : ℝ) (he : 0 ≤ e) (he' : e < 1) :
    ∃ nu, nuFromEEa e E = .ok nu ∧ 0 ≤ nu ∧ nu < 2 * π ∧
      rFromPENu (pFromAE a e) e nu = .ok (a * (1 - e * cos E)) ∧
      a * (1 - e * cos E) * cos nu = a * (cos E - e) ∧
      a * (1 - e * cos E) * sin nu = a * √(1 - e ^ 2) * sin E := by
  have h1 : 0 < 1 - e * e := by nlinarith
  have hd := one_sub_e_cos_pos he he' E
  have hss := Real.mul_self_sqrt h1.le
  obtain ⟨hr0, hr1⟩ := wrapNeg_atan2_range (√(1 - e * e) * sin E) (cos E - e)
  have hn : √((cos E - e) * (cos E - e) + √(1 - e * e) * sin E * (√(1 - e * e) * sin E))
      = 1 - e * cos E := by
    have : (cos E - e) * (cos E - e) + √(1 - e * e) * sin E * (√(1 - e * e) * sin E)
        = (1 - e * cos E) * (1 - e * cos E) := by
      linear_combination (sin E) ^ 2 * hss + (1 - e ^ 2) * sin_sq_add_cos_sq E
    rw [this, Real.sqrt_mul_self hd.le]
  have hc := mul_cos_atan2 (√(1 - e * e) * sin E) (cos E - e)
  have hs := mul_sin_atan2 (√(1 - e * e) * sin E) (cos E - e)
  rw [hn] at hc hs
  refine ⟨_, ?_, hr0, hr1, ?_, ?_, ?_⟩
  · simp [nuFromEEa, pySqrt_ok h1.le, pySin, pyCos]
  · have e1 : (1 - e * cos E) * (1 + e * cos (pyAtan2 (√(1 - e * e) * sin E) (cos E - e)))
        = 1 - e * e := by linear_combination e * hc
    have hne : 1 + e * cos (pyAtan2 (√(1 - e * e) * sin E) (cos E - e)) ≠ 0 :=
      (one_add_e_cos_pos he he' _).ne'
    simp only [rFromPENu, pyCos, wrapNeg_cos, pyDiv_ok hne, pFromAE, Except.ok.injEq]
    rw [div_eq_iff hne]; linear_combination -a * e1
  · rw [wrapNeg_cos, mul_assoc, hc]
  · rw [wrapNeg_sin, mul_assoc, hs, show e ^ 2 = e * e by ring]; ring

example : ∃ nu, nuFromEEa 0.5 (π / 2) = .ok nu ∧ cos nu = -1 / 2 := by
  obtain ⟨nu, h1, _, _, _, h2, _⟩ := C19_true_anomaly 1 0.5 (π / 2) (by norm_num) (by norm_num)
  refine ⟨nu, h1, ?_⟩
  rw [cos_pi_div_two] at h2
  linarith

/-! ## C20 -/

theorem C20_ranges :
    (∀ w, 0 ≤ raanFromW w ∧ raanFromW w < 2 * π) ∧
    (∀ r w, 0 ≤ uFromRW r w ∧ uFromRW r w < 2 * π) ∧
    (∀ w, 0 ≤ incFromW w ∧ incFromW w ≤ π) ∧
    (∀ e ea nu, nuFromEEa e ea = .ok nu → 0 ≤ nu ∧ nu < 2 * π) ∧
    (∀ rdv r a n ea, eaFromRdvRAN rdv r a n = .ok ea → 0 ≤ ea ∧ ea < 2 * π) ∧
    (∀ u nu, 0 ≤ u → u < 2 * π → 0 ≤ nu → nu < 2 * π → 0 ≤ wFromUNu u nu ∧ wFromUNu u nu < 2 * π) ∧
    (∀ ea e, 0 ≤ e → e < 1 → 0 ≤ ea → ea < 2 * π → 0 ≤ maFromEaE ea e ∧ maFromEaE ea e < 2 * π) := by
  refine ⟨fun w => wrapNeg_atan2_range _ _, fun r w => wrapNeg_atan2_range _ _, ?_, ?_, ?_, ?_, ?_⟩
  · intro w
    refine ⟨?_, pyAtan2_le _ _⟩
    unfold incFromW pyAtan2
    rw [Complex.arg_nonneg_iff]
    exact Real.sqrt_nonneg _
  · intro e ea nu h
    rw [nuFromEEa, bind_eq_ok] at h
    obtain ⟨s, _, h⟩ := h
    simp only [pure_eq_ok, Except.ok.injEq] at h
    rw [← h]; exact wrapNeg_atan2_range _ _
  · intro rdv r a n ea h
    simp only [eaFromRdvRAN, bind_eq_ok, pure_eq_ok, Except.ok.injEq] at h
    obtain ⟨y, _, q, _, h⟩ := h
    rw [← h]; exact wrapNeg_atan2_range _ _
  · intro u nu h1 h2 h3 h4
    exact ⟨wrapNeg_nonneg (by linarith), wrapNeg_lt (by linarith)⟩
  · intro ea e h1 h2 h3 h4
    have k1 : sin ea ≤ ea := Real.sin_le h3
    have k2 : e * sin ea ≤ ea := by
      rcases le_or_gt 0 (sin ea) with h | h <;> nlinarith
    have k3 : -sin ea ≤ 2 * π - ea := by
      have := Real.sin_le (show 0 ≤ 2 * π - ea by linarith)
      rwa [sin_two_pi_sub] at this
    have k4 : ea - e * sin ea < 2 * π := by
      rcases le_or_gt 0 (sin ea) with h | h
      · nlinarith
      · nlinarith
    exact ⟨wrapNeg_nonneg (by simp only [pySin]; linarith [pi_pos]), wrapNeg_lt k4⟩

/-- and they recover the angles of an orbit with node `Om`, inclination `i` and argument of
latitude `u`: the orbit normal is `(sin i sin Om, -sin i cos Om, cos i)` -/
theorem C20_recover (Om i u c : ℝ) (hc : 0 < c) (hO : 0 ≤ Om) (hO' : Om < 2 * π) (hi : 0 < i)
    (hi' : i < π) (hu : 0 ≤ u) (hu' : u < 2 * π) (ρ : ℝ) (hρ : 0 < ρ) :
    raanFromW ⟨c * (sin i * sin Om), c * (-(sin i * cos Om)), c * cos i⟩ = Om ∧
    incFromW ⟨c * (sin i * sin Om), c * (-(sin i * cos Om)), c * cos i⟩ = i ∧
    uFromRW ⟨ρ * (cos Om * cos u - sin Om * sin u * cos i), ρ * (sin Om * cos u + cos Om * sin u * cos i),
        ρ * (sin u * sin i)⟩
      ⟨sin i * sin Om, -(sin i * cos Om), cos i⟩ = u := by
  have hs : 0 < sin i := sin_pos_of_pos_of_lt_pi hi hi'
  refine ⟨?_, ?_, ?_⟩
  · exact wrapNeg_atan2_eq (r := c * sin i) (by positivity) hO hO' (by simp; ring) (by ring)
  · refine pyAtan2_eq (r := c) hc (by linarith) hi'.le rfl ?_
    rw [sqrtNN, show c * (sin i * sin Om) * (c * (sin i * sin Om)) +
      c * (-(sin i * cos Om)) * (c * (-(sin i * cos Om))) = (c * sin i) * (c * sin i) by
        linear_combination (c * sin i) ^ 2 * sin_sq_add_cos_sq Om]
    exact Real.sqrt_mul_self (by positivity)
  · refine wrapNeg_atan2_eq (r := ρ * sin i) (by positivity) hu hu' ?_ ?_
    · simp only
      linear_combination (ρ * sin i * cos u) * sin_sq_add_cos_sq Om
    · simp only; ring

example : raanFromW ⟨1, 0, 1⟩ = π / 2 := by
  have h := (C20_recover (π / 2) (π / 4) 0 (√2) (by positivity) (by positivity) (by linarith [pi_pos])
    (by positivity) (by linarith [pi_pos]) le_rfl (by positivity) 1 one_pos).1
  have h2 : √2 * √2 = 2 := Real.mul_self_sqrt (by norm_num)
  have e1 : √2 * (√2 / 2) = 1 := by linarith
  simpa [e1] using h

end Openspace
