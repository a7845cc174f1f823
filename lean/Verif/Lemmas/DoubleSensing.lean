import Verif.Model.DoubleSensing
import Verif.Spec.Photometry
import Verif.Lemmas.DoubleGeodetic
import Verif.Props.DoubleAngles
import Verif.Props.DoubleVectors
import Verif.Props.Sensors
import Mathlib.Analysis.Real.Pi.Bounds
import Mathlib.Analysis.Complex.ExponentialBounds

/-! # The phase function in double precision -/

namespace Openspace.F64

open Real

theorem pi_gap : 1.1 * u ≤ π - pi ∧ π - pi ≤ 1.11 * u := by
  have h1 := Real.pi_gt_d20
  have h2 := Real.pi_lt_d20
  rw [pi_value]
  unfold u
  norm_num at h1 h2 ⊢
  constructor <;> linarith

theorem pi_pos' : 3 < pi := by
  have h1 := pi_gap.2
  have h2 := u_small
  have h3 := Real.pi_gt_d2
  norm_num at h1 h2 h3
  linarith

theorem lambert_eq (a : ℝ) : Spec.lambert a = sin a - a * cos a := by
  rw [Spec.lambert, sin_pi_sub, cos_pi_sub]; ring

/-- the phase function of small angles -/
theorem lambert_small {a : ℝ} (h0 : 0 < a) (h1 : a ≤ 1) : a ^ 3 / 3 - a ^ 5 / 16 ≤ Spec.lambert a := by
  have h2 := (abs_le.mp (sin_bound (x := a) (by rwa [abs_of_pos h0]))).1
  have h3 := (abs_le.mp (cos_bound (x := a) (by rwa [abs_of_pos h0]))).2
  rw [abs_of_pos h0] at h2 h3
  rw [lambert_eq]
  have h4 : a * cos a ≤ a * (1 - a ^ 2 / 2 + a ^ 4 * (5 / 96)) := mul_le_mul_of_nonneg_left (by linarith) h0.le
  have h5 : 0 ≤ a ^ 5 := by positivity
  nlinarith

theorem lambert_ge {a b : ℝ} (h0 : 0 ≤ b) (h : b ≤ a) (ha : a ≤ π) : Spec.lambert b ≤ Spec.lambert a :=
  phase_strictMono.monotoneOn ⟨h0, h.trans ha⟩ ⟨h0.trans h, ha⟩ h

theorem lambert_bounds {a : ℝ} (h0 : 0 ≤ a) (ha : a ≤ π) : 0 ≤ Spec.lambert a ∧ Spec.lambert a ≤ π := by
  constructor
  · have := lambert_ge le_rfl h0 ha; rwa [phase_zero] at this
  · have := lambert_ge h0 ha le_rfl
    rw [lambert_eq π] at this; simpa using this

/-- an error of the cosine moves the phase function by at most `π` times as much -/
theorem lambert_cos {a b : ℝ} (ha0 : 0 ≤ a) (ha : a ≤ π) (hb0 : 0 ≤ b) (hb : b ≤ π) :
    |Spec.lambert a - Spec.lambert b| ≤ π * |cos a - cos b| := by
  have key : AntitoneOn (fun x => Spec.lambert x + π * cos x) (Set.Icc 0 π) := by
    have hd : ∀ x : ℝ, HasDerivAt (fun x => Spec.lambert x + π * cos x) (x * sin (π - x) + π * -sin x) x := fun x =>
      (phase_hasDerivAt x).add ((hasDerivAt_cos x).const_mul π)
    refine antitoneOn_of_deriv_nonpos (convex_Icc 0 π) (fun x _ => (hd x).continuousAt.continuousWithinAt)
      (fun x _ => (hd x).differentiableAt.differentiableWithinAt) ?_
    intro x hx
    rw [interior_Icc] at hx
    rw [(hd x).deriv, sin_pi_sub]
    have := sin_pos_of_pos_of_lt_pi hx.1 hx.2
    nlinarith [hx.2]
  rcases le_total a b with h | h
  · have h1 := lambert_ge ha0 h hb
    have h2 := key ⟨ha0, ha⟩ ⟨hb0, hb⟩ h
    have h3 : cos b ≤ cos a := cos_le_cos_of_nonneg_of_le_pi ha0 hb h
    rw [abs_of_nonpos (by linarith), abs_of_nonneg (by linarith)]
    simp only at h2
    linarith
  · have h1 := lambert_ge hb0 h ha
    have h2 := key ⟨hb0, hb⟩ ⟨ha0, ha⟩ h
    have h3 : cos a ≤ cos b := cos_le_cos_of_nonneg_of_le_pi hb0 ha h
    rw [abs_of_nonneg (by linarith), abs_of_nonpos (by linarith)]
    simp only at h2
    linarith

/-- the difference of two nearly equal terms, rounded -/
theorem difference_bound {v x S C D R Cf Sf P κ : ℝ} (hv : 0 < v) (hv' : v ≤ 12 / 10 ^ 17) (hx : 0 ≤ x) (hS : S ≤ x)
    (hC0 : 0 < C) (hC1 : C ≤ 1) (hD0 : 0 ≤ D) (hD : D = x - κ) (hκ : 1.1 * v ≤ κ) (hR : R ≤ (1 + v) * D)
    (hCf0 : 0 ≤ Cf) (hCf : Cf ≤ (1 + 2 * v) * C) (hSf : (1 - 2 * v) * S ≤ Sf) (hP : P ≤ (1 + v) * (R * Cf)) :
    S - x * C + 1.1 * v * C - 6.01 * v * x ≤ Sf - P := by
  have hDC0 : 0 ≤ D * C := mul_nonneg hD0 hC0.le
  have hDC : D * C ≤ x * C - 1.1 * v * C := by
    have := mul_le_mul_of_nonneg_right hκ hC0.le
    rw [hD]; linarith
  have hxC : x * C ≤ x := mul_le_of_le_one_right hx hC1
  have hvC : 0 ≤ v * C := by positivity
  have h1 : R * Cf ≤ (1 + v) * (1 + 2 * v) * (D * C) := by
    have := mul_le_mul hR hCf hCf0 (by positivity)
    linarith
  have h2 : (1 + v) * ((1 + v) * (1 + 2 * v)) ≤ 1 + 4.001 * v := by
    have e : (1 + v) * ((1 + v) * (1 + 2 * v)) = 1 + v * (4 + v * (5 + 2 * v)) := by ring
    have : v * (4 + v * (5 + 2 * v)) ≤ v * 4.001 := by
      apply mul_le_mul_of_nonneg_left _ hv.le
      have : v * (5 + 2 * v) ≤ 12 / 10 ^ 17 * (5 + 2 * 1) := by
        gcongr
        exact hv'.trans (by norm_num)
      linarith
    linarith
  have h3 : (1 + v) * (R * Cf) ≤ (1 + 4.001 * v) * (D * C) := by
    have a1 := mul_le_mul_of_nonneg_left h1 (show 0 ≤ 1 + v by linarith)
    have a2 := mul_le_mul_of_nonneg_right h2 hDC0
    linarith
  have h4 : v * (D * C) ≤ v * x := mul_le_mul_of_nonneg_left (by linarith) hv.le
  have h5 : v * S ≤ v * x := mul_le_mul_of_nonneg_left hS hv.le
  have h6 : 0 ≤ v * x := by positivity
  linarith

/-- which is positive -/
theorem difference_pos {x : ℝ} (hx0 : 0 < x) (hx1 : x ≤ π) (hc : 0 < cos x) :
    0 < sin x - x * cos x + 1.1 * u * cos x - 6.01 * u * x := by
  have hu := u_pos
  have hu' := u_tiny
  have hp2 := Real.pi_lt_d2
  rw [← lambert_eq]
  rcases le_or_gt x 0.15 with h | h
  · have l0 := (lambert_bounds hx0.le hx1).1
    have c0 : 1 - x ^ 2 / 2 ≤ Real.cos x := one_sub_sq_div_two_le_cos
    have : 0.98 ≤ Real.cos x := by nlinarith
    have : 1.1 * u * 0.98 ≤ 1.1 * u * Real.cos x := by gcongr
    have : 6.01 * u * x ≤ 6.01 * u * 0.15 := by gcongr
    linarith
  · have l0 := lambert_ge (by norm_num) h.le hx1
    have l1 := lambert_small (a := 0.15) (by norm_num) (by norm_num)
    have : 0 ≤ 1.1 * u * Real.cos x := by positivity
    have : 6.01 * u * x ≤ 6.01 * (12 / 10 ^ 17) * 4 := by gcongr; linarith
    norm_num at l1 this l0 ⊢
    linarith

/-- the sum the code takes is positive wherever the angle lies -/
theorem phase_sum_pos {lib : Libm} (hlib : Spec.TrigRelative lib) {f : ℝ} (h0 : 0 ≤ f) (h1 : f ≤ pi) :
    0 < lib.sin f + rnd (rnd (pi - f) * lib.cos f) := by
  obtain ⟨g1, g2⟩ := pi_gap
  have hu := u_pos
  have hu' := u_tiny
  have hs := hlib.sin f
  have hc := hlib.cos f
  have e52 : (1 : ℝ) / 2 ^ 52 = 2 * u := by norm_num [u]
  rw [e52] at hs hc
  obtain ⟨x, hx⟩ : ∃ x, x = π - f := ⟨_, rfl⟩
  have hx0 : 0 < x := by linarith
  have hx1 : x ≤ π := by linarith
  have es : Real.sin f = Real.sin x := by rw [hx, sin_pi_sub]
  have ec : Real.cos f = -Real.cos x := by rw [hx, cos_pi_sub]; ring
  have hsx : 0 ≤ Real.sin x := sin_nonneg_of_nonneg_of_le_pi hx0.le hx1
  rw [es, abs_of_nonneg hsx] at hs
  rw [ec, abs_neg] at hc
  have hs1 : (1 - 2 * u) * Real.sin x ≤ lib.sin f := by linarith [(abs_le.mp hs).1]
  have hd0 : 0 ≤ pi - f := by linarith
  have hr0 := rnd_nonneg hd0
  have hr := rnd_u (pi - f)
  rw [abs_of_nonneg hd0] at hr
  rcases le_or_gt (Real.cos x) 0 with hcx | hcx
  · -- both terms are nonnegative
    rw [abs_of_nonpos hcx] at hc
    have hc1 : (1 - 2 * u) * -Real.cos x ≤ lib.cos f := by linarith [(abs_le.mp hc).1]
    have hc0 : 0 ≤ lib.cos f := le_trans (mul_nonneg (by linarith) (by linarith)) hc1
    have t0 : 0 ≤ rnd (rnd (pi - f) * lib.cos f) := rnd_nonneg (mul_nonneg hr0 hc0)
    rcases hsx.eq_or_lt with h | h
    · -- the sine vanishes at `f = 0` only
      have hxp : x = π := by
        by_contra hne
        exact absurd h.symm (sin_pos_of_pos_of_lt_pi hx0 (lt_of_le_of_ne hx1 hne)).ne'
      have hf : f = 0 := by linarith
      have : 0 < lib.cos f := by
        refine lt_of_lt_of_le ?_ hc1
        rw [hxp, cos_pi]; linarith
      have t1 : 0 < rnd (rnd (pi - f) * lib.cos f) :=
        rnd_pos (mul_pos (rnd_pos (by rw [hf]; linarith [pi_pos'])) this)
      rw [← h, mul_zero] at hs1
      linarith
    · have : 0 < lib.sin f := lt_of_lt_of_le (mul_pos (by linarith) h) hs1
      linarith
  · rw [abs_of_pos hcx] at hc
    have hc1 : -((1 + 2 * u) * Real.cos x) ≤ lib.cos f := by linarith [(abs_le.mp hc).1]
    have hc2 : lib.cos f ≤ -((1 - 2 * u) * Real.cos x) := by linarith [(abs_le.mp hc).2]
    have hc4 : 0 ≤ (1 - 2 * u) * Real.cos x := mul_nonneg (by linarith) hcx.le
    have hr1 : rnd (pi - f) ≤ (1 + u) * (pi - f) := by linarith [(abs_le.mp hr).2]
    have q0 : rnd (pi - f) * lib.cos f ≤ 0 := mul_nonpos_of_nonneg_of_nonpos hr0 (by linarith)
    have q1 := rnd_u (rnd (pi - f) * lib.cos f)
    rw [abs_of_nonpos q0] at q1
    have q2 : -rnd (rnd (pi - f) * lib.cos f) ≤ (1 + u) * (rnd (pi - f) * -lib.cos f) := by
      linarith [(abs_le.mp q1).1]
    have main := difference_bound (x := x) (κ := π - pi) hu hu' hx0.le (sin_le hx0.le) hcx (Real.cos_le_one x) hd0
      (by linarith) g1 hr1 (by linarith : 0 ≤ -lib.cos f) (by linarith) hs1 q2
    have := difference_pos hx0 hx1 hcx
    linarith

theorem phase_pos' {lib : Libm} (hlib : Spec.TrigRelative lib) {s : ℝ} (h0 : 0 ≤ s) (h1 : s ≤ pi) : 0 < phase lib s := by
  refine rnd_pos (phase_sum_pos hlib (rnd_nonneg (by linarith)) ?_)
  exact rnd_le (by rw [pi]; exact isDouble_rnd _) (by linarith)

theorem abs_sin_sub (a b : ℝ) : |sin a - sin b| ≤ |a - b| := by
  exact abs_sin_sub_sin_le a b

theorem abs_cos_sub (a b : ℝ) : |cos a - cos b| ≤ |a - b| := by
  exact abs_cos_sub_cos_le a b

/-- the phase function of a given angle -/
theorem phase_near {lib : Libm} (hlib : Spec.Accurate lib) {s : ℝ} (h0 : 0 ≤ s) (h1 : s ≤ pi) :
    |phase lib s - Spec.lambert s| ≤ 40 * u := by
  obtain ⟨g1, g2⟩ := pi_gap
  have hu := u_pos
  have hu' := u_tiny
  have hp2 := Real.pi_lt_d2
  have e52 : (1 : ℝ) / 2 ^ 52 = 2 * u := by norm_num [u]
  obtain ⟨f, hf⟩ : ∃ f, f = rnd (pi - s) := ⟨_, rfl⟩
  have f1 : |f - (pi - s)| ≤ 3.15 * u := by
    have := rnd_u (pi - s)
    rw [abs_of_nonneg (by linarith : 0 ≤ pi - s), ← hf] at this
    have : u * (pi - s) ≤ u * 3.15 := by gcongr; linarith
    linarith
  have f2 : |f - (π - s)| ≤ 4.26 * u := by
    have := abs_sub_le f (pi - s) (π - s)
    have : |pi - s - (π - s)| ≤ 1.11 * u := by rw [abs_le]; constructor <;> linarith
    linarith
  have hs := hlib.sin f
  have hc := hlib.cos f
  rw [e52] at hs hc
  have s1 : |lib.sin f - sin s| ≤ 6.26 * u := by
    have a1 := abs_sin_sub f (π - s)
    rw [sin_pi_sub] at a1
    have a2 := abs_sub_le (lib.sin f) (sin f) (sin s)
    linarith
  have c1 : |lib.cos f + cos s| ≤ 6.26 * u := by
    have a1 := abs_cos_sub f (π - s)
    rw [cos_pi_sub] at a1
    have a2 := abs_sub_le (lib.cos f) (cos f) (-cos s)
    rw [sub_neg_eq_add] at a2
    linarith
  have r1 : |rnd (pi - f) - s| ≤ 6.31 * u := by
    have : |pi - f - s| ≤ 3.15 * u := by
      rw [show pi - f - s = -(f - (pi - s)) by ring, abs_neg]; exact f1
    have := rabs this (M := 3.16) (by rw [abs_of_nonneg h0]; linarith)
    linarith
  have hcs := abs_cos_le_one s
  have c2 : |lib.cos f| ≤ 1.01 := by
    have := abs_sub_abs_le_abs_sub (lib.cos f) (-cos s)
    rw [sub_neg_eq_add, abs_neg] at this
    linarith
  have p1 : |rnd (pi - f) * lib.cos f - -(s * cos s)| ≤ 26.2 * u := by
    rw [show rnd (pi - f) * lib.cos f - -(s * cos s) = (rnd (pi - f) - s) * lib.cos f + s * (lib.cos f + cos s) by ring]
    refine (abs_add_le _ _).trans ?_
    rw [abs_mul, abs_mul, abs_of_nonneg h0]
    have a1 : |rnd (pi - f) - s| * |lib.cos f| ≤ 6.31 * u * 1.01 := by gcongr
    have a2 : s * |lib.cos f + cos s| ≤ 3.15 * (6.26 * u) := by gcongr; linarith
    linarith
  have p2 : |s * cos s| ≤ 3.15 := by
    rw [abs_mul, abs_of_nonneg h0]
    have : s * |cos s| ≤ 3.15 * 1 := by gcongr; linarith
    linarith
  have p3 := rabs p1 (M := 3.2) (by rw [abs_neg]; linarith)
  have t1 : |lib.sin f + rnd (rnd (pi - f) * lib.cos f) - Spec.lambert s| ≤ 35.7 * u := by
    rw [lambert_eq, show lib.sin f + rnd (rnd (pi - f) * lib.cos f) - (sin s - s * cos s) =
      (lib.sin f - sin s) + (rnd (rnd (pi - f) * lib.cos f) - -(s * cos s)) by ring]
    have := abs_add_le (lib.sin f - sin s) (rnd (rnd (pi - f) * lib.cos f) - -(s * cos s))
    linarith
  obtain ⟨b1, b2⟩ := lambert_bounds h0 (by linarith : s ≤ π)
  have t2 := rabs t1 (M := 3.2) (by rw [abs_of_nonneg b1]; linarith)
  rw [phase, ← hf]
  linarith

theorem TrigRelative.accurate {lib : Libm} (h : Spec.TrigRelative lib) : Spec.Accurate lib where
  sin := fun x => (h.sin x).trans (mul_le_of_le_one_right (by positivity) (abs_sin_le_one x))
  cos := fun x => (h.cos x).trans (mul_le_of_le_one_right (by positivity) (abs_cos_le_one x))

/-- the phase function as the code computes it from the two vectors -/
theorem phase_of_vectors {lib : SkyLib} (h1 : Spec.TrigRelative lib.toLibm) (h2 : Spec.AcosAccurate lib.acos)
    (h3 : Spec.AcosRange lib.acos) {a b : Vec3} (ha : a ≠ ⟨0, 0, 0⟩) (hb : b ≠ ⟨0, 0, 0⟩) :
    ∃ s, angle lib.acos a b = .ok s ∧ 0 < phase lib.toLibm s ∧
      |phase lib.toLibm s - Spec.lambert (InnerProductGeometry.angle a.toE b.toE)| ≤ 100 * u := by
  obtain ⟨x, hx, e, hc⟩ := angle_before lib.acos ha hb
  obtain ⟨r0, r1⟩ := h3 x hx
  refine ⟨_, e, phase_pos' h1 r0 r1, ?_⟩
  have hu := u_pos
  have hp2 := Real.pi_lt_d2
  have g := pi_gap.1
  have e51 : (1 : ℝ) / 2 ^ 51 = 4 * u := by norm_num [u]
  have n1 := phase_near (TrigRelative.accurate h1) r0 r1
  have n2 := h2 x hx
  rw [e51] at n2
  have n3 := lambert_cos r0 (by linarith : lib.acos x ≤ π) (arccos_nonneg x) (arccos_le_pi x)
  have n4 := abs_cos_sub (lib.acos x) (arccos x)
  have n5 := lambert_cos (arccos_nonneg x) (arccos_le_pi x) (InnerProductGeometry.angle_nonneg a.toE b.toE)
    (InnerProductGeometry.angle_le_pi _ _)
  have n6 : π * |cos (lib.acos x) - cos (arccos x)| ≤ 3.15 * (4 * u) := by gcongr; linarith
  have n7 : π * |cos (arccos x) - cos (InnerProductGeometry.angle a.toE b.toE)| ≤ 3.15 * (15 * u) := by gcongr
  have n8 := abs_sub_le (phase lib.toLibm (lib.acos x)) (Spec.lambert (lib.acos x)) (Spec.lambert (arccos x))
  have n9 := abs_sub_le (phase lib.toLibm (lib.acos x)) (Spec.lambert (arccos x))
    (Spec.lambert (InnerProductGeometry.angle a.toE b.toE))
  linarith

/-! ## the flux and its logarithm -/

theorem near_pi : Near pi π 1 := by
  have h := pi_gap
  have hu := u_pos
  have := Real.pi_gt_d2
  unfold Near
  rw [abs_of_nonpos (by linarith), abs_of_pos Real.pi_pos]
  nlinarith

/-- the factor in front of the phase function -/
theorem flux_factor (albedo r : ℝ) {t : Vec3} (ht : t ≠ ⟨0, 0, 0⟩) :
    rnd (rnd (pi * magnitude t) * magnitude t) ≠ 0 ∧
    Near (rnd (rnd (rnd (rnd (rnd (2 / 3) * albedo) * r) * r) / rnd (rnd (pi * magnitude t) * magnitude t)))
      (2 / 3 * albedo * r ^ 2 / (π * t.magnitude ^ 2)) 20 := by
  have hm := magnitude_near t
  have hm0 : 0 < t.magnitude := Vec3.magnitude_pos.mpr ht
  have n1 := ((((near_rnd (2 / 3 : ℝ)).mul' (Near.refl albedo) le_rfl (by norm_num) (by norm_num) (by norm_num)).round'
    (by norm_num) (by norm_num)).mul' (Near.refl r) le_rfl (by norm_num) (by norm_num) (by norm_num)).round'
    (by norm_num) (by norm_num)
  have n2 := (n1.mul' (Near.refl r) le_rfl (by norm_num) (by norm_num) (by norm_num)).round' (by norm_num) (by norm_num)
  have d1 := (near_pi.mul' hm (by norm_num) (by norm_num) (by norm_num) (by norm_num)).round' (by norm_num) (by norm_num)
  have d2 := (d1.mul' hm (by norm_num) (by norm_num) (by norm_num) (by norm_num)).round' (by norm_num) (by norm_num)
  have q := n2.div' d2 (by positivity) (by norm_num) (by norm_num) (by norm_num) (by norm_num)
  refine ⟨q.1, ?_⟩
  have := (q.2.round' (by norm_num) (by norm_num)).mono (l := 20) (by norm_num)
  rw [show 2 / 3 * albedo * r ^ 2 / (π * t.magnitude ^ 2) = 2 / 3 * albedo * r * r / (π * t.magnitude * t.magnitude) by
    ring_nf]
  exact this

/-- the logarithm of a number with a relative error -/
theorem log_near {y x k : ℝ} (h : Near y x k) (hx : 0 < x) (hy : 0 < y) (hk0 : 0 ≤ k) (hk : k ≤ 1e5) :
    |logb 10 y - logb 10 x| ≤ 0.51 * k * u := by
  have hu := u_pos
  have hu' := u_tiny
  have hl10 : 2 ≤ log 10 := by
    rw [le_log_iff_exp_le (by norm_num)]
    have := exp_one_lt_three
    have e : exp 2 = exp 1 * exp 1 := by rw [← exp_add]; norm_num
    have := exp_pos 1
    rw [e]; nlinarith
  have hku : k * u ≤ 1e5 * (12 / 10 ^ 17) := by gcongr
  unfold Near at h
  rw [abs_of_pos hx] at h
  obtain ⟨a1, a2⟩ := abs_le.mp h
  have up : log y - log x ≤ k * u := by
    rw [← log_div hy.ne' hx.ne']
    have := log_le_sub_one_of_pos (div_pos hy hx)
    have : y / x ≤ 1 + k * u := by rw [div_le_iff₀ hx]; linarith
    linarith
  have hq : 0 ≤ k * u := by positivity
  have down : log x - log y ≤ 1.01 * (k * u) := by
    rw [← log_div hx.ne' hy.ne']
    have := log_le_sub_one_of_pos (div_pos hx hy)
    have : x / y ≤ 1 + 1.01 * (k * u) := by
      rw [div_le_iff₀ hy]
      have b1 : (1 - k * u) * x ≤ y := by linarith
      have b2 := mul_le_mul_of_nonneg_left b1 (show 0 ≤ 1 + 1.01 * (k * u) by linarith)
      have b3 : 1 ≤ (1 + 1.01 * (k * u)) * (1 - k * u) := by norm_num at hku; nlinarith
      have b4 := mul_le_mul_of_nonneg_right b3 hx.le
      linarith
    linarith
  rw [logb, logb, ← sub_div, abs_div, abs_of_pos (by linarith : 0 < log 10), div_le_iff₀ (by linarith)]
  have : |log y - log x| ≤ 1.01 * (k * u) := by rw [abs_le]; constructor <;> linarith
  have : 0.51 * k * u * 2 ≤ 0.51 * k * u * log 10 := by gcongr
  linarith

/-- the scale of magnitudes -/
theorem scale_near {l L m : ℝ} (hm : m = -26.74 - 2.5 * L) {E : ℝ} (hE : 0 ≤ E) (hE1 : E ≤ 1) (h : |l - L| ≤ E + 2 * u * (|L| + E)) :
    |rnd (rnd (-26.74) - rnd (2.5 * l)) - m| ≤ 2.51 * E + 200 * u + 5 * u * |m| := by
  have hu := u_pos
  have hu' := u_tiny
  have hL : 2.5 * |L| ≤ |m| + 26.74 := by
    have e : 2.5 * L = -26.74 - m := by linarith
    have : |2.5 * L| = 2.5 * |L| := by rw [abs_mul, abs_of_pos (by norm_num : (0 : ℝ) < 2.5)]
    rw [← this, e]
    have := abs_sub (-26.74 : ℝ) m
    rw [abs_neg, abs_of_pos (by norm_num : (0 : ℝ) < 26.74)] at this
    linarith
  have hL0 := abs_nonneg L
  have hm0 := abs_nonneg m
  have huL : 0 ≤ u * |L| := by positivity
  have huE : 0 ≤ u * E := by positivity
  have huE' : u * E ≤ 12 / 10 ^ 17 * E := by gcongr
  have huE1 : u * E ≤ u * 1 := by gcongr
  have a1 : |2.5 * l - 2.5 * L| ≤ 2.5 * (E + 2 * u * (|L| + E)) := by
    rw [← mul_sub, abs_mul, abs_of_pos (by norm_num : (0 : ℝ) < 2.5)]; gcongr
  have c1 : 2 * u * (|L| + E) ≤ 0.01 * (|L| + E) := by gcongr; linarith
  have a2 := rabs a1 (M := 2.6 * |L| + 3) (by
    rw [abs_mul, abs_of_pos (by norm_num : (0 : ℝ) < 2.5)]; linarith)
  have b1 : |rnd (-26.74) - -26.74| ≤ 27 * u := by
    have := rnd_u (-26.74)
    rw [abs_neg, abs_of_pos (by norm_num : (0 : ℝ) < 26.74)] at this
    linarith
  have b2 : |rnd (-26.74) - rnd (2.5 * l) - m| ≤
      27 * u + (2.5 * (E + 2 * u * (|L| + E)) + (2.6 * |L| + 3) * u) := by
    rw [show rnd (-26.74) - rnd (2.5 * l) - m = (rnd (-26.74) - -26.74) + -(rnd (2.5 * l) - 2.5 * L) by rw [hm]; ring]
    have := abs_add_le (rnd (-26.74) - -26.74) (-(rnd (2.5 * l) - 2.5 * L))
    rw [abs_neg] at this
    linarith
  have hum : 0 ≤ u * |m| := by positivity
  have huLm : 2.5 * (u * |L|) ≤ u * |m| + 26.74 * u := by
    have := mul_le_mul_of_nonneg_left hL hu.le
    linarith
  have c2 : 27 * u + (2.5 * (E + 2 * u * (|L| + E)) + (2.6 * |L| + 3) * u) ≤ 0.01 * |m| + 3 := by
    have : u * |m| ≤ 12 / 10 ^ 17 * |m| := by gcongr
    linarith
  have b3 := rabs b2 (M := 1.01 * |m| + 3) (by linarith)
  linarith

end Openspace.F64
