import Verif.Lemmas.ElementsState
import Verif.Spec.TwoBody
import Mathlib.Analysis.InnerProductSpace.Calculus
import Mathlib.Analysis.Calculus.MeanValue
import Mathlib.Analysis.Calculus.Deriv.Inverse
import Mathlib.Analysis.Calculus.Deriv.Prod
import Mathlib.Analysis.SpecialFunctions.Sqrt

/-! # Constants of two-body motion, and Kepler's equation along it -/

namespace Openspace

open Real Spec

/-- componentwise derivative of a vector -/
structure VDeriv (f : ℝ → Vec3) (f' : Vec3) (t : ℝ) : Prop where
  x : HasDerivAt (fun t => (f t).x) f'.x t
  y : HasDerivAt (fun t => (f t).y) f'.y t
  z : HasDerivAt (fun t => (f t).z) f'.z t

theorem vderiv_of_toE {f : ℝ → Vec3} {f' : Vec3} {t : ℝ} (h : HasDerivAt (fun t => (f t).toE) f'.toE t) :
    VDeriv f f' t := by
  have key : ∀ i : Fin 3, HasDerivAt (fun t => (f t).toE i) (f'.toE i) t := fun i => by
    exact (EuclideanSpace.proj (𝕜 := ℝ) i).hasFDerivAt.comp_hasDerivAt t h
  refine ⟨?_, ?_, ?_⟩
  · simpa [Vec3.toE, Vec3.toFun] using key 0
  · simpa [Vec3.toE, Vec3.toFun] using key 1
  · simpa [Vec3.toE, Vec3.toFun] using key 2

theorem toE_of_vderiv {f : ℝ → Vec3} {f' : Vec3} {t : ℝ} (h : VDeriv f f' t) :
    HasDerivAt (fun t => (f t).toE) f'.toE t := by
  have : HasDerivAt (fun t => (f t).toFun) f'.toFun t := by
    rw [hasDerivAt_pi]
    intro i
    fin_cases i
    · exact h.x
    · exact h.y
    · exact h.z
  exact (PiLp.continuousLinearEquiv 2 ℝ (fun _ : Fin 3 => ℝ)).symm.toContinuousLinearMap.hasFDerivAt.comp_hasDerivAt t
    this

theorem toE_scaled (v : Vec3) (k : ℝ) : (v.scaled k).toE = k • v.toE := by
  ext i
  fin_cases i <;> simp [Vec3.toE, Vec3.toFun, Vec3.scaled, mul_comm]

/-- the componentwise form of two-body motion -/
theorem twoBody_vderiv {mu : ℝ} {I : Set ℝ} {p v : ℝ → Vec3}
    (h : TwoBody mu I (fun t => (p t).toE) (fun t => (v t).toE)) {t : ℝ} (ht : t ∈ I) :
    VDeriv p (v t) t ∧ VDeriv v ((p t).scaled (-(mu / (p t).magnitude ^ 3))) t := by
  refine ⟨vderiv_of_toE (h.velocity t ht), vderiv_of_toE ?_⟩
  have := h.attraction t ht
  rw [Vec3.norm_toE, ← toE_scaled] at this
  exact this

theorem VDeriv.dot {f g : ℝ → Vec3} {f' g' : Vec3} {t : ℝ} (hf : VDeriv f f' t) (hg : VDeriv g g' t) :
    HasDerivAt (fun t => (f t).dot (g t)) (f'.dot (g t) + (f t).dot g') t := by
  have := ((hf.x.mul hg.x).add (hf.y.mul hg.y)).add (hf.z.mul hg.z)
  refine this.congr_deriv ?_
  simp only [Vec3.dot]; ring

theorem VDeriv.cross {f g : ℝ → Vec3} {f' g' : Vec3} {t : ℝ} (hf : VDeriv f f' t) (hg : VDeriv g g' t) :
    VDeriv (fun t => (f t).cross (g t)) ((f'.cross (g t)).plus ((f t).cross g')) t := by
  refine ⟨((hf.y.mul hg.z).sub (hf.z.mul hg.y)).congr_deriv ?_, ?_, ?_⟩
  · simp only [Vec3.cross, Vec3.plus]; ring
  · refine HasDerivAt.congr_deriv (f := fun t => ((f t).cross (g t)).y)
      (f' := (f'.z * (g t).x + (f t).z * g'.x) - (f'.x * (g t).z + (f t).x * g'.z)) ?_ ?_
    · exact (hf.z.mul hg.x).sub (hf.x.mul hg.z)
    · simp only [Vec3.cross, Vec3.plus]; ring
  · refine HasDerivAt.congr_deriv (f := fun t => ((f t).cross (g t)).z)
      (f' := (f'.x * (g t).y + (f t).x * g'.y) - (f'.y * (g t).x + (f t).y * g'.x)) ?_ ?_
    · exact (hf.x.mul hg.y).sub (hf.y.mul hg.x)
    · simp only [Vec3.cross, Vec3.plus]; ring

theorem VDeriv.magnitude {f : ℝ → Vec3} {f' : Vec3} {t : ℝ} (hf : VDeriv f f' t) (h0 : f t ≠ ⟨0, 0, 0⟩) :
    HasDerivAt (fun t => (f t).magnitude) ((f t).dot f' / (f t).magnitude) t := by
  have h1 := hf.dot hf
  have h2 : (f t).dot (f t) ≠ 0 := by rwa [Ne, Vec3.dot_self_eq_zero]
  have := h1.sqrt h2
  refine HasDerivAt.congr_deriv (f := fun t => (f t).magnitude) this ?_
  have : √((f t).dot (f t)) = (f t).magnitude := rfl
  rw [this, Vec3.dot_comm f']
  have := Vec3.magnitude_ne_zero.mpr h0
  field_simp; ring

theorem VDeriv.div_magnitude {f : ℝ → Vec3} {f' : Vec3} {t : ℝ} (hf : VDeriv f f' t) (h0 : f t ≠ ⟨0, 0, 0⟩)
    (mu : ℝ) :
    HasDerivAt (fun t => mu / (f t).magnitude) (-(mu * (f t).dot f' / (f t).magnitude ^ 3)) t := by
  have hm := Vec3.magnitude_ne_zero.mpr h0
  refine ((hasDerivAt_const t mu).div (hf.magnitude h0) hm).congr_deriv ?_
  field_simp; ring

/-- a function with zero derivative on an interval of times -/
theorem const_of_deriv {I : Set ℝ} (hI : I.OrdConnected) {f : ℝ → ℝ} (h : ∀ t ∈ I, HasDerivAt f 0 t) {t t0 : ℝ}
    (ht : t ∈ I) (ht0 : t0 ∈ I) : f t = f t0 := by
  have := hI.convex.norm_image_sub_le_of_norm_hasDerivWithin_le (C := 0) (f' := fun _ => 0)
    (fun x hx => (h x hx).hasDerivWithinAt) (fun x _ => by simp) ht0 ht
  rw [zero_mul] at this
  have := norm_le_zero_iff.mp this
  linarith

/-- angular momentum is constant -/
theorem momentum_const {mu : ℝ} {I : Set ℝ} (hI : I.OrdConnected) {p v : ℝ → Vec3}
    (h : TwoBody mu I (fun t => (p t).toE) (fun t => (v t).toE)) {t t0 : ℝ} (ht : t ∈ I) (ht0 : t0 ∈ I) :
    (p t).cross (v t) = (p t0).cross (v t0) := by
  have key : ∀ t ∈ I, VDeriv (fun t => (p t).cross (v t)) ⟨0, 0, 0⟩ t := by
    intro t ht
    obtain ⟨h1, h2⟩ := twoBody_vderiv h ht
    have := h1.cross h2
    have e : ((v t).cross (v t)).plus ((p t).cross ((p t).scaled (-(mu / (p t).magnitude ^ 3)))) = ⟨0, 0, 0⟩ := by
      ext <;> simp only [Vec3.cross, Vec3.plus, Vec3.scaled] <;> ring
    rwa [e] at this
  ext
  · exact const_of_deriv hI (fun t ht => (key t ht).x) ht ht0
  · exact const_of_deriv hI (fun t ht => (key t ht).y) ht ht0
  · exact const_of_deriv hI (fun t ht => (key t ht).z) ht ht0

/-- energy is constant, away from the centre -/
theorem energy_const {mu : ℝ} {I : Set ℝ} (hI : I.OrdConnected) {p v : ℝ → Vec3}
    (h : TwoBody mu I (fun t => (p t).toE) (fun t => (v t).toE)) (h0 : ∀ t ∈ I, p t ≠ ⟨0, 0, 0⟩) {t t0 : ℝ}
    (ht : t ∈ I) (ht0 : t0 ∈ I) :
    (v t).magnitude ^ 2 / 2 - mu / (p t).magnitude = (v t0).magnitude ^ 2 / 2 - mu / (p t0).magnitude := by
  refine const_of_deriv hI (f := fun t => (v t).magnitude ^ 2 / 2 - mu / (p t).magnitude) (fun t ht => ?_) ht ht0
  obtain ⟨h1, h2⟩ := twoBody_vderiv h ht
  have hm := Vec3.magnitude_ne_zero.mpr (h0 t ht)
  have d1 : HasDerivAt (fun t => (v t).magnitude ^ 2 / 2)
      ((((p t).scaled (-(mu / (p t).magnitude ^ 3))).dot (v t)
        + (v t).dot ((p t).scaled (-(mu / (p t).magnitude ^ 3)))) / 2) t := by
    have := (h2.dot h2).div_const 2
    refine this.congr_of_eventuallyEq (Filter.Eventually.of_forall fun t => ?_)
    simp only [Vec3.magnitude_sq_dot]
  have d2 := h1.div_magnitude (h0 t ht) mu
  refine (d1.sub d2).congr_deriv ?_
  rw [Vec3.dot_scaled_left, Vec3.dot_scaled_right, Vec3.dot_comm (v t)]
  field_simp; ring

/-- the eccentricity vector is constant, away from the centre -/
theorem apse_const {mu : ℝ} {I : Set ℝ} (hI : I.OrdConnected) {p v : ℝ → Vec3}
    (h : TwoBody mu I (fun t => (p t).toE) (fun t => (v t).toE)) (h0 : ∀ t ∈ I, p t ≠ ⟨0, 0, 0⟩) {t t0 : ℝ}
    (ht : t ∈ I) (ht0 : t0 ∈ I) :
    ((v t).cross ((p t).cross (v t))).minus ((p t).scaled (mu / (p t).magnitude))
      = ((v t0).cross ((p t0).cross (v t0))).minus ((p t0).scaled (mu / (p t0).magnitude)) := by
  have key : ∀ t ∈ I, VDeriv (fun t => ((v t).cross ((p t).cross (v t))).minus ((p t).scaled (mu / (p t).magnitude)))
      ⟨0, 0, 0⟩ t := by
    intro t ht
    obtain ⟨h1, h2⟩ := twoBody_vderiv h ht
    have hm := Vec3.magnitude_ne_zero.mpr (h0 t ht)
    have hms := Vec3.magnitude_sq_dot (p t)
    have hc := h2.cross (h1.cross h2)
    have d2 := h1.div_magnitude (h0 t ht) mu
    obtain ⟨m, hme⟩ : ∃ m, m = (p t).magnitude := ⟨_, rfl⟩
    refine ⟨?_, ?_, ?_⟩
    · refine HasDerivAt.congr_deriv (hc.x.sub (h1.x.mul d2)) ?_
      rw [← hme] at hm hms ⊢
      simp only [Vec3.cross, Vec3.plus, Vec3.scaled, Vec3.dot] at hms ⊢
      field_simp
      linear_combination (-(v t).x * mu) * hms
    · refine HasDerivAt.congr_deriv (hc.y.sub (h1.y.mul d2)) ?_
      rw [← hme] at hm hms ⊢
      simp only [Vec3.cross, Vec3.plus, Vec3.scaled, Vec3.dot] at hms ⊢
      field_simp
      linear_combination (-(v t).y * mu) * hms
    · refine HasDerivAt.congr_deriv (hc.z.sub (h1.z.mul d2)) ?_
      rw [← hme] at hm hms ⊢
      simp only [Vec3.cross, Vec3.plus, Vec3.scaled, Vec3.dot] at hms ⊢
      field_simp
      linear_combination (-(v t).z * mu) * hms
  ext
  · exact const_of_deriv hI (fun t ht => (key t ht).x) ht ht0
  · exact const_of_deriv hI (fun t ht => (key t ht).y) ht ht0
  · exact const_of_deriv hI (fun t ht => (key t ht).z) ht ht0

/-- a plane vector turning at the rate of an angle is turned by that angle -/
theorem turn_const {I : Set ℝ} (hI : I.OrdConnected) {x y th om : ℝ → ℝ} (hx : ∀ t ∈ I, HasDerivAt x (-om t * y t) t)
    (hy : ∀ t ∈ I, HasDerivAt y (om t * x t) t) (hth : ∀ t ∈ I, HasDerivAt th (om t) t) {t t0 : ℝ} (ht : t ∈ I)
    (ht0 : t0 ∈ I) :
    x t = x t0 * cos (th t - th t0) - y t0 * sin (th t - th t0) ∧
    y t = x t0 * sin (th t - th t0) + y t0 * cos (th t - th t0) := by
  have c1 := const_of_deriv hI (f := fun t => x t * cos (th t) + y t * sin (th t)) (fun t ht => by
    refine (((hx t ht).mul (hth t ht).cos).add ((hy t ht).mul (hth t ht).sin)).congr_deriv ?_
    ring) ht ht0
  have c2 := const_of_deriv hI (f := fun t => y t * cos (th t) - x t * sin (th t)) (fun t ht => by
    refine (((hy t ht).mul (hth t ht).cos).sub ((hx t ht).mul (hth t ht).sin)).congr_deriv ?_
    ring) ht ht0
  have hs := sin_sq_add_cos_sq (th t)
  rw [cos_sub, sin_sub]
  constructor
  · linear_combination cos (th t) * c1 - sin (th t) * c2 - x t * hs
  · linear_combination sin (th t) * c1 + cos (th t) * c2 - y t * hs

/-- Kepler's equation along a bound two-body motion: `e cos E = 1 - r / a` and `e sin E = r·v / sqrt(mu a)` turn by
the angle `n (t - t0) + e sin E - e sin E0` -/
theorem anomaly_turn {mu a n : ℝ} (ha : 0 < a) (hn : 0 < n) (hmu : mu = n * n * (a * a * a)) {I : Set ℝ}
    (hI : I.OrdConnected) {p v : ℝ → Vec3} (h : TwoBody mu I (fun t => (p t).toE) (fun t => (v t).toE))
    (h0 : ∀ t ∈ I, p t ≠ ⟨0, 0, 0⟩)
    (hen : ∀ t ∈ I, (v t).magnitude ^ 2 / 2 - mu / (p t).magnitude = -mu / (2 * a)) {t t0 : ℝ} (ht : t ∈ I)
    (ht0 : t0 ∈ I) {x y : ℝ → ℝ} (hx : x = fun t => 1 - (p t).magnitude / a)
    (hy : y = fun t => (p t).dot (v t) / (n * (a * a))) :
    x t = x t0 * cos (n * (t - t0) + (y t - y t0)) - y t0 * sin (n * (t - t0) + (y t - y t0)) ∧
    y t = x t0 * sin (n * (t - t0) + (y t - y t0)) + y t0 * cos (n * (t - t0) + (y t - y t0)) := by
  have hpos : ∀ t ∈ I, 0 < (p t).magnitude := fun t ht => Vec3.magnitude_pos.mpr (h0 t ht)
  have hdx : ∀ t ∈ I, HasDerivAt x (-(n * a / (p t).magnitude) * y t) t := by
    intro t ht
    have d := ((twoBody_vderiv h ht).1.magnitude (h0 t ht)).div_const a |>.const_sub 1
    have := hpos t ht
    rw [hx, hy]
    refine d.congr_deriv ?_
    field_simp
  have hdy : ∀ t ∈ I, HasDerivAt y (n * a / (p t).magnitude * x t) t := by
    intro t ht
    obtain ⟨h1, h2⟩ := twoBody_vderiv h ht
    have d := (h1.dot h2).div_const (n * (a * a))
    have hp := hpos t ht
    rw [hy]
    refine d.congr_deriv ?_
    have hv := hen t ht
    rw [Vec3.dot_scaled_right, ← Vec3.magnitude_sq_dot, ← Vec3.magnitude_sq_dot]
    obtain ⟨m, hm⟩ : ∃ m, m = (p t).magnitude := ⟨_, rfl⟩
    obtain ⟨w, hw⟩ : ∃ w, w = (v t).magnitude := ⟨_, rfl⟩
    rw [← hm, ← hw] at hv
    rw [← hm] at hp
    rw [← hm, ← hw]
    have hw2 : w ^ 2 = 2 * mu / m - mu / a := by
      have : -mu / (2 * a) = -(mu / a) / 2 := by ring
      rw [this] at hv
      have e2 : 2 * mu / m = 2 * (mu / m) := by ring
      rw [e2]; linarith
    rw [hw2, hmu]
    have hxt : x t = 1 - m / a := by rw [hx, hm]
    rw [hxt]
    field_simp
    ring
  have hth : ∀ t ∈ I, HasDerivAt (fun t => n * t + y t) (n * a / (p t).magnitude) t := by
    intro t ht
    have d := ((hasDerivAt_id t).const_mul n).add (hdy t ht)
    have := hpos t ht
    refine d.congr_deriv ?_
    rw [hx]; field_simp; ring
  have := turn_const hI hdx hdy hth ht ht0
  rw [show n * t + y t - (n * t0 + y t0) = n * (t - t0) + (y t - y t0) by ring] at this
  exact this

end Openspace
