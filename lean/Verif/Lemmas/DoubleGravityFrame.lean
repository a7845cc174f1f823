import Verif.Lemmas.DoubleForces
import Verif.Lemmas.DoubleGravityField
import Verif.Props.DoubleEarth
import Verif.Props.Forces

/-! # The geopotential acceleration in double precision at a rounded position -/

namespace Openspace.F64

open Real Spec

/-- ITRF to GCRF stretches differences by the nutation matrix only -/
theorem toGcrf_distance (t : Epoch) {a b p q : Vec3} (h1 : PositionConvert.itrfToGcrf a t = .ok p)
    (h2 : PositionConvert.itrfToGcrf b t = .ok q) : (p.minus q).magnitude ≤ (1 + 5.5e-9) * (a.minus b).magnitude := by
  obtain ⟨m, hm, hr⟩ := rotation_isRotation t
  refine itrfToGcrf_magnitude_le t (a := a.minus b) ?_
  simp only [PositionConvert.itrfToGcrf, PositionConvert.itrfToMod, PositionConvert.itrfToTod, hm, ok_bind, pure_eq_ok,
    Except.ok.injEq] at h1 h2 ⊢
  rw [← h1, ← h2, Mat3.mulVec_minus, Mat3.mulVec_minus, Mat3.mulVec_minus]

/-- the error of the acceleration at a position `p'` near `p`, for conversions of relative error `f` -/
theorem gravity_error {lib : Libm} {tan : ℝ → ℝ} (hlib : Spec.Accurate lib) (hatan : Spec.Atan2Accurate lib)
    (hpow : Spec.PowAccurate lib) (htan : Spec.TanAccurate tan) {e f ε c : ℝ} {p' p q : Vec3} {s : GCRF}
    (hsp : s.position = p) (hse : s.epoch = ⟨e⟩)
    (hi : ∀ p, ∃ q' q, gcrfToItrf lib p e = .ok q' ∧ PositionConvert.gcrfToItrf p ⟨e⟩ = .ok q ∧
      (q'.minus q).magnitude ≤ f * p.magnitude)
    (hg : ∀ q, ∃ p' p, itrfToGcrf lib q e = .ok p' ∧ PositionConvert.itrfToGcrf q ⟨e⟩ = .ok p ∧
      (p'.minus p).magnitude ≤ f * q.magnitude)
    (hf : 1e-10 ≤ f) (hε : 0 ≤ ε) (hp : (p'.minus p).magnitude ≤ ε * p.magnitude) (h5 : 5000 ≤ p.magnitude)
    (hq : PositionConvert.gcrfToItrf p ⟨e⟩ = .ok q) (c0 : 0 < c) (hc : c * q.magnitude ≤ axis q)
    (hs : 1.001 * (f + ε) ≤ 1e-5 * c) :
    ∃ a' a, accelerationFromGravity lib tan p' e = .ok a' ∧ s.accelerationFromGravity = .ok a ∧
      (a'.minus a).magnitude ≤ 0.48 * (f + ε) / c * (Earth.MU / p.magnitude ^ 2) := by
  have hu := u_pos
  have hu' := u_tiny
  have hpm : 0 < p.magnitude := by linarith
  obtain ⟨m1, m2⟩ := gcrfToItrf_magnitude _ hq
  have hqm : 0 < q.magnitude := by linarith
  have hax : axis q ≤ q.magnitude := axis_le q
  have c1 : c ≤ 1 := by nlinarith
  have hη : ErrUnit (1.001 * (f + ε)) := ⟨by norm_num at hf hu' ⊢; linarith, by norm_num at hs ⊢; linarith⟩
  have hε' : ε ≤ 1e-5 := by norm_num at hs hf ⊢; linarith
  have hf' : f ≤ 1e-5 := by norm_num at hs hf ⊢; linarith
  have hax0 : 0 < axis q := lt_of_lt_of_le (by positivity) hc
  obtain ⟨θ, hθe⟩ : ∃ θ, θ = 1.001 * (f + ε) * q.magnitude / axis q := ⟨_, rfl⟩
  have hθ1 : 1.001 * (f + ε) ≤ θ := by
    rw [hθe, le_div_iff₀ hax0]
    have : 0 ≤ 1.001 * (f + ε) := by norm_num at hf ⊢; linarith
    gcongr
  have hθ2 : θ ≤ 1.001 * (f + ε) / c := by
    rw [hθe, div_le_div_iff₀ hax0 c0]
    have : 0 ≤ 1.001 * (f + ε) := by norm_num at hf ⊢; linarith
    nlinarith
  have hθ3 : 1.001 * (f + ε) / c ≤ 1e-5 := by rwa [div_le_iff₀ c0]
  have hθ : ErrUnit θ := ⟨hη.1.trans (by gcongr), hθ2.trans hθ3⟩
  -- the body-fixed position
  obtain ⟨q', q0, b1, b2, b3⟩ := hi p'
  have b4 := (C77_distance ⟨e⟩ b2 hq).2
  have b5 : p'.magnitude ≤ (1 + ε) * p.magnitude := by
    have := magnitude_le_of_minus p' p
    linarith
  have b6 : (q'.minus q).magnitude ≤ 1.001 * (f + ε) * q.magnitude := by
    have := minus_triangle q' q0 q
    have k1 : f * p'.magnitude ≤ f * (1.00001 * p.magnitude) := by
      have : 0 ≤ f := by norm_num at hf ⊢; linarith
      have : (1 + ε) * p.magnitude ≤ 1.00001 * p.magnitude := by
        gcongr; norm_num at hε' ⊢; linarith
      gcongr; linarith
    have k2 : (1 + 5.5e-9) * (p'.minus p).magnitude ≤ (1 + 5.5e-9) * (ε * p.magnitude) := by gcongr
    have k3 : 1.001 * (f + ε) * p.magnitude ≤ 1.001 * (f + ε) * q.magnitude := by
      have : 0 ≤ 1.001 * (f + ε) := by norm_num at hf ⊢; linarith
      gcongr
    have k4 : 0 ≤ f * p.magnitude := mul_nonneg (by norm_num at hf ⊢; linarith) hpm.le
    have k5 : 0 ≤ ε * p.magnitude := by positivity
    norm_num at k1 k2 k3 ⊢
    linarith
  have b7 : |magnitude p' - p.magnitude| ≤ 1.001 * (f + ε) * p.magnitude := by
    have k1 : |magnitude p' - p'.magnitude| ≤ 4.2 * u * |p'.magnitude| := magnitude_near p'
    have k0 := p'.magnitude_nonneg
    have k2 := magnitude_sub_le p' p
    have k3 := abs_sub_le (magnitude p') p'.magnitude p.magnitude
    have k4 : 4.2 * u * |p'.magnitude| ≤ 1e-14 * p.magnitude := by
      rw [abs_of_nonneg p'.magnitude_nonneg]
      have : p'.magnitude ≤ 1.00001 * p.magnitude := by
        refine b5.trans ?_
        gcongr; norm_num at hε' ⊢; linarith
      have k : 4.2 * u ≤ 1e-15 := by norm_num at hu' ⊢; linarith
      calc _ ≤ 1e-15 * (1.00001 * p.magnitude) := by gcongr
        _ ≤ _ := by norm_num; linarith
    have k5 : 1e-10 * p.magnitude ≤ f * p.magnitude := by gcongr
    have k6 : 0 ≤ ε * p.magnitude := by positivity
    norm_num at k1 k4 k5 ⊢
    linarith
  obtain ⟨g', g, g1, g2, g3⟩ := field_ts (lib := lib) (tan := tan) hlib hatan hpow htan hη hθ b6
    (by rw [hθe]; field_simp) h5 m1 m2 b7
  have hxy : 0 < q.x * q.x + q.y * q.y := Real.sqrt_pos.mp hax0
  obtain ⟨g0, g4, g5⟩ := gravityItrf_bound q h5 hxy m1 m2
  obtain rfl : g0 = g := by rw [g2, Except.ok.injEq] at g4; exact g4.symm
  obtain ⟨a', b, d1, d2, d3⟩ := hg g'
  obtain ⟨a, d4⟩ := itrfToGcrf_ok g0 ⟨e⟩
  refine ⟨a', a, by simp only [accelerationFromGravity, b1, g1, d1, ok_bind], ?_, ?_⟩
  · simp only [GCRF.accelerationFromGravity, hsp, hse, hq, g2, d4, ok_bind]
  have d5 := toGcrf_distance ⟨e⟩ d2 d4
  have d6 := minus_triangle a' b a
  have d7 := magnitude_le_of_minus g' g0
  obtain ⟨G, hG⟩ : ∃ G, G = Earth.MU / p.magnitude ^ 2 := ⟨_, rfl⟩
  have G0 : 0 ≤ G := by rw [hG]; exact div_nonneg (by norm_num [Earth.MU]) (by positivity)
  rw [← hG] at g3 g5 ⊢
  have f0 : 0 ≤ f := by norm_num at hf ⊢; linarith
  have e1 : θ * G ≤ 1.001 * ((f + ε) / c) * G := by
    have : θ ≤ 1.001 * ((f + ε) / c) := by rw [← mul_div_assoc]; exact hθ2
    gcongr
  have e2 : θ * G ≤ 1e-5 * G := by gcongr; exact hθ.hi
  have e3 : f * g'.magnitude ≤ f * (0.0096 * G) := by
    gcongr
    norm_num at g3 g5 e2 ⊢
    linarith
  have e4 : f ≤ (f + ε) / c := by
    rw [le_div_iff₀ c0]
    nlinarith
  have e6 : 0 ≤ f * G := by positivity
  have e5 : f * G ≤ (f + ε) / c * G := by gcongr
  rw [mul_div_assoc]
  norm_num at d5 g3 e1 e3 ⊢
  linarith

end Openspace.F64
