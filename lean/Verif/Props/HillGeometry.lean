import Verif.Props.Hill
import Mathlib.Analysis.SpecialFunctions.Trigonometric.Bounds
import Mathlib.Analysis.Real.Pi.Bounds

/-!
# C173: the shape of relative motion, and how to reach a position
-/

namespace Openspace

open Real

namespace HillGeometry

theorem abs_y_le (v : Vec3) : |v.y| ≤ v.magnitude :=
  Real.abs_le_sqrt (by nlinarith [mul_self_nonneg v.x, mul_self_nonneg v.z])

/-- a relative propagator built from position and velocity, after `t` seconds -/
theorem start (ep : Epoch) (r v : Vec3) {a n : ℝ} (ha : 0 < a) (hn : n = √(Earth.MU / a ^ 3)) :
    0 < n ∧ ∃ p, Hill.new (State.new ep r v) a = .ok p ∧ ∀ t, ∃ q, Hill.stepBySeconds t p = (.ok (), q) ∧
      q.state = State.fromStateVector ((Hill.phi n t).mulVec ⟨r.x, r.y, r.z, v.x, v.y, v.z⟩) := by
  obtain ⟨p, h, hp, hk, -, hs⟩ := C48_mean_motion (State.new ep r v) ha
  have e : n = p.n := by
    rw [hn, ← hk, mul_div_assoc, div_self (by positivity), mul_one, Real.sqrt_sq hp.le]
  refine ⟨by rw [e]; exact hp, p, h, fun t => ⟨_, Hill.stepBySeconds_ok hp.ne' t, ?_⟩⟩
  rw [e, hs]
  rfl

/-- within one revolution the in-plane velocity has an invertible effect on the in-plane position -/
theorem determinant {τ : ℝ} (h0 : 0 < τ) (h1 : τ < 2 * π) :
    0 < sin τ * (4 * sin τ - 3 * τ) + 4 * (1 - cos τ) ^ 2 := by
  obtain ⟨h, hh⟩ : ∃ h, h = τ / 2 := ⟨_, rfl⟩
  have e : τ = 2 * h := by rw [hh]; ring
  have p0 : 0 < h := by linarith
  have p1 : h < π := by linarith
  have sp : 0 < sin h := Real.sin_pos_of_pos_of_lt_pi p0 p1
  rw [e, sin_two_mul, cos_two_mul']
  have key : 0 < 4 * sin h - 3 * h * cos h := by
    by_cases hc : cos h ≤ 0
    · nlinarith
    · rw [not_le] at hc
      have hlt : h < π / 2 := by
        by_contra hge
        rw [not_lt] at hge
        have := Real.cos_nonpos_of_pi_div_two_le_of_le hge (by linarith)
        linarith
      have h2 := Real.lt_tan p0 hlt
      rw [Real.tan_eq_sin_div_cos, lt_div_iff₀ hc] at h2
      linarith
  have sc := sin_sq_add_cos_sq h
  have e2 : 2 * sin h * cos h * (4 * (2 * sin h * cos h) - 3 * (2 * h)) + 4 * (1 - (cos h ^ 2 - sin h ^ 2)) ^ 2 =
      4 * sin h * (4 * sin h - 3 * h * cos h) := by
    have : 1 - (cos h ^ 2 - sin h ^ 2) = 2 * sin h ^ 2 := by linarith
    rw [this]
    linear_combination 16 * sin h ^ 2 * sc
  rw [e2]
  positivity

end HillGeometry

/-- **C173**: in the orbital plane the relative position stays on an ellipse twice as long as high, whose centre drifts
along the track at a constant rate; across the plane it oscillates with a constant amplitude -/
theorem C173_ellipse (ep : Epoch) (r v : Vec3) (a n xc yc : ℝ) (ha : 0 < a) (hn : n = √(Earth.MU / a ^ 3))
    (hxc : xc = 4 * r.x + 2 * v.y / n) (hyc : yc = r.y - 2 * v.x / n) :
    ∃ p, Hill.new (State.new ep r v) a = .ok p ∧ ∀ t, ∃ q, Hill.stepBySeconds t p = (.ok (), q) ∧
      (q.state.position.x - xc) ^ 2 + ((q.state.position.y - (yc - 3 / 2 * n * xc * t)) / 2) ^ 2 =
        (r.x - xc) ^ 2 + ((r.y - yc) / 2) ^ 2 ∧
      q.state.position.z ^ 2 + (q.state.velocity.z / n) ^ 2 = r.z ^ 2 + (v.z / n) ^ 2 := by
  obtain ⟨n0, p, hp, h⟩ := HillGeometry.start ep r v ha hn
  refine ⟨p, hp, fun t => ?_⟩
  obtain ⟨q, hq, hs⟩ := h t
  have hn' : n ≠ 0 := n0.ne'
  have sc := sin_sq_add_cos_sq (n * t)
  refine ⟨q, hq, ?_, ?_⟩
  · have hx : q.state.position.x - xc = -(3 * r.x + 2 * v.y / n) * cos (n * t) + v.x / n * sin (n * t) := by
      rw [hs, hxc]
      simp only [State.fromStateVector, State.new, Vec3.copy, Hill.phi, Mat6.mulVec, Vec6.dot]
      field_simp; ring
    have hy : (q.state.position.y - (yc - 3 / 2 * n * xc * t)) / 2 =
        (3 * r.x + 2 * v.y / n) * sin (n * t) + v.x / n * cos (n * t) := by
      rw [hs, hyc, hxc]
      simp only [State.fromStateVector, State.new, Vec3.copy, Hill.phi, Mat6.mulVec, Vec6.dot]
      field_simp; ring
    rw [hx, hy, hxc, hyc]
    linear_combination ((3 * r.x + 2 * v.y / n) ^ 2 + (v.x / n) ^ 2) * sc
  · have hz : q.state.position.z = r.z * cos (n * t) + v.z / n * sin (n * t) := by
      rw [hs]
      simp only [State.fromStateVector, State.new, Vec3.copy, Hill.phi, Mat6.mulVec, Vec6.dot]
      field_simp; ring
    have hv : q.state.velocity.z / n = -r.z * sin (n * t) + v.z / n * cos (n * t) := by
      rw [hs]
      simp only [State.fromStateVector, State.new, Vec3.copy, Hill.phi, Mat6.mulVec, Vec6.dot]
      field_simp; ring
    rw [hz, hv]
    linear_combination (r.z ^ 2 + (v.z / n) ^ 2) * sc

/-- **C173**: relative motion stays bounded exactly when it does not drift -/
theorem C173_bounded (ep : Epoch) (r v : Vec3) (a n : ℝ) (ha : 0 < a) (hn : n = √(Earth.MU / a ^ 3)) :
    ∃ p, Hill.new (State.new ep r v) a = .ok p ∧
      ((∃ B, ∀ t q, Hill.stepBySeconds t p = (.ok (), q) → q.state.position.magnitude ≤ B) ↔ v.y = -2 * n * r.x) := by
  obtain ⟨p, hp, h⟩ := C173_ellipse ep r v a n _ _ ha hn rfl rfl
  obtain ⟨n0, -⟩ := HillGeometry.start ep r v ha hn
  obtain ⟨xc, hxc⟩ : ∃ xc, xc = 4 * r.x + 2 * v.y / n := ⟨_, rfl⟩
  obtain ⟨yc, hyc⟩ : ∃ yc, yc = r.y - 2 * v.x / n := ⟨_, rfl⟩
  obtain ⟨A, hA⟩ : ∃ A, A = (r.x - xc) ^ 2 + ((r.y - yc) / 2) ^ 2 := ⟨_, rfl⟩
  obtain ⟨C, hC⟩ : ∃ C, C = r.z ^ 2 + (v.z / n) ^ 2 := ⟨_, rfl⟩
  rw [← hxc, ← hyc, ← hA, ← hC] at h
  have hA0 : 0 ≤ A := by rw [hA]; positivity
  have hC0 : 0 ≤ C := by rw [hC]; positivity
  have drift : v.y = -2 * n * r.x ↔ xc = 0 := by
    rw [hxc]
    constructor
    · intro h; rw [h]; field_simp; ring
    · intro h; field_simp at h; linarith
  refine ⟨p, hp, ?_⟩
  rw [drift]
  have near : ∀ {x : ℝ}, (x / 2) ^ 2 ≤ A → |x| ≤ 2 * √A := fun {x} hx => by
    have := Real.abs_le_sqrt hx
    rw [abs_div, abs_two] at this
    linarith
  constructor
  · rintro ⟨B, hB⟩
    by_contra hne
    -- after a long time the centre of the ellipse is far away
    obtain ⟨t, ht⟩ : ∃ t, t = (B + 2 * √A + |yc| + 1) / (3 / 2 * n * xc) := ⟨_, rfl⟩
    obtain ⟨q, hq, h1, -⟩ := h t
    have k1 := hB t q hq
    have k2 := HillGeometry.abs_y_le q.state.position
    have k3 : |q.state.position.y - (yc - 3 / 2 * n * xc * t)| ≤ 2 * √A := near (by
      rw [← h1]; linarith [sq_nonneg (q.state.position.x - xc)])
    have k4 : 3 / 2 * n * xc * t = B + 2 * √A + |yc| + 1 := by
      rw [ht, mul_div_cancel₀]
      exact mul_ne_zero (by positivity) hne
    rw [k4, abs_le] at k3
    have k5 := neg_abs_le q.state.position.y
    have k6 := le_abs_self yc
    linarith [k3.2]
  · intro h0
    refine ⟨√A + (|yc| + 2 * √A) + √C, fun t q hq => ?_⟩
    obtain ⟨q', hq', h1, h2⟩ := h t
    rw [hq] at hq'
    cases hq'
    rw [h0] at h1
    have kx : |q.state.position.x| ≤ √A := Real.abs_le_sqrt (by
      rw [← h1, sub_zero]; linarith [sq_nonneg ((q.state.position.y - (yc - 3 / 2 * n * 0 * t)) / 2)])
    have ky : |q.state.position.y - (yc - 3 / 2 * n * 0 * t)| ≤ 2 * √A := near (by
      rw [← h1]; linarith [sq_nonneg (q.state.position.x - 0)])
    have kz : |q.state.position.z| ≤ √C := Real.abs_le_sqrt (by
      rw [← h2]; linarith [sq_nonneg (q.state.velocity.z / n)])
    have ky' : |q.state.position.y| ≤ |yc| + 2 * √A := by
      have := abs_add_le (q.state.position.y - (yc - 3 / 2 * n * 0 * t)) (yc - 3 / 2 * n * 0 * t)
      rw [sub_add_cancel, mul_zero, zero_mul, sub_zero] at this
      rw [mul_zero, zero_mul, sub_zero] at ky
      linarith
    have s1 := abs_nonneg q.state.position.x
    have s2 := abs_nonneg q.state.position.y
    have s3 := abs_nonneg q.state.position.z
    refine (Real.sqrt_le_iff.mpr ⟨by linarith, ?_⟩ :
      q.state.position.magnitude ≤ |q.state.position.x| + |q.state.position.y| + |q.state.position.z|).trans (by linarith)
    nlinarith [abs_mul_abs_self q.state.position.x, abs_mul_abs_self q.state.position.y,
      abs_mul_abs_self q.state.position.z, mul_nonneg s1 s2, mul_nonneg s1 s3, mul_nonneg s2 s3]

/-- **C173**, passive safety: without drift and with the centre of the ellipse ahead or behind by more than its half
length, the origin is never approached closer than the difference -/
theorem C173_safe (ep : Epoch) (r v : Vec3) (a n yc A : ℝ) (ha : 0 < a) (hn : n = √(Earth.MU / a ^ 3))
    (hdrift : v.y = -2 * n * r.x) (hyc : yc = r.y - 2 * v.x / n) (hA : A = √(r.x ^ 2 + (v.x / n) ^ 2)) :
    ∃ p, Hill.new (State.new ep r v) a = .ok p ∧ ∀ t, ∃ q, Hill.stepBySeconds t p = (.ok (), q) ∧
      |yc| - 2 * A ≤ q.state.position.magnitude ∧ |q.state.position.x| ≤ A := by
  obtain ⟨p, hp, h⟩ := C173_ellipse ep r v a n _ _ ha hn rfl rfl
  obtain ⟨n0, -⟩ := HillGeometry.start ep r v ha hn
  refine ⟨p, hp, fun t => ?_⟩
  obtain ⟨q, hq, h1, -⟩ := h t
  have e0 : 4 * r.x + 2 * v.y / n = 0 := by rw [hdrift]; field_simp; ring
  have e1 : (r.x - 0) ^ 2 + ((r.y - (r.y - 2 * v.x / n)) / 2) ^ 2 = r.x ^ 2 + (v.x / n) ^ 2 := by ring
  rw [e0, e1, ← hyc, mul_zero, zero_mul, sub_zero, sub_zero] at h1
  have kx : |q.state.position.x| ≤ A := by
    rw [hA]
    exact Real.abs_le_sqrt (by rw [← h1]; linarith [sq_nonneg ((q.state.position.y - yc) / 2)])
  have ky : |(q.state.position.y - yc) / 2| ≤ A := by
    rw [hA]
    exact Real.abs_le_sqrt (by rw [← h1]; linarith [sq_nonneg q.state.position.x])
  refine ⟨q, hq, ?_, kx⟩
  rw [abs_div, abs_two, div_le_iff₀ two_pos] at ky
  have k1 := HillGeometry.abs_y_le q.state.position
  have k2 := abs_sub_abs_le_abs_sub yc q.state.position.y
  rw [abs_sub_comm] at k2
  linarith

/-- **C173**, targeting: for a flight of less than one revolution that is not a half, every position is reached from every
position with exactly one velocity -/
theorem C173_targeting (ep : Epoch) (r g : Vec3) (a n t : ℝ) (ha : 0 < a) (hn : n = √(Earth.MU / a ^ 3)) (h0 : 0 < n * t)
    (h1 : n * t < 2 * π) (hπ : n * t ≠ π) :
    ∃! v : Vec3, ∃ p q, Hill.new (State.new ep r v) a = .ok p ∧ Hill.stepBySeconds t p = (.ok (), q) ∧
      q.state.position = g := by
  have n0 := (HillGeometry.start ep r r ha hn).1
  have hn' : n ≠ 0 := n0.ne'
  have key : ∀ v : Vec3, (∃ p q, Hill.new (State.new ep r v) a = .ok p ∧ Hill.stepBySeconds t p = (.ok (), q) ∧
      q.state.position = g) ↔
      ((4 - 3 * cos (n * t)) * r.x * n + sin (n * t) * v.x + 2 * (1 - cos (n * t)) * v.y = g.x * n ∧
       6 * (sin (n * t) - n * t) * r.x * n + r.y * n - 2 * (1 - cos (n * t)) * v.x +
         (4 * sin (n * t) - 3 * (n * t)) * v.y = g.y * n ∧
       cos (n * t) * r.z * n + sin (n * t) * v.z = g.z * n) := by
    intro v
    obtain ⟨-, p, hp, h⟩ := HillGeometry.start ep r v ha hn
    obtain ⟨q, hq, hs⟩ := h t
    have hpos : q.state.position = ⟨(4 - 3 * cos (n * t)) * r.x + (sin (n * t) * v.x + 2 * (1 - cos (n * t)) * v.y) / n,
        6 * (sin (n * t) - n * t) * r.x + r.y + (-2 * (1 - cos (n * t)) * v.x +
          (4 * sin (n * t) - 3 * (n * t)) * v.y) / n, cos (n * t) * r.z + sin (n * t) * v.z / n⟩ := by
      rw [hs]
      simp only [State.fromStateVector, State.new, Vec3.copy, Hill.phi, Mat6.mulVec, Vec6.dot]
      ext <;> ring
    constructor
    · rintro ⟨p', q', hp', hq', hg⟩
      cases hp.symm.trans hp'
      cases hq.symm.trans hq'
      rw [hpos] at hg
      rw [← hg]
      refine ⟨?_, ?_, ?_⟩ <;> field_simp <;> ring
    · rintro ⟨k1, k2, k3⟩
      refine ⟨p, q, hp, hq, ?_⟩
      rw [hpos]
      ext
      · simp only
        field_simp
        linarith
      · simp only
        field_simp
        linarith
      · simp only
        field_simp
        linarith
  obtain ⟨D, hD⟩ : ∃ D, D = sin (n * t) * (4 * sin (n * t) - 3 * (n * t)) + 4 * (1 - cos (n * t)) ^ 2 := ⟨_, rfl⟩
  have D0 : D ≠ 0 := by rw [hD]; exact (HillGeometry.determinant h0 h1).ne'
  have s0 : sin (n * t) ≠ 0 := by
    intro hs
    rcases lt_or_gt_of_ne hπ with hlt | hgt
    · exact (Real.sin_pos_of_pos_of_lt_pi h0 hlt).ne' hs
    · have := Real.sin_pos_of_pos_of_lt_pi (x := n * t - π) (by linarith) (by linarith)
      rw [Real.sin_sub_pi, hs] at this
      linarith
  obtain ⟨s, hs⟩ : ∃ s, s = sin (n * t) := ⟨_, rfl⟩
  obtain ⟨c, hc⟩ : ∃ c, c = cos (n * t) := ⟨_, rfl⟩
  obtain ⟨τ, hτ⟩ : ∃ τ, τ = n * t := ⟨_, rfl⟩
  rw [← hs, ← hc, ← hτ] at hD
  rw [← hs] at s0
  simp only [key]
  rw [← hs, ← hc, ← hτ]
  obtain ⟨X, hX⟩ : ∃ X, X = g.x * n - (4 - 3 * c) * r.x * n := ⟨_, rfl⟩
  obtain ⟨Y, hY⟩ : ∃ Y, Y = g.y * n - 6 * (s - τ) * r.x * n - r.y * n := ⟨_, rfl⟩
  refine ⟨⟨(X * (4 * s - 3 * τ) - 2 * (1 - c) * Y) / D, (s * Y + 2 * (1 - c) * X) / D, (g.z * n - c * r.z * n) / s⟩,
    ⟨?_, ?_, ?_⟩, ?_⟩
  · have : s * ((X * (4 * s - 3 * τ) - 2 * (1 - c) * Y) / D) + 2 * (1 - c) * ((s * Y + 2 * (1 - c) * X) / D) = X := by
      rw [mul_div_assoc', mul_div_assoc', ← add_div, div_eq_iff D0, hD]; ring
    simp only
    linarith
  · have : -2 * (1 - c) * ((X * (4 * s - 3 * τ) - 2 * (1 - c) * Y) / D) +
        (4 * s - 3 * τ) * ((s * Y + 2 * (1 - c) * X) / D) = Y := by
      rw [mul_div_assoc', mul_div_assoc', ← add_div, div_eq_iff D0, hD]; ring
    simp only
    linarith
  · simp only
    field_simp
    ring
  · rintro v ⟨k1, k2, k3⟩
    ext
    · simp only
      rw [eq_div_iff D0, hD, hX, hY, ← k1, ← k2]
      ring
    · simp only
      rw [eq_div_iff D0, hD, hX, hY, ← k1, ← k2]
      ring
    · simp only
      rw [eq_div_iff s0, ← k3]
      ring

/-- after half a revolution, though, no velocity changes where the orbital plane of the target is crossed -/
theorem C173_half (ep : Epoch) (r v : Vec3) (a n t : ℝ) (ha : 0 < a) (hn : n = √(Earth.MU / a ^ 3)) (ht : n * t = π) :
    ∃ p q, Hill.new (State.new ep r v) a = .ok p ∧ Hill.stepBySeconds t p = (.ok (), q) ∧ q.state.position.z = -r.z := by
  obtain ⟨-, p, hp, h⟩ := HillGeometry.start ep r v ha hn
  obtain ⟨q, hq, hs⟩ := h t
  refine ⟨p, q, hp, hq, ?_⟩
  rw [hs]
  simp [State.fromStateVector, State.new, Vec3.copy, Hill.phi, Mat6.mulVec, Vec6.dot, ht]

/-! ## a spacecraft ten kilometres ahead of a geosynchronous one, on an ellipse of two by one kilometres -/

theorem geo_rate : 7e-5 < √(Earth.MU / 42164 ^ 3) ∧ √(Earth.MU / 42164 ^ 3) < 8e-5 := by
  constructor
  · exact Real.lt_sqrt_of_sq_lt (by norm_num [Earth.MU])
  · rw [Real.sqrt_lt' (by norm_num)]; norm_num [Earth.MU]

example (ep : Epoch) (n : ℝ) (hn : n = √(Earth.MU / 42164 ^ 3)) :
    ∃ p, Hill.new (State.new ep ⟨1, 10, 0⟩ ⟨0, -2 * n, 0⟩) 42164 = .ok p ∧
      ∀ t, ∃ q, Hill.stepBySeconds t p = (.ok (), q) ∧ 8 ≤ q.state.position.magnitude := by
  obtain ⟨p, hp, h⟩ := C173_safe ep ⟨1, 10, 0⟩ ⟨0, -2 * n, 0⟩ 42164 n 10 1 (by norm_num) hn (by simp) (by simp) (by simp)
  refine ⟨p, hp, fun t => ?_⟩
  obtain ⟨q, hq, h1, -⟩ := h t
  refine ⟨q, hq, ?_⟩
  norm_num at h1
  linarith

/-- and there is exactly one velocity with which it meets the origin after an hour -/
example (ep : Epoch) : ∃! v : Vec3, ∃ p q, Hill.new (State.new ep ⟨1, 10, 0.5⟩ v) 42164 = .ok p ∧
    Hill.stepBySeconds 3600 p = (.ok (), q) ∧ q.state.position = ⟨0, 0, 0⟩ := by
  obtain ⟨g1, g2⟩ := geo_rate
  have := Real.pi_gt_three
  exact C173_targeting ep _ _ 42164 _ 3600 (by norm_num) rfl (by linarith) (by linarith) (by intro h; linarith)

end Openspace
