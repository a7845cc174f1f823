import Verif.Model.DoubleNoise
import Verif.Props.DoubleEarth
import Verif.Props.DoubleAngles
import Verif.Lemmas.Rotation
import Verif.Lemmas.DoubleGeodetic

/-! # Rotations about any axis, and noise, in double precision -/

namespace Openspace.F64

open Real

/-- every component has a relative error of at most `k` units -/
structure Cw (v' v : Vec3) (k : ℝ) : Prop where
  hx : Near v'.x v.x k
  hy : Near v'.y v.y k
  hz : Near v'.z v.z k

theorem Cw.norm {v' v : Vec3} {k : ℝ} (h : Cw v' v k) (hk : 0 ≤ k) : (v'.minus v).magnitude ≤ k * u * v.magnitude :=
  components_le (mul_nonneg hk u_pos.le) h.hx h.hy h.hz

theorem Cw.size {v' v : Vec3} {k : ℝ} (h : Cw v' v k) (hk : 0 ≤ k) : Near v'.magnitude v.magnitude k := by
  have h1 := h.norm hk
  have h2 := magnitude_sub_le v' v
  rw [Near, abs_of_nonneg v.magnitude_nonneg]
  exact h2.trans h1

theorem Near.ne_zero {y x k : ℝ} (h : Near y x k) (hk : 0 ≤ k) (hk' : k ≤ 1e5) (hx : x ≠ 0) : y ≠ 0 := (near_inv' h hx hk hk').1

theorem Cw.ne {v' v : Vec3} {k : ℝ} (h : Cw v' v k) (hk : 0 ≤ k) (hk' : k ≤ 1e5) (hv : v ≠ ⟨0, 0, 0⟩) : v' ≠ ⟨0, 0, 0⟩ := by
  intro e
  have := (h.size hk).ne_zero hk hk' (Vec3.magnitude_ne_zero.mpr hv)
  rw [e] at this
  exact this (Vec3.magnitude_eq_zero.mpr rfl)

/-- the entries of a rotation matrix made of an inexact axis, cosine and sine -/
theorem rotationEntries {n' n : Vec3} {c' c s' s e f : ℝ} (hn : ScV n' n e 1) (hc : Sc c' c f 1) (hs : Sc s' s f 1)
    (he : 0 ≤ e) (he' : e ≤ 5e3) (hf : 0 ≤ f) (hf' : f ≤ 5e3) (hm : ∀ v : Vec3, ((Vec3.rotUM n c s).mulVec v).magnitude = v.magnitude) :
    ScM ⟨⟨rnd (c' + rnd (rnd (n'.x * n'.x) * rnd (1 - c'))), rnd (rnd (rnd (n'.x * n'.y) * rnd (1 - c')) - rnd (n'.z * s')),
        rnd (rnd (rnd (n'.x * n'.z) * rnd (1 - c')) + rnd (n'.y * s'))⟩,
      ⟨rnd (rnd (rnd (n'.y * n'.x) * rnd (1 - c')) + rnd (n'.z * s')), rnd (c' + rnd (rnd (n'.y * n'.y) * rnd (1 - c'))),
        rnd (rnd (rnd (n'.y * n'.z) * rnd (1 - c')) - rnd (n'.x * s'))⟩,
      ⟨rnd (rnd (rnd (n'.z * n'.x) * rnd (1 - c')) - rnd (n'.y * s')), rnd (rnd (rnd (n'.z * n'.y) * rnd (1 - c')) + rnd (n'.x * s')),
        rnd (c' + rnd (rnd (n'.z * n'.z) * rnd (1 - c')))⟩⟩ (Vec3.rotUM n c s) (6 * e + 3 * f + 12.5) 1 := by
  have one : Sc (1 : ℝ) 1 f 1 := (Sc.exact (by norm_num)).mono hf
  have hd := (one.sub hc hf (by linarith))
  have two : ∀ {a' a b' b : ℝ}, Sc a' a e 1 → Sc b' b e 1 →
      Sc (rnd (rnd (a' * b') * rnd (1 - c'))) (a * b * (1 - c)) (2 * e + f + 3.03) 2 := by
    intro a' a b' b ha hb
    have m1 := ha.mul hb he (by linarith) he (by linarith)
    have m2 := m1.mul hd (by linarith) (by linarith) (by linarith) (by linarith)
    exact (m2.mono (by linarith)).scale (by linarith) (by norm_num)
  have one' : ∀ {a' a : ℝ}, Sc a' a e 1 → Sc (rnd (a' * s')) (a * s) (2 * e + f + 3.03) 1 := by
    intro a' a ha
    have m1 := ha.mul hs he (by linarith) hf (by linarith)
    exact (m1.mono (by linarith)).scale (by linarith) (by norm_num)
  have hc1 : Sc c' c (2 * e + f + 3.03) 1 := hc.mono (by linarith)
  obtain ⟨x1, x2, x3⟩ := component_le ((Vec3.rotUM n c s).mulVec ⟨1, 0, 0⟩)
  obtain ⟨y1, y2, y3⟩ := component_le ((Vec3.rotUM n c s).mulVec ⟨0, 1, 0⟩)
  obtain ⟨z1, z2, z3⟩ := component_le ((Vec3.rotUM n c s).mulVec ⟨0, 0, 1⟩)
  rw [hm, Vec3.magnitude_of_dot (r := 1) (by norm_num) (by norm_num [Vec3.dot])] at x1 x2 x3 y1 y2 y3 z1 z2 z3
  simp only [Mat3.mulVec, Vec3.dot, mul_one, mul_zero, add_zero, zero_add] at x1 x2 x3 y1 y2 y3 z1 z2 z3
  have fin : ∀ {p q : ℝ}, Sc p q (2 * e + f + 3.03 + 1.001) (1 + 2) → |q| ≤ 1 → Sc p q (6 * e + 3 * f + 12.5) 1 := by
    intro p q h hq
    have h' : Sc p q (2 * e + f + 3.03 + 1.001) (3 * 1) := by norm_num at h ⊢; exact h
    exact h'.tighten hq (by linarith)
  have sw : ∀ {p q k s t : ℝ}, Sc p q k (s + t) → Sc p q k (t + s) := by intro p q k s t h; rwa [add_comm]
  have nn : 0 ≤ 2 * e + f + 3.03 := by linarith
  have nn' : 2 * e + f + 3.03 ≤ 1e5 := by linarith
  refine ⟨fin (hc1.add (two hn.hx hn.hx) nn nn') x1, fin (sw ((two hn.hx hn.hy).sub (one' hn.hz) nn nn')) y1,
    fin (sw ((two hn.hx hn.hz).add (one' hn.hy) nn nn')) z1, fin (sw ((two hn.hy hn.hx).add (one' hn.hz) nn nn')) x2,
    fin (hc1.add (two hn.hy hn.hy) nn nn') y2, fin (sw ((two hn.hy hn.hz).sub (one' hn.hx) nn nn')) z2,
    fin (sw ((two hn.hz hn.hx).sub (one' hn.hy) nn nn')) x3, fin (sw ((two hn.hz hn.hy).add (one' hn.hx) nn nn')) y3,
    fin (hc1.add (two hn.hz hn.hz) nn nn') z3⟩

theorem rotate_magnitude {axis : Vec3} (h : axis ≠ ⟨0, 0, 0⟩) (θ : ℝ) (v : Vec3) : (v.rotate axis θ).magnitude = v.magnitude := by
  have hr := Vec3.rotUM_isRotation (Vec3.unit_dot h) (Real.sin_sq_add_cos_sq θ)
  simp only [Vec3.rotate, ← Vec3.rotUM_mulVec]; exact hr.orth.magnitude_mulVec v

theorem rotate_minus (axis : Vec3) (θ : ℝ) (v w : Vec3) :
    (v.minus w).rotate axis θ = (v.rotate axis θ).minus (w.rotate axis θ) := by
  ext <;> simp only [Vec3.rotate, Vec3.rotU, Vec3.minus, Vec3.plus, Vec3.scaled, Vec3.cross, Vec3.dot] <;> ring

/-- only the direction of the axis matters -/
theorem rotate_axis {a : Vec3} {c : ℝ} (hc : 0 < c) (θ : ℝ) (v : Vec3) : v.rotate (a.scaled c) θ = v.rotate a θ := by
  unfold Vec3.rotate
  congr 1
  rw [Vec3.magnitude_scaled, abs_of_pos hc]
  by_cases h : a.magnitude = 0
  · rw [Vec3.magnitude_eq_zero] at h; subst h; ext <;> simp [Vec3.scaled]
  · ext <;> simp only [Vec3.scaled] <;> field_simp

/-- a rotation of an inexact vector about an inexact axis by an inexact angle -/
theorem rotationAboutAxis_near {lib : Libm} (hlib : Spec.Accurate lib) {v' v a' a : Vec3} {θ' θ k f : ℝ} (ha : a ≠ ⟨0, 0, 0⟩)
    (h : Cw a' a k) (hk : 0 ≤ k) (hk' : k ≤ 1000) (hf : |θ' - θ| ≤ f * u) (hf' : f ≤ 1000) :
    ∃ r, rotationAboutAxis lib v' a' θ' = .ok r ∧
      (r.minus (v.rotate a θ)).magnitude ≤ (72 * k + 18 * f + 360) * u * v'.magnitude + (v'.minus v).magnitude := by
  have hu := u_pos
  have ha' := h.ne hk (by linarith) ha
  obtain ⟨n, e1, e2⟩ := normalized_near ha'
  have pa := Vec3.magnitude_pos.mpr ha
  have pa' := Vec3.magnitude_pos.mpr ha'
  have f0 : 0 ≤ f := by
    by_contra hneg
    have := mul_neg_of_neg_of_pos (not_le.mp hneg) hu
    linarith [abs_nonneg (θ' - θ)]
  -- the axis
  have d1 := unit_diff pa' pa
  have d2 := h.norm hk
  have d3 : ((a'.scaled (1 / a'.magnitude)).minus (a.scaled (1 / a.magnitude))).magnitude ≤ 2 * k * u := by
    have : ((a'.scaled (1 / a'.magnitude)).minus (a.scaled (1 / a.magnitude))).magnitude * a.magnitude ≤
        2 * k * u * a.magnitude := by linarith
    exact le_of_mul_le_mul_right this pa
  have d4 := minus_triangle n (a'.scaled (1 / a'.magnitude)) (a.scaled (1 / a.magnitude))
  have d5 : (n.minus (a.scaled (1 / a.magnitude))).magnitude ≤ (2 * k + 6.3) * u * 1 := by linarith
  obtain ⟨w, hw⟩ : ∃ w, w = a.scaled (1 / a.magnitude) := ⟨_, rfl⟩
  have w1 : w.magnitude = 1 := by rw [hw]; exact unit_magnitude ha
  have hr := Vec3.rotUM_isRotation (Vec3.unit_dot ha) (Real.sin_sq_add_cos_sq θ)
  rw [← hw] at d5 hr
  obtain ⟨c1, c2, c3⟩ := component_le (n.minus w)
  obtain ⟨b1, b2, b3⟩ := component_le w
  rw [w1] at b1 b2 b3
  have hn : ScV n w (2 * k + 6.3) 1 := ⟨⟨c1.trans d5, b1⟩, ⟨c2.trans d5, b2⟩, ⟨c3.trans d5, b3⟩⟩
  -- the angle
  have ang : Sc θ' θ (f / (|θ| + 1)) (|θ| + 1) := by
    have h0 := abs_nonneg θ
    refine ⟨hf.trans (le_of_eq ?_), by linarith⟩
    field_simp
  have hq : f / (|θ| + 1) * (|θ| + 1) = f := by
    have h0 := abs_nonneg θ
    field_simp
  have hc := Sc.cosine hlib ang (k := 2 + f) (t := 1) (by rw [hq]; linarith) le_rfl
  have hs := Sc.sine hlib ang (k := 2 + f) (t := 1) (by rw [hq]; linarith) le_rfl
  have hM := rotationEntries hn hc hs (by linarith) (by linarith) (by linarith) (by linarith) hr.orth.magnitude_mulVec
  refine ⟨_, by simp only [rotationAboutAxis, rotationMatrix, e1, ok_bind, pure_eq_ok]; rfl, ?_⟩
  have hV := ScM.mulVec (k' := 36 * k + 9 * f + 180) (t' := v'.magnitude) hM (ScV.exact v') (by linarith) (by linarith) le_rfl (by norm_num)
    (by
      have := v'.magnitude_nonneg
      have : (6 * (2 * k + 6.3) + 3 * (2 + f) + 12.5 + 0 + 3.02) * 3 * v'.magnitude ≤ (36 * k + 9 * f + 180) * v'.magnitude := by
        gcongr; linarith
      linarith) (hr.orth.magnitude_mulVec v').le
  have hV' := hV.magnitude_le
  refine (minus_triangle _ (v'.rotate a θ) _).trans (add_le_add ?_ ?_)
  · rw [Vec3.rotUM_mulVec, hw] at hV'
    rw [Vec3.rotate]
    linarith
  · rw [← rotate_minus, rotate_magnitude ha]

theorem Near.comp {y x w k l : ℝ} (h : Near y x k) (h' : Near x w l) (hk : 0 ≤ k) (hk' : k ≤ 1e4) (hl : 0 ≤ l) (hl' : l ≤ 1e4) :
    Near y w (k + l + 0.001) := by
  have hu := u_pos
  have hu' := u_tiny
  have h1 := abs_le_of_near h'
  unfold Near at *
  have h2 := abs_add_le (y - x) (x - w)
  rw [show y - x + (x - w) = y - w by ring] at h2
  have h3 : k * u * |x| ≤ k * u * ((1 + l * u) * |w|) := by gcongr
  have h4 : k * u * (l * u * |w|) ≤ 0.001 * u * |w| := by
    have : k * (l * u) ≤ 1e4 * (1e4 * (12 / 10 ^ 17)) := by gcongr
    have : k * (l * u) ≤ 0.001 := this.trans (by norm_num)
    have : k * (l * u) * (u * |w|) ≤ 0.001 * (u * |w|) := by gcongr
    linarith
  linarith

theorem Near.opp {y x k : ℝ} (h : Near y x k) : Near (-y) (-x) k := by
  unfold Near at *
  rw [abs_neg, show -y - -x = -(y - x) by ring, abs_neg]; exact h

/-- the noise of the length: the result is the vector times a number near to the exact one, with the same sign -/
theorem withMagnitudeNoise_near {v' v : Vec3} {k l ρ' ρ z : ℝ} (hv : v ≠ ⟨0, 0, 0⟩) (h : Cw v' v k) (hk : 0 ≤ k) (hk' : k ≤ 30)
    (hρ : Near ρ' ρ l) (hl : 0 ≤ l) (hl' : l ≤ 30)
    (hg : 1e-14 * (v.magnitude + |ρ * z|) ≤ |v.magnitude + ρ * z|) :
    ∃ w t, withMagnitudeNoise v' ρ' z = .ok w ∧ Cw w (v.scaled t) (k + 2.1) ∧ 0 < t * (v.magnitude + ρ * z) ∧
      |t * v.magnitude - (v.magnitude + ρ * z)| ≤ (2 * k + l + 12) * u * (v.magnitude + |ρ * z|) := by
  have hu := u_pos
  have hu' : u ≤ 1112 / 10 ^ 19 := by unfold u; norm_num
  have pm := Vec3.magnitude_pos.mpr hv
  have n1 := (magnitude_near v').comp (h.size hk) (by norm_num) (by norm_num) hk (by linarith)
  obtain ⟨q1, q2⟩ := near_inv' n1 pm.ne' (by linarith) (by norm_num; linarith)
  have q3 := q2.round' (by linarith) (by norm_num; linarith)
  obtain ⟨κ, hκ⟩ : ∃ κ, κ = rnd (1 / magnitude v') := ⟨_, rfl⟩
  rw [← hκ] at q3
  obtain ⟨m, hm⟩ : ∃ m, m = v.magnitude := ⟨_, rfl⟩
  rw [← hm] at n1 q3 pm hg ⊢
  -- the noisy length
  have g1 : Near (rnd (z * ρ')) (ρ * z) (l + 1.003) := by
    have := ((Near.refl z).mul' hρ hl le_rfl (by norm_num) (by linarith)).round' (by linarith) (by norm_num; linarith)
    rw [mul_comm z ρ] at this
    exact this.mono (by linarith)
  obtain ⟨y, hy⟩ : ∃ y, y = ρ * z := ⟨_, rfl⟩
  rw [← hy] at g1 hg ⊢
  have h0 := abs_nonneg y
  obtain ⟨S, hS⟩ : ∃ S, S = m + |y| := ⟨_, rfl⟩
  rw [← hS] at hg ⊢
  have pS : 0 < S := by linarith
  have g2 : |magnitude v' + rnd (z * ρ') - (m + y)| ≤ (k + l + 5.4) * u * S := by
    unfold Near at n1 g1
    rw [abs_of_pos pm] at n1
    have := abs_add_le (magnitude v' - m) (rnd (z * ρ') - y)
    rw [show magnitude v' - m + (rnd (z * ρ') - y) = magnitude v' + rnd (z * ρ') - (m + y) by ring] at this
    have e1 : (4.2 + k + 0.001) * u * m ≤ (k + l + 5.4) * u * m :=
      mul_le_mul_of_nonneg_right (mul_le_mul_of_nonneg_right (by linarith) hu.le) pm.le
    have e2 : (l + 1.003) * u * |y| ≤ (k + l + 5.4) * u * |y| :=
      mul_le_mul_of_nonneg_right (mul_le_mul_of_nonneg_right (by linarith) hu.le) h0
    rw [hS]; linarith
  have gS : |m + y| ≤ S := by
    have := abs_add_le m y
    rw [abs_of_pos pm] at this; linarith
  have small : (k + l + 5.4) * u ≤ 0.001 := by
    have : (k + l + 5.4) * u ≤ 70 * (1112 / 10 ^ 19) := by gcongr; linarith
    exact this.trans (by norm_num)
  have small' : (k + l + 5.4) * u * S ≤ 0.001 * S := by gcongr
  have g3 := rabs g2 (M := 1.001 * S) (by linarith)
  obtain ⟨g', hg'⟩ : ∃ g', g' = rnd (magnitude v' + rnd (z * ρ')) := ⟨_, rfl⟩
  rw [← hg'] at g3
  have g4 : |g' - (m + y)| ≤ (k + l + 6.41) * u * S := by
    have : 0 ≤ u * S := by positivity
    linarith
  -- the sign
  have κpos : 0 < κ := by
    have e1 := (_root_.abs_le.mp q3).1
    rw [abs_of_pos (by positivity : 0 < 1 / m)] at e1
    have e2 : (4.2 + k + 0.001 + 0.001 + 1.001) * u ≤ 0.5 := by
      have : (4.2 + k + 0.001 + 0.001 + 1.001) * u ≤ 70 * (1112 / 10 ^ 19) := by gcongr; linarith
      exact this.trans (by norm_num)
    have e3 : (4.2 + k + 0.001 + 0.001 + 1.001) * u * (1 / m) ≤ 0.5 * (1 / m) := by gcongr
    have e4 : 0 < 1 / m := by positivity
    linarith
  have sg : 0 < g' * (m + y) := by
    have e1 : (k + l + 6.41) * u < 1e-14 := by
      have : (k + l + 6.41) * u ≤ 66.41 * (1112 / 10 ^ 19) := by gcongr; linarith
      exact this.trans_lt (by norm_num)
    have e2 : (k + l + 6.41) * u * S < 1e-14 * S := by gcongr
    have e3 : |g' - (m + y)| < |m + y| := by linarith
    have e4 := sq_lt_sq.mpr e3
    nlinarith [sq_nonneg g']
  refine ⟨scaled (scaled v' κ) g', κ * g', ?_, ?_, ?_, ?_⟩
  · simp only [withMagnitudeNoise, normalized, div_ok q1, ok_bind, pure_eq_ok, ← hκ, gauss, ← hg']
  · have key : ∀ {p q : ℝ}, Near p q k → Near (rnd (rnd (p * κ) * g')) (q * (κ * g')) (k + 2.1) := by
      intro p q hpq
      have r1 := (hpq.mul' (Near.refl κ) le_rfl hk (by norm_num; linarith) (by norm_num)).round' (by linarith) (by norm_num; linarith)
      have r2 := (r1.mul' (Near.refl g') le_rfl (by linarith) (by norm_num; linarith) (by norm_num)).round' (by linarith) (by norm_num; linarith)
      rw [mul_assoc] at r2
      exact r2.mono (by linarith)
    exact ⟨key h.hx, key h.hy, key h.hz⟩
  · rw [mul_assoc]; positivity
  · have e1 : |κ * m - 1| ≤ (k + 5.21) * u := by
      unfold Near at q3
      rw [show κ * m - 1 = (κ - 1 / m) * m by field_simp, abs_mul, abs_of_pos pm]
      rw [abs_of_pos (by positivity : 0 < 1 / m)] at q3
      have : |κ - 1 / m| * m ≤ (4.2 + k + 0.001 + 0.001 + 1.001) * u * (1 / m) * m := by gcongr
      rw [mul_assoc, one_div_mul_cancel pm.ne', mul_one] at this
      have : (4.2 + k + 0.001 + 0.001 + 1.001) * u ≤ (k + 5.21) * u := mul_le_mul_of_nonneg_right (by linarith) hu.le
      linarith
    have e2 : |g'| ≤ 1.01 * S := by
      have := abs_sub_abs_le_abs_sub g' (m + y)
      have : u * S ≤ 0.001 * S := by gcongr; linarith
      linarith
    have e3 := abs_add_le ((κ * m - 1) * g') (g' - (m + y))
    rw [show (κ * m - 1) * g' + (g' - (m + y)) = κ * g' * m - (m + y) by ring, abs_mul] at e3
    have e4 : |κ * m - 1| * |g'| ≤ (k + 5.21) * u * (1.01 * S) := by gcongr
    have e5 : 0 ≤ u * S := by positivity
    have e6 : k * (u * S) ≤ 30 * (u * S) := by gcongr
    nlinarith

/-- the turn about the vector -/
theorem azimuth_near {w : ℝ} (h0 : 0 ≤ w) (h1 : w ≤ 1) : |uniform 0 (rnd (2 * pi)) w - Vec3.uniform 0 (2 * pyPi) w| ≤ 21 * u := by
  have hu := u_pos
  have e1 : uniform 0 (rnd (2 * pi)) w = rnd (rnd (2 * pi) * w) := by
    unfold uniform
    rw [sub_zero, zero_add, isDouble_rnd (2 * pi), isDouble_rnd (rnd (2 * pi) * w)]
  have e2 : Vec3.uniform 0 (2 * pyPi) w = 2 * π * w := by simp [Vec3.uniform, pyPi]
  rw [e1, e2]
  have p1 : Near (rnd (2 * pi)) (2 * π) 2.01 := by
    have : Near pi π 1 := near_rnd π
    have := ((Near.refl 2).mul' this (by norm_num) le_rfl (by norm_num) (by norm_num)).round' (by norm_num) (by norm_num)
    exact this.mono (by norm_num)
  have p2 := ((p1.mul' (Near.refl w) le_rfl (by norm_num) (by norm_num) (by norm_num)).round' (by norm_num) (by norm_num))
  have p3 := p2.mono (l := 3.2) (by norm_num)
  unfold Near at p3
  have hp := Real.pi_pos
  have hp' := Real.pi_lt_d2
  rw [abs_of_nonneg (by positivity : 0 ≤ 2 * π * w)] at p3
  refine p3.trans ?_
  have : 2 * π * w ≤ 2 * 3.15 * 1 := by gcongr
  have : 3.2 * u * (2 * π * w) ≤ 3.2 * u * (2 * 3.15 * 1) := by gcongr
  linarith

/-- the noise of the direction -/
theorem withAngularNoise_near {lib : Libm} (hlib : Spec.Accurate lib) {w' w : Vec3} {k c a z x S δ : ℝ}
    (hw : ¬(w.x = 0 ∧ w.y = 0)) (h : Cw w' w k) (hk : 0 ≤ k) (hk' : k ≤ 100) (hc : 0 < c) (ha : |a * z| ≤ π) (h0 : 0 ≤ x) (h1 : x ≤ 1)
    (hS : (w.scaled c).magnitude ≤ S) (hδ : (w'.minus (w.scaled c)).magnitude ≤ δ) (hδ' : δ ≤ 1e-3 * S) :
    ∃ n' n, withAngularNoise lib w' a z x = .ok n' ∧ (w.scaled c).withAngularNoise a z x = .ok n ∧
      (n'.minus n).magnitude ≤ (144 * k + 1330) * u * S + δ := by
  have hu := u_pos
  have hu' := u_tiny
  have hax : w.cross ⟨0, 0, 1⟩ ≠ ⟨0, 0, 0⟩ := by
    intro e; apply hw
    have e1 := congrArg Vec3.x e
    have e2 := congrArg Vec3.y e
    simp [Vec3.cross] at e1 e2
    exact ⟨e2, e1⟩
  have hw0 : w ≠ ⟨0, 0, 0⟩ := by rintro rfl; simp at hw
  have hS0 : 0 ≤ S := (Vec3.magnitude_nonneg _).trans hS
  have hδ0 : 0 ≤ δ := (Vec3.magnitude_nonneg _).trans hδ
  -- the axis of the first rotation
  have hcw : Cw (cross w' ⟨0, 0, 1⟩) (w.cross ⟨0, 0, 1⟩) (k + 2.01) := by
    have e : cross w' ⟨0, 0, 1⟩ = ⟨rnd (rnd w'.y), rnd (-rnd w'.x), 0⟩ := by
      ext <;> simp [cross, rnd_zero]
    have e' : w.cross ⟨0, 0, 1⟩ = ⟨w.y, -w.x, 0⟩ := by ext <;> simp [Vec3.cross]
    rw [e, e']
    refine ⟨?_, ?_, ?_⟩
    · exact ((h.hy.round' hk (by linarith)).round' (by linarith) (by norm_num; linarith)).mono (by linarith)
    · exact ((h.hx.round' hk (by linarith)).opp.round' (by linarith) (by norm_num; linarith)).mono (by linarith)
    · simp [Near]
  -- its angle
  have hang : |gauss 0 a z - Vec3.gauss 0 a z| ≤ 3.2 * u := by
    have e1 : gauss 0 a z = rnd (z * a) := by unfold gauss; rw [zero_add, isDouble_rnd]
    have e2 : Vec3.gauss 0 a z = z * a := by simp [Vec3.gauss]
    rw [e1, e2]
    have := rnd_u (z * a)
    rw [mul_comm a z] at ha
    have hp' := Real.pi_lt_d2
    have : u * |z * a| ≤ u * 3.2 := by gcongr; linarith
    linarith
  obtain ⟨r1, e1, d1⟩ := rotationAboutAxis_near hlib (v' := w') (v := w.scaled c) hax hcw (by linarith) (by linarith) hang (by norm_num)
  obtain ⟨r2, e2, d2⟩ := rotationAboutAxis_near hlib (v' := r1) (v := (w.scaled c).rotate (w.cross ⟨0, 0, 1⟩) (Vec3.gauss 0 a z))
    hw0 h hk (by linarith) (azimuth_near h0 h1) (by norm_num)
  have hc1 : (w.scaled c).cross ⟨0, 0, 1⟩ = (w.cross ⟨0, 0, 1⟩).scaled c := by
    ext <;> simp [Vec3.cross, Vec3.scaled]
  have hx1 : (w.scaled c).withAngularNoise a z x = .ok (((w.scaled c).rotate (w.cross ⟨0, 0, 1⟩) (Vec3.gauss 0 a z)).rotate w
      (Vec3.uniform 0 (2 * pyPi) x)) := by
    have n1 : (w.cross ⟨0, 0, 1⟩).scaled c ≠ ⟨0, 0, 0⟩ := by
      rw [← Vec3.magnitude_pos, Vec3.magnitude_scaled, abs_of_pos hc]
      exact mul_pos hc (Vec3.magnitude_pos.mpr hax)
    have n2 : w.scaled c ≠ ⟨0, 0, 0⟩ := by
      rw [← Vec3.magnitude_pos, Vec3.magnitude_scaled, abs_of_pos hc]
      exact mul_pos hc (Vec3.magnitude_pos.mpr hw0)
    simp only [Vec3.withAngularNoise, hc1, Vec3.rotationAboutAxis_ok _ n1, ok_bind, Vec3.rotationAboutAxis_ok _ n2, rotate_axis hc]
  refine ⟨r2, _, by simp only [withAngularNoise, e1, ok_bind, e2], hx1, d2.trans ?_⟩
  have s1 := (_root_.abs_le.mp (magnitude_sub_le w' (w.scaled c))).2
  have s2 := (_root_.abs_le.mp (magnitude_sub_le r1 ((w.scaled c).rotate (w.cross ⟨0, 0, 1⟩) (Vec3.gauss 0 a z)))).2
  rw [rotate_magnitude hax] at s2
  have t1 : (72 * (k + 2.01) + 18 * 3.2 + 360) * u * w'.magnitude ≤ (72 * k + 563) * u * (1.001 * S) :=
    mul_le_mul (mul_le_mul_of_nonneg_right (by linarith) hu.le) (by linarith) (Vec3.magnitude_nonneg _) (by positivity)
  have t2 : (72 * k + 563) * u ≤ 1e-10 := by
    have : (72 * k + 563) * u ≤ 8e3 * (12 / 10 ^ 17) := by gcongr; linarith
    exact this.trans (by norm_num)
  have t3 : (72 * k + 563) * u * (1.001 * S) ≤ 1e-10 * (1.001 * S) := by gcongr
  have t4 : (72 * k + 18 * 21 + 360) * u * r1.magnitude ≤ (72 * k + 18 * 21 + 360) * u * (1.0011 * S) := by
    gcongr; linarith
  have t5 : 0 ≤ u * S := by positivity
  have t6 : k * (u * S) ≤ 100 * (u * S) := by gcongr
  have t7 : (72 * k + 18 * 21 + 360) * u * (1.0011 * S) + (72 * k + 563) * u * (1.001 * S) ≤ (144 * k + 1330) * u * S := by
    nlinarith
  linarith

end Openspace.F64
