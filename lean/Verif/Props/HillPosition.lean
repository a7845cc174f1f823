import Verif.Props.States
import Verif.Lemmas.Taylor
import Verif.Model.Artificial
import Mathlib.Analysis.SpecialFunctions.Trigonometric.ArctanDeriv

/-!
# C88: relative position seen from a spacecraft
-/

namespace Openspace

open Real

/-- the position part of `gcrfToHcw` -/
theorem gcrfToHcw_position {origin s : GCRF} {h : State} {M : Mat3} (hM : frameMatrix origin = .ok M)
    (hh : gcrfToHcw origin s = .ok h) :
    h.position = ⟨s.position.magnitude - origin.position.magnitude,
      pyAtan2 (M.mulVec s.position).y (M.mulVec s.position).x * origin.position.magnitude,
      arcsin ((M.mulVec s.position).z / s.position.magnitude) * origin.position.magnitude⟩ := by
  simp only [gcrfToHcw, hM, ok_bind, bind_eq_ok, pyDiv_eq_ok, pure_eq_ok, Except.ok.injEq] at hh
  obtain ⟨q, ⟨-, rfl⟩, φ, hφ, l, -, _, -, _, -, rfl⟩ := hh
  have : arcsin ((M.mulVec s.position).z / s.position.magnitude) = φ := by
    simp only [pyAsin] at hφ
    split at hφ
    · cases hφ
    · simpa using hφ
  rw [this]
  rfl

/-- the hill position of a target are its coordinates on the sphere about the Earth aligned with the observer's orbit:
the target is found by going out to the radius `R + x`, turning in the orbital plane by `y / R` in the direction of
motion, and rising above the plane by `z / R`, where `R` is the radius of the observer -/
theorem C88_coordinates {ι : Type} (s t : Spacecraft ι) (hs : s.currentState.NonDegenerate)
    (ht : (s.currentState.position.cross s.currentState.velocity).cross t.currentState.position ≠ ⟨0, 0, 0⟩) :
    ∃ p m, s.hillPosition t = .ok p ∧ frameMatrix s.currentState = .ok m ∧
      let R := s.currentState.position.magnitude
      t.currentState.position =
        ((m.row1.scaled (cos (p.z / R) * cos (p.y / R))).plus
          ((m.row2.scaled (cos (p.z / R) * sin (p.y / R))).plus (m.row3.scaled (sin (p.z / R))))).scaled (R + p.x) ∧
      0 < R + p.x ∧ |p.y| ≤ π * R ∧ |p.z| ≤ π / 2 * R := by
  obtain ⟨m, hm, hrot, -⟩ := C33_frame _ hs
  obtain ⟨h, g, h1, h2, h3, -⟩ := C32_round_trip _ hs t.currentState ht
  refine ⟨h.position, m, by simp only [Spacecraft.hillPosition, h1, ok_bind, pure_eq_ok], hm, ?_⟩
  have hc := nonDegenerate_iff.mp hs
  have hp := position_ne_of_cross hc
  have hR : 0 < s.currentState.position.magnitude := Vec3.magnitude_pos.mpr hp
  have htp : t.currentState.position ≠ ⟨0, 0, 0⟩ := by
    intro h; apply ht; rw [h]; simp [Vec3.cross]
  have htm : 0 < t.currentState.position.magnitude := Vec3.magnitude_pos.mpr htp
  have hpos := gcrfToHcw_position hm h1
  simp only [hcwToGcrf, hm, ok_bind, pyDiv_ok hR.ne', pure_eq_ok, Except.ok.injEq] at h2
  have hx : h.position.x = t.currentState.position.magnitude - s.currentState.position.magnitude := by rw [hpos]
  refine ⟨?_, ?_, ?_, ?_⟩
  · rw [← h3, ← h2]
    show m.transpose.mulVec _ = _
    ext <;> simp only [Mat3.mulVec, Mat3.transpose, Vec3.dot, Vec3.plus, Vec3.scaled, pyCos, pySin] <;> ring
  · rw [hx]; linarith
  · rw [hpos, abs_mul, abs_of_pos hR]
    exact mul_le_mul_of_nonneg_right (abs_le.mpr ⟨(pyAtan2_gt _ _).le, pyAtan2_le _ _⟩) hR.le
  · rw [hpos, abs_mul, abs_of_pos hR]
    exact mul_le_mul_of_nonneg_right (abs_le.mpr ⟨neg_pi_div_two_le_arcsin _, arcsin_le_pi_div_two _⟩) hR.le

/-- `|arctan t - t| ≤ t²` -/
theorem arctan_near (t : ℝ) : |arctan t - t| ≤ t ^ 2 := by
  have key : ∀ x : ℝ, 0 ≤ x → |arctan x - x| ≤ x ^ 2 := by
    intro x hx
    have h1 : 0 ≤ arctan x - x + x ^ 2 := by
      refine nonneg_of_deriv (f := fun y => arctan y - y + y ^ 2) (f' := fun y => 1 / (1 + y ^ 2) - 1 + 2 * y)
        (fun y => ?_) (by simp) (fun y hy => ?_) hx
      · have := ((hasDerivAt_arctan y).sub (hasDerivAt_id y)).add (hasDerivAt_pow 2 y)
        exact this.congr_deriv (by norm_num)
      · have : 1 / (1 + y ^ 2) - 1 + 2 * y = y * (2 - y + 2 * y ^ 2) / (1 + y ^ 2) := by field_simp; ring
        rw [this]
        have : 0 ≤ 2 - y + 2 * y ^ 2 := by nlinarith [sq_nonneg (y - 1)]
        positivity
    have h2 : 0 ≤ x - arctan x := by
      refine nonneg_of_deriv (f := fun y => y - arctan y) (f' := fun y => 1 - 1 / (1 + y ^ 2))
        (fun y => ?_) (by simp) (fun y hy => ?_) hx
      · exact (hasDerivAt_id y).sub (hasDerivAt_arctan y)
      · have : 1 - 1 / (1 + y ^ 2) = y ^ 2 / (1 + y ^ 2) := by field_simp; ring
        rw [this]; positivity
    rw [abs_le]; constructor <;> nlinarith
  rcases le_total 0 t with h | h
  · exact key t h
  · have := key (-t) (by linarith)
    rwa [arctan_neg, ← abs_neg, neg_sq, show -(-arctan t - -t) = arctan t - t by ring] at this

/-- `|arcsin t - t| ≤ t²` up to one third -/
theorem arcsin_near (t : ℝ) (ht : |t| ≤ 1 / 3) : |arcsin t - t| ≤ t ^ 2 := by
  have key : ∀ x : ℝ, 0 ≤ x → x ≤ 1 / 3 → |arcsin x - x| ≤ x ^ 2 := by
    intro x hx hx1
    have hp := pi_gt_three
    have h1 : x ≤ arcsin x := by
      rw [le_arcsin_iff_sin_le ⟨by linarith, by linarith⟩ ⟨by linarith, by linarith⟩]
      exact sin_le hx
    have h2 : arcsin x ≤ x + x ^ 2 := by
      rw [arcsin_le_iff_le_sin ⟨by linarith, by linarith⟩ ⟨by nlinarith, by nlinarith⟩]
      have := sin_ge3 (x := x + x ^ 2) (by positivity)
      have h3 : (x + x ^ 2) ^ 3 ≤ 6 * x ^ 2 := by
        have : (x + x ^ 2) ^ 3 = x ^ 2 * (x * (1 + x) ^ 3) := by ring
        rw [this]
        have : x * (1 + x) ^ 3 ≤ 6 := by
          have : (1 + x) ^ 3 ≤ (1 + 1 / 3) ^ 3 := pow_le_pow_left₀ (by linarith) (by linarith) 3
          nlinarith
        nlinarith [sq_nonneg x]
      linarith
    rw [abs_le]; constructor <;> nlinarith
  rcases le_total 0 t with h | h
  · exact key t h (le_trans (le_abs_self t) ht)
  · have := key (-t) (by linarith) (le_trans (neg_le_abs t) ht)
    rwa [arcsin_neg, ← abs_neg, neg_sq, show -(-arcsin t - -t) = arcsin t - t by ring] at this

theorem pyAtan2_of_pos {y x : ℝ} (hx : 0 < x) : pyAtan2 y x = arctan (y / x) := by
  have h1 : |Complex.arg ⟨x, y⟩| < π / 2 := by
    rw [Complex.abs_arg_lt_pi_div_two_iff]; exact Or.inl hx
  have h2 := Complex.tan_arg ⟨x, y⟩
  simp only at h2
  rw [abs_lt] at h1
  rw [pyAtan2, ← h2, arctan_tan h1.1 h1.2]

theorem in_track_near {R D x y : ℝ} (hR : 0 < R) (hD0 : 0 ≤ D) (h34 : 3 / 4 * R ≤ R + x) (hy : |y| ≤ D)
    (hxy : x ^ 2 + y ^ 2 ≤ D ^ 2) : |arctan (y / (R + x)) * R - y| ≤ 4 * D ^ 2 / R := by
  have hRx0 : 0 < R + x := by linarith
  have hDR : 0 ≤ D ^ 2 / R := by positivity
  have a1 := arctan_near (y / (R + x))
  have a2 : |y / (R + x) * R - y| ≤ 2 / 3 * (D ^ 2 / R) := by
    have e : y / (R + x) * R - y = -(x * y) / (R + x) := by field_simp; ring
    rw [e, abs_div, abs_of_pos hRx0, abs_neg, div_le_iff₀ hRx0]
    have k1 : |x * y| ≤ D ^ 2 / 2 := by
      rw [abs_le]
      constructor <;> nlinarith [sq_nonneg (x + y), sq_nonneg (x - y)]
    have k2 : 2 / 3 * (D ^ 2 / R) * (3 / 4 * R) = D ^ 2 / 2 := by field_simp; ring
    have k3 : 2 / 3 * (D ^ 2 / R) * (3 / 4 * R) ≤ 2 / 3 * (D ^ 2 / R) * (R + x) := by gcongr
    linarith
  have a3 : (y / (R + x)) ^ 2 * R ≤ 16 / 9 * (D ^ 2 / R) := by
    have k1 : (y / (R + x)) ^ 2 ≤ (D / (3 / 4 * R)) ^ 2 := by
      rw [← sq_abs, abs_div, abs_of_pos hRx0]
      gcongr
    have k2 : (D / (3 / 4 * R)) ^ 2 * R = 16 / 9 * (D ^ 2 / R) := by field_simp; ring
    rw [← k2]
    exact mul_le_mul_of_nonneg_right k1 hR.le
  have a4 : |arctan (y / (R + x)) * R - y / (R + x) * R| ≤ (y / (R + x)) ^ 2 * R := by
    rw [← sub_mul, abs_mul, abs_of_pos hR]
    exact mul_le_mul_of_nonneg_right a1 hR.le
  have a5 := abs_sub_le (arctan (y / (R + x)) * R) (y / (R + x) * R) y
  have e4 : 4 * D ^ 2 / R = 4 * (D ^ 2 / R) := by ring
  rw [e4]; linarith

theorem cross_track_near {R D N z : ℝ} (hR : 0 < R) (hD0 : 0 ≤ D) (hD : 4 * D ≤ R) (h1 : R - D ≤ N) (h2 : N ≤ R + D)
    (hz : |z| ≤ D) : |arcsin (z / N) * R - z| ≤ 4 * D ^ 2 / R := by
  have hN34 : 3 / 4 * R ≤ N := by linarith
  have hNp : 0 < N := by linarith
  have hDR : 0 ≤ D ^ 2 / R := by positivity
  have t1 : |z / N| ≤ D / (3 / 4 * R) := by
    rw [abs_div, abs_of_pos hNp]
    gcongr
  have t2 : D / (3 / 4 * R) ≤ 1 / 3 := by
    rw [div_le_iff₀ (by positivity)]; linarith
  have a1 := arcsin_near (z / N) (t1.trans t2)
  have a2 : |z / N * R - z| ≤ 4 / 3 * (D ^ 2 / R) := by
    have e : z / N * R - z = z * (R - N) / N := by field_simp
    rw [e, abs_div, abs_of_pos hNp, abs_mul, div_le_iff₀ hNp]
    have k0 : |R - N| ≤ D := by rw [abs_le]; constructor <;> linarith
    have k1 : |z| * |R - N| ≤ D * D := mul_le_mul hz k0 (abs_nonneg _) hD0
    have k2 : 4 / 3 * (D ^ 2 / R) * (3 / 4 * R) = D * D := by field_simp
    have k3 : 4 / 3 * (D ^ 2 / R) * (3 / 4 * R) ≤ 4 / 3 * (D ^ 2 / R) * N := by gcongr
    linarith
  have a3 : (z / N) ^ 2 * R ≤ 16 / 9 * (D ^ 2 / R) := by
    have k1 : (z / N) ^ 2 ≤ (D / (3 / 4 * R)) ^ 2 := by
      rw [← sq_abs]
      exact pow_le_pow_left₀ (abs_nonneg _) t1 2
    have k2 : (D / (3 / 4 * R)) ^ 2 * R = 16 / 9 * (D ^ 2 / R) := by field_simp; ring
    rw [← k2]
    exact mul_le_mul_of_nonneg_right k1 hR.le
  have a4 : |arcsin (z / N) * R - z / N * R| ≤ (z / N) ^ 2 * R := by
    rw [← sub_mul, abs_mul, abs_of_pos hR]
    exact mul_le_mul_of_nonneg_right a1 hR.le
  have a5 := abs_sub_le (arcsin (z / N) * R) (z / N * R) z
  have e4 : 4 * D ^ 2 / R = 4 * (D ^ 2 / R) := by ring
  rw [e4]; linarith

/-- close by, the hill position is the relative position in the radial / in-track / cross-track axes of the observer, up
to the curvature of the orbit: with the separation `D` up to a quarter of the orbit radius `R`, no component is off by
more than `4 D² / R` -/
theorem C88_linear {ι : Type} (s t : Spacecraft ι) (hs : s.currentState.NonDegenerate)
    (hD : 4 * s.range t ≤ s.currentState.position.magnitude) :
    ∃ p m, s.hillPosition t = .ok p ∧ frameMatrix s.currentState = .ok m ∧
      let R := s.currentState.position.magnitude
      let d := s.targetVector t
      |p.x - m.row1.dot d| ≤ 4 * s.range t ^ 2 / R ∧ |p.y - m.row2.dot d| ≤ 4 * s.range t ^ 2 / R ∧
      |p.z - m.row3.dot d| ≤ 4 * s.range t ^ 2 / R := by
  obtain ⟨d, hd⟩ : ∃ d, d = s.targetVector t := ⟨_, rfl⟩
  obtain ⟨D, hDe⟩ : ∃ D, D = s.range t := ⟨_, rfl⟩
  have hdD : d.magnitude = D := by rw [hd, hDe]; rfl
  have hD0 : 0 ≤ D := by rw [← hdD]; exact d.magnitude_nonneg
  obtain ⟨r, hr⟩ : ∃ r, r = s.currentState.position := ⟨_, rfl⟩
  have htp : t.currentState.position = r.plus d := by
    rw [hr, hd]
    ext <;> simp [Vec3.plus, Spacecraft.targetVector, Spacecraft.position, Vec3.minus, Vec3.copy]
  have hc := nonDegenerate_iff.mp hs
  have hp := position_ne_of_cross hc
  obtain ⟨m, hm, hrot, hrow1, -⟩ := C33_frame _ hs
  obtain ⟨R, hRe⟩ : ∃ R, R = s.currentState.position.magnitude := ⟨_, rfl⟩
  have hR : 0 < R := by rw [hRe]; exact Vec3.magnitude_pos.mpr hp
  rw [← hRe, ← hDe] at hD
  have hmr : m.mulVec r = ⟨R, 0, 0⟩ := by
    have o1 := hrot.orth.r11; have o2 := hrot.orth.r12; have o3 := hrot.orth.r13
    rw [hr, ← hrow1, ← hRe]
    simp only [Vec3.dot] at o1 o2 o3
    ext <;> simp only [Mat3.mulVec, Vec3.dot, Vec3.scaled]
    · linear_combination R * o1
    · linear_combination R * o2
    · linear_combination R * o3
  obtain ⟨c, hce⟩ : ∃ c, c = m.mulVec d := ⟨_, rfl⟩
  have hcc : c.x ^ 2 + c.y ^ 2 + c.z ^ 2 = D ^ 2 := by
    rw [← hdD, ← hrot.orth.magnitude_mulVec d, ← hce, Vec3.magnitude_sq]; ring
  have hcx : |c.x| ≤ D := abs_le_of_sq_le_sq (by nlinarith [sq_nonneg c.y, sq_nonneg c.z]) hD0
  have hcy : |c.y| ≤ D := abs_le_of_sq_le_sq (by nlinarith [sq_nonneg c.x, sq_nonneg c.z]) hD0
  have hcz : |c.z| ≤ D := abs_le_of_sq_le_sq (by nlinarith [sq_nonneg c.y, sq_nonneg c.x]) hD0
  have hw : m.mulVec t.currentState.position = ⟨R + c.x, c.y, c.z⟩ := by
    have : m.mulVec (r.plus d) = (m.mulVec r).plus (m.mulVec d) := by
      ext <;> simp only [Mat3.mulVec, Vec3.dot, Vec3.plus] <;> ring
    rw [htp, this, hmr, ← hce]
    ext <;> simp [Vec3.plus]
  obtain ⟨N, hN⟩ : ∃ N, N = t.currentState.position.magnitude := ⟨_, rfl⟩
  have hN0 : 0 ≤ N := by rw [hN]; exact Vec3.magnitude_nonneg _
  have hNN : N ^ 2 = (R + c.x) ^ 2 + c.y ^ 2 + c.z ^ 2 := by
    rw [hN, ← hrot.orth.magnitude_mulVec, hw, Vec3.magnitude_sq]; ring
  have hx := abs_le.mp hcx
  have hRx : 3 / 4 * R ≤ R + c.x := by linarith [hx.1]
  have hNge : R + c.x ≤ N := by
    refine abs_le_of_sq_le_sq' ?_ hN0 |>.2
    nlinarith [sq_nonneg c.y, sq_nonneg c.z]
  have hNle : N ≤ R + D := by
    refine abs_le_of_sq_le_sq' ?_ (by positivity) |>.2
    nlinarith [hx.2]
  have hNge' : R - D ≤ N := by linarith [hx.1]
  have ht : (s.currentState.position.cross s.currentState.velocity).cross t.currentState.position ≠ ⟨0, 0, 0⟩ := by
    intro h0
    have e1 : t.currentState.position.dot s.currentState.position = 0 := by
      have e : ((s.currentState.position.cross s.currentState.velocity).cross t.currentState.position).dot
          ((s.currentState.position.cross s.currentState.velocity).cross s.currentState.position) =
          (s.currentState.position.cross s.currentState.velocity).dot
            (s.currentState.position.cross s.currentState.velocity) *
            t.currentState.position.dot s.currentState.position := by
        simp only [Vec3.cross, Vec3.dot]; ring
      rw [h0] at e
      have hne : (s.currentState.position.cross s.currentState.velocity).dot
          (s.currentState.position.cross s.currentState.velocity) ≠ 0 := by
        rw [← Vec3.magnitude_sq_dot]
        exact pow_ne_zero 2 (Vec3.magnitude_ne_zero.mpr hc)
      have hz : (⟨0, 0, 0⟩ : Vec3).dot
          ((s.currentState.position.cross s.currentState.velocity).cross s.currentState.position) = 0 := by
        simp [Vec3.dot]
      rw [hz] at e
      exact (mul_eq_zero.mp e.symm).resolve_left hne
    have e2 : R * (R + c.x) = t.currentState.position.dot s.currentState.position := by
      have : (m.mulVec t.currentState.position).x = R + c.x := by rw [hw]
      rw [← this]
      conv_rhs => rw [← hrow1, ← hRe]
      simp only [Mat3.mulVec, Vec3.dot, Vec3.scaled]; ring
    have : 0 < R * (R + c.x) := mul_pos hR (by linarith)
    linarith
  obtain ⟨h, g, h1, -⟩ := C32_round_trip _ hs t.currentState ht
  have hpos := gcrfToHcw_position hm h1
  rw [hw, ← hN, ← hRe] at hpos
  have hrow : m.row1.dot d = c.x ∧ m.row2.dot d = c.y ∧ m.row3.dot d = c.z := by
    rw [hce]; exact ⟨rfl, rfl, rfl⟩
  refine ⟨h.position, m, by simp only [Spacecraft.hillPosition, h1, ok_bind, pure_eq_ok], hm, ?_⟩
  simp only [← hRe, ← hd, ← hDe, hrow.1, hrow.2.1, hrow.2.2, hpos]
  have hRx0 : 0 < R + c.x := by linarith
  have hNp : 0 < N := by linarith
  refine ⟨?_, ?_, ?_⟩
  · have e : N - R - c.x = (c.y ^ 2 + c.z ^ 2) / (N + (R + c.x)) := by
      field_simp; linear_combination hNN
    have hs2 : 0 ≤ c.y ^ 2 + c.z ^ 2 := by positivity
    have hs3 : c.y ^ 2 + c.z ^ 2 ≤ D ^ 2 := by linarith [sq_nonneg c.x]
    have hden : 3 / 2 * R ≤ N + (R + c.x) := by linarith
    rw [e, abs_of_nonneg (by positivity)]
    calc (c.y ^ 2 + c.z ^ 2) / (N + (R + c.x)) ≤ D ^ 2 / (3 / 2 * R) := by gcongr
      _ = 2 / 3 * D ^ 2 / R := by field_simp
      _ ≤ 4 * D ^ 2 / R := by gcongr; norm_num
  · rw [pyAtan2_of_pos hRx0]
    exact in_track_near hR hD0 hRx hcy (by linarith [sq_nonneg c.z])
  · exact cross_track_near hR hD0 hD hNge' hNle hcz

/-- two geostationary satellites 10 km apart meet the hypotheses -/
example : 4 * (10 : ℝ) ≤ geoState.position.magnitude ∧ geoState.NonDegenerate := by
  have hR : geoState.position.magnitude = 42164 :=
    Vec3.magnitude_of_dot (by norm_num) (by simp [geoState, GCRF.new, State.new, Vec3.dot, Vec3.copy]; norm_num)
  exact ⟨by rw [hR]; norm_num, geoState_nonDegenerate⟩

end Openspace
