import Verif.Lemmas.DoubleFormulas

/-!
# Property C149: Hohmann transfers in double precision
-/

namespace Openspace

open Real

namespace F64

theorem half_binary64 {h : ℝ} (hb : Spec.IsBinary64 h) : rnd (h / 2) = h / 2 := by
  refine (isDouble_iff _).mpr ?_
  obtain ⟨m, e, h1, h2⟩ := hb
  refine ⟨m, e - 1, h1, ?_⟩
  rw [h2, zpow_sub_one₀ two_ne_zero]
  ring

/-- rounding is monotone, so that the vis-viva law never meets a negative radicand -/
theorem eccentricVelocity_ok {r a : ℝ} (hr : 0 < r) (ha : r / 2 ≤ a) : ∃ v, eccentricVelocity r a = .ok v ∧ 0 ≤ v := by
  have ha0 : 0 < a := by linarith
  have h1 : 1 / a ≤ 2 / r := by rw [div_le_div_iff₀ ha0 hr]; linarith
  have h2 : 0 ≤ rnd (rnd (2 / r) - rnd (1 / a)) := rnd_nonneg (sub_nonneg.mpr (rnd_mono h1))
  have h3 : 0 ≤ rnd (mu * rnd (rnd (2 / r) - rnd (1 / a))) := rnd_nonneg (mul_nonneg mu_pos'.le h2)
  refine ⟨rnd (√(rnd (mu * rnd (rnd (2 / r) - rnd (1 / a))))), ?_, rnd_nonneg (Real.sqrt_nonneg _)⟩
  simp only [eccentricVelocity, vFromAMuR, div_ok hr.ne', div_ok ha0.ne', ok_bind, sqrt_ok h3]

theorem circularVelocity_near {r : ℝ} (hr : 0 < r) :
    ∃ v, circularVelocity r = .ok v ∧ 0 ≤ v ∧ Near v (√(Earth.MU / r)) 3.1 := by
  obtain ⟨q, e1, e2, n1⟩ := mu_near.divr (Near.refl r) hr.ne' (by norm_num) le_rfl (by norm_num) (by norm_num)
  have q0 : 0 ≤ q := by rw [e2]; exact rnd_nonneg (div_nonneg mu_pos'.le hr.le)
  obtain ⟨v, e3, v0, n2⟩ := n1.sqrtr (div_nonneg mu_pos.le hr.le) q0 (by norm_num) (by norm_num)
  refine ⟨v, ?_, v0, n2.mono (by norm_num)⟩
  rw [circularVelocity, e1]
  exact e3

theorem difference_error {x' x y' y A B : ℝ} (hx : |x' - x| ≤ A) (hy : |y' - y| ≤ B) :
    |rnd (x' - y') - (x - y)| ≤ 1.001 * (A + B) + 1.2e-16 * (|x| + |y|) := by
  have hu := u_pos
  have hu' := u_tiny
  have h1 := rnd_u (x' - y')
  have h2 : |x' - y' - (x - y)| ≤ A + B := by
    rw [show x' - y' - (x - y) = (x' - x) - (y' - y) by ring]
    exact (abs_sub _ _).trans (add_le_add hx hy)
  have h3 := abs_sub_le (rnd (x' - y')) (x' - y') (x - y)
  have h4 : |x' - y'| ≤ |x| + |y| + (A + B) := by
    have i1 := abs_sub_abs_le_abs_sub (x' - y') (x - y)
    have i2 := abs_sub x y
    linarith
  have AB : 0 ≤ A + B := (abs_nonneg _).trans h2
  have h5 : u * |x' - y'| ≤ 1.2e-16 * (|x| + |y| + (A + B)) := by
    have : u ≤ 1.2e-16 := by norm_num at hu' ⊢; exact hu'
    gcongr
  norm_num at h5 ⊢
  linarith

theorem transfer_condition {r s : ℝ} (hr : 0 < r) (hs : 0 < s) :
    2 / r + 1 / ((r + s) / 2) ≤ (1 + 2 * (r / s)) * (2 / r - 1 / ((r + s) / 2)) := by
  refine le_of_eq ?_
  field_simp
  ring

end F64

/-- In double precision a Hohmann transfer between any two positive radii can be planned. -/
theorem C149_returns {r1 r2 : ℝ} (b1 : Spec.IsBinary64 r1) (b2 : Spec.IsBinary64 r2) (h1 : 0 < r1) (h2 : 0 < r2) :
    ∃ h, F64.hohmann r1 r2 = .ok h ∧ 0 ≤ h.initial_velocity ∧ 0 ≤ h.transfer_velocity_1 ∧ 0 ≤ h.transfer_velocity_2 ∧
      0 ≤ h.final_velocity := by
  have d1 : F64.rnd r1 = r1 := (F64.isDouble_iff _).mpr b1
  have d2 : F64.rnd r2 = r2 := (F64.isDouble_iff _).mpr b2
  have s1 : r1 / 2 ≤ F64.rnd (F64.rnd (r1 + r2) / 2) := by
    rw [← F64.half_binary64 b1]
    apply F64.rnd_mono
    have : F64.rnd r1 ≤ F64.rnd (r1 + r2) := F64.rnd_mono (by linarith)
    linarith
  have s2 : r2 / 2 ≤ F64.rnd (F64.rnd (r1 + r2) / 2) := by
    rw [← F64.half_binary64 b2]
    apply F64.rnd_mono
    have : F64.rnd r2 ≤ F64.rnd (r1 + r2) := F64.rnd_mono (by linarith)
    linarith
  obtain ⟨v1, e1, p1, -⟩ := F64.circularVelocity_near h1
  obtain ⟨v2, e2, p2⟩ := F64.eccentricVelocity_ok h1 s1
  obtain ⟨v3, e3, p3⟩ := F64.eccentricVelocity_ok h2 s2
  obtain ⟨v4, e4, p4, -⟩ := F64.circularVelocity_near h2
  refine ⟨⟨v1, v2, v3, v4, F64.rnd (v2 - v1), F64.rnd (v4 - v3)⟩, ?_, p1, p2, p3, p4⟩
  simp only [F64.hohmann, F64.div_ok (two_ne_zero (α := ℝ)), ok_bind, e1, e2, e3, e4]
  rfl

/-- The plan made in double precision is the exact plan up to relative errors of the speeds of a few units in the last
place, times one plus twice the ratio of the radii for the speeds on the transfer orbit. -/
theorem C149_accurate {r1 r2 : ℝ} (h1 : 0 < r1) (h2 : 0 < r2) (h12 : r1 ≤ 1e4 * r2) (h21 : r2 ≤ 1e4 * r1) :
    ∃ h h', Hohmann.new r1 r2 = .ok h ∧ F64.hohmann r1 r2 = .ok h' ∧
      |h'.initial_velocity - h.initial_velocity| ≤ 4e-16 * h.initial_velocity ∧
      |h'.final_velocity - h.final_velocity| ≤ 4e-16 * h.final_velocity ∧
      |h'.transfer_velocity_1 - h.transfer_velocity_1| ≤ 9e-16 * (1 + 2 * (r1 / r2)) * h.transfer_velocity_1 ∧
      |h'.transfer_velocity_2 - h.transfer_velocity_2| ≤ 9e-16 * (1 + 2 * (r2 / r1)) * h.transfer_velocity_2 ∧
      |h'.delta_v_1 - h.delta_v_1| ≤ 1.1e-15 * (1 + 2 * (r1 / r2)) * h.transfer_velocity_1 + 6e-16 * h.initial_velocity ∧
      |h'.delta_v_2 - h.delta_v_2| ≤ 1.1e-15 * (1 + 2 * (r2 / r1)) * h.transfer_velocity_2 + 6e-16 * h.final_velocity := by
  have hmu := mu_pos
  have a0 : 0 < (r1 + r2) / 2 := by positivity
  have q1 : 0 ≤ r1 / r2 := by positivity
  have q2 : 0 ≤ r2 / r1 := by positivity
  have q1' : r1 / r2 ≤ 1e4 := by rw [div_le_iff₀ h2]; exact h12
  have q2' : r2 / r1 ≤ 1e4 := by rw [div_le_iff₀ h1]; exact h21
  obtain ⟨a, ea, -, na⟩ := (F64.near_rnd (r1 + r2)).divr (F64.Near.refl 2) two_ne_zero (by norm_num) le_rfl (by norm_num) (by norm_num)
  have na' : F64.Near a ((r1 + r2) / 2) 2.01 := na.mono (by norm_num)
  obtain ⟨v1, e1, p1, n1⟩ := F64.circularVelocity_near h1
  obtain ⟨v4, e4, p4, n4⟩ := F64.circularVelocity_near h2
  obtain ⟨v2, e2, p2, n2⟩ := F64.visViva_near h1 a0 hmu F64.mu_pos' F64.mu_near na' (by norm_num) le_rfl
    (F64.transfer_condition h1 h2) (by linarith) (by norm_num at q1' ⊢; linarith)
  have c2 := F64.transfer_condition h2 h1
  rw [add_comm r2 r1] at c2
  obtain ⟨v3, e3, p3, n3⟩ := F64.visViva_near h2 a0 hmu F64.mu_pos' F64.mu_near na' (by norm_num) le_rfl
    c2 (by linarith) (by norm_num at q2' ⊢; linarith)
  -- the exact plan
  have r1' : 0 ≤ Earth.MU * (2 / r1 - 1 / ((r1 + r2) / 2)) := by
    refine mul_nonneg hmu.le ?_
    have : 2 / r1 - 1 / ((r1 + r2) / 2) = 2 * r2 / (r1 * (r1 + r2)) := by field_simp; ring
    rw [this]; positivity
  have r2' : 0 ≤ Earth.MU * (2 / r2 - 1 / ((r1 + r2) / 2)) := by
    refine mul_nonneg hmu.le ?_
    have : 2 / r2 - 1 / ((r1 + r2) / 2) = 2 * r1 / (r2 * (r1 + r2)) := by field_simp; ring
    rw [this]; positivity
  obtain ⟨V1, hV1⟩ : ∃ V, V = √(Earth.MU / r1) := ⟨_, rfl⟩
  obtain ⟨V2, hV2⟩ : ∃ V, V = √(Earth.MU * (2 / r1 - 1 / ((r1 + r2) / 2))) := ⟨_, rfl⟩
  obtain ⟨V3, hV3⟩ : ∃ V, V = √(Earth.MU * (2 / r2 - 1 / ((r1 + r2) / 2))) := ⟨_, rfl⟩
  obtain ⟨V4, hV4⟩ : ∃ V, V = √(Earth.MU / r2) := ⟨_, rfl⟩
  have V10 : 0 ≤ V1 := by rw [hV1]; exact Real.sqrt_nonneg _
  have V20 : 0 ≤ V2 := by rw [hV2]; exact Real.sqrt_nonneg _
  have V30 : 0 ≤ V3 := by rw [hV3]; exact Real.sqrt_nonneg _
  have V40 : 0 ≤ V4 := by rw [hV4]; exact Real.sqrt_nonneg _
  rw [← hV1] at n1
  rw [← hV2] at n2
  rw [← hV3] at n3
  rw [← hV4] at n4
  have m1 := n1.rel (c := 4e-16) (by norm_num)
  have m4 := n4.rel (c := 4e-16) (by norm_num)
  have m2 := n2.rel (c := 9e-16 * (1 + 2 * (r1 / r2))) (by norm_num; linarith)
  have m3 := n3.rel (c := 9e-16 * (1 + 2 * (r2 / r1))) (by norm_num; linarith)
  rw [abs_of_nonneg V10] at m1
  rw [abs_of_nonneg V20] at m2
  rw [abs_of_nonneg V30] at m3
  rw [abs_of_nonneg V40] at m4
  refine ⟨⟨V1, V2, V3, V4, V2 - V1, V4 - V3⟩, ⟨v1, v2, v3, v4, F64.rnd (v2 - v1), F64.rnd (v4 - v3)⟩, ?_, ?_, m1, m4, m2, m3, ?_, ?_⟩
  · simp only [Hohmann.new, circularVelocity, eccentricVelocity, pyDiv_ok h1.ne', pyDiv_ok h2.ne', pyDiv_ok a0.ne', ok_bind,
      pySqrt_ok (show 0 ≤ Earth.MU / r1 by positivity), pySqrt_ok (show 0 ≤ Earth.MU / r2 by positivity), pySqrt_ok r1', pySqrt_ok r2',
      ← hV1, ← hV2, ← hV3, ← hV4]
    rfl
  · simp only [F64.hohmann, F64.eccentricVelocity, ea, ok_bind, e1, e2, e3, e4]
    rfl
  · have := F64.difference_error m2 m1
    rw [abs_of_nonneg V10, abs_of_nonneg V20] at this
    refine this.trans ?_
    have i : V2 ≤ (1 + 2 * (r1 / r2)) * V2 := le_mul_of_one_le_left V20 (by linarith)
    norm_num
    nlinarith
  · have := F64.difference_error m4 m3
    rw [abs_of_nonneg V30, abs_of_nonneg V40] at this
    refine this.trans ?_
    have i : V3 ≤ (1 + 2 * (r2 / r1)) * V3 := le_mul_of_one_le_left V30 (by linarith)
    norm_num
    nlinarith

/-- a transfer from a low to the geostationary orbit -/
example : ∃ h h', Hohmann.new 6700 42164 = .ok h ∧ F64.hohmann 6700 42164 = .ok h' ∧
    |h'.initial_velocity - h.initial_velocity| ≤ 4e-16 * h.initial_velocity := by
  obtain ⟨h, h', a, b, c, -⟩ := C149_accurate (r1 := 6700) (r2 := 42164) (by norm_num) (by norm_num) (by norm_num) (by norm_num)
  exact ⟨h, h', a, b, c⟩

example : ∃ h, F64.hohmann 6700 42164 = .ok h := by
  obtain ⟨h, a, -⟩ := C149_returns (r1 := 6700) (r2 := 42164) ⟨6700, 0, by norm_num, by norm_num⟩ ⟨42164, 0, by norm_num, by norm_num⟩
    (by norm_num) (by norm_num)
  exact ⟨h, a⟩

end Openspace
