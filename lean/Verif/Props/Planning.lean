import Verif.Lemmas.Py
import Verif.Model.Maneuvers

/-!
# C69, C70: Hohmann transfers
-/

namespace Openspace

open Real

theorem mu_pos : 0 < Earth.MU := by norm_num [Earth.MU]

/-- the transfer, in closed form -/
theorem hohmann_ok {r1 r2 : ℝ} (h1 : 0 < r1) (h2 : 0 < r2) :
    Hohmann.new r1 r2 = .ok ⟨√(Earth.MU / r1), √(Earth.MU * (2 / r1 - 1 / ((r1 + r2) / 2))),
      √(Earth.MU * (2 / r2 - 1 / ((r1 + r2) / 2))), √(Earth.MU / r2),
      √(Earth.MU * (2 / r1 - 1 / ((r1 + r2) / 2))) - √(Earth.MU / r1),
      √(Earth.MU / r2) - √(Earth.MU * (2 / r2 - 1 / ((r1 + r2) / 2)))⟩ := by
  have hmu := mu_pos
  have hs : 0 < (r1 + r2) / 2 := by positivity
  have e1 : 0 ≤ Earth.MU * (2 / r1 - 1 / ((r1 + r2) / 2)) := by
    have : 2 / r1 - 1 / ((r1 + r2) / 2) = 2 * r2 / (r1 * (r1 + r2)) := by field_simp; ring
    rw [this]; positivity
  have e2 : 0 ≤ Earth.MU * (2 / r2 - 1 / ((r1 + r2) / 2)) := by
    have : 2 / r2 - 1 / ((r1 + r2) / 2) = 2 * r1 / (r2 * (r1 + r2)) := by field_simp; ring
    rw [this]; positivity
  simp only [Hohmann.new, circularVelocity, eccentricVelocity, pyDiv_ok h1.ne', pyDiv_ok h2.ne', pyDiv_ok hs.ne',
    ok_bind, pySqrt_ok (div_pos hmu h1).le, pySqrt_ok (div_pos hmu h2).le, pySqrt_ok e1, pySqrt_ok e2, pure_eq_ok]

/-- the constructor returns exactly for positive radii -/
theorem C69_defined (r1 r2 : ℝ) : (∃ h, Hohmann.new r1 r2 = .ok h) ↔ 0 < r1 ∧ 0 < r2 := by
  constructor
  · rintro ⟨h, hh⟩
    simp only [Hohmann.new, circularVelocity, bind_eq_ok] at hh
    obtain ⟨v0, ⟨q1, hq1, hs1⟩, _, -, _, -, v3, ⟨q2, hq2, hs2⟩, -⟩ := hh
    have key : ∀ {r q v : ℝ}, pyDiv Earth.MU r = .ok q → pySqrt q = .ok v → 0 < r := by
      intro r q v h1 h2
      rw [pyDiv_eq_ok] at h1
      rw [pySqrt_eq_ok] at h2
      rcases lt_trichotomy r 0 with h | h | h
      · have := div_neg_of_pos_of_neg mu_pos h
        rw [h1.2] at this
        linarith [h2.1]
      · exact absurd h h1.1
      · exact h
    exact ⟨key hq1 hs1, key hq2 hs2⟩
  · rintro ⟨h1, h2⟩
    exact ⟨_, hohmann_ok h1 h2⟩

/-- vis-viva and conservation of angular momentum: the circular speeds balance gravity, the transfer speeds
share the energy of an ellipse with semi-major axis `(r1 + r2) / 2` and the same angular momentum, and the
burns are the differences of the speeds -/
theorem C69_laws (r1 r2 : ℝ) (h : Hohmann) (hh : Hohmann.new r1 r2 = .ok h) :
    h.initial_velocity ^ 2 / r1 = Earth.MU / r1 ^ 2 ∧ h.final_velocity ^ 2 / r2 = Earth.MU / r2 ^ 2 ∧
    r1 * h.transfer_velocity_1 = r2 * h.transfer_velocity_2 ∧
    h.transfer_velocity_1 ^ 2 / 2 - Earth.MU / r1 = -Earth.MU / (r1 + r2) ∧
    h.transfer_velocity_2 ^ 2 / 2 - Earth.MU / r2 = -Earth.MU / (r1 + r2) ∧
    h.initial_velocity + h.delta_v_1 = h.transfer_velocity_1 ∧
    h.transfer_velocity_2 + h.delta_v_2 = h.final_velocity ∧
    0 < h.initial_velocity ∧ 0 < h.transfer_velocity_1 ∧ 0 < h.transfer_velocity_2 ∧ 0 < h.final_velocity := by
  obtain ⟨h1, h2⟩ := (C69_defined r1 r2).mp ⟨h, hh⟩
  rw [hohmann_ok h1 h2] at hh
  simp only [Except.ok.injEq] at hh
  subst hh
  have hmu := mu_pos
  have hs : 0 < r1 + r2 := by positivity
  have f1 : Earth.MU * (2 / r1 - 1 / ((r1 + r2) / 2)) = 2 * Earth.MU / (r1 * r2 * (r1 + r2)) * r2 ^ 2 := by
    field_simp; ring
  have f2 : Earth.MU * (2 / r2 - 1 / ((r1 + r2) / 2)) = 2 * Earth.MU / (r1 * r2 * (r1 + r2)) * r1 ^ 2 := by
    field_simp; ring
  have hk : 0 < 2 * Earth.MU / (r1 * r2 * (r1 + r2)) := by positivity
  have g1 : √(Earth.MU * (2 / r1 - 1 / ((r1 + r2) / 2))) = √(2 * Earth.MU / (r1 * r2 * (r1 + r2))) * r2 := by
    rw [f1, sqrt_mul hk.le, sqrt_sq h2.le]
  have g2 : √(Earth.MU * (2 / r2 - 1 / ((r1 + r2) / 2))) = √(2 * Earth.MU / (r1 * r2 * (r1 + r2))) * r1 := by
    rw [f2, sqrt_mul hk.le, sqrt_sq h1.le]
  have hkk := sq_sqrt hk.le
  have hkp := sqrt_pos.mpr hk
  simp only [g1, g2]
  refine ⟨?_, ?_, by ring, ?_, ?_, by ring, by ring, sqrt_pos.mpr (by positivity), by positivity, by positivity,
    sqrt_pos.mpr (by positivity)⟩
  · rw [sq_sqrt (by positivity)]; field_simp
  · rw [sq_sqrt (by positivity)]; field_simp
  · rw [mul_pow, hkk]; field_simp; ring
  · rw [mul_pow, hkk]; field_simp; ring

/-- the signs of the burns -/
theorem C69_signs (r1 r2 : ℝ) (h : Hohmann) (hh : Hohmann.new r1 r2 = .ok h) :
    (r1 < r2 ↔ 0 < h.delta_v_1) ∧ (r1 < r2 ↔ 0 < h.delta_v_2) ∧
    (r1 = r2 ↔ h.delta_v_1 = 0) ∧ (r1 = r2 ↔ h.delta_v_2 = 0) ∧
    (r2 < r1 ↔ h.delta_v_1 < 0) ∧ (r2 < r1 ↔ h.delta_v_2 < 0) := by
  obtain ⟨h1, h2⟩ := (C69_defined r1 r2).mp ⟨h, hh⟩
  obtain ⟨l1, l2, -, l4, l5, l6, l7, p1, p2, p3, p4⟩ := C69_laws r1 r2 h hh
  have hmu := mu_pos
  have hs : 0 < r1 + r2 := by positivity
  have e1 : h.initial_velocity ^ 2 = Earth.MU / r1 := by
    have : h.initial_velocity ^ 2 = h.initial_velocity ^ 2 / r1 * r1 := by field_simp
    rw [this, l1]; field_simp
  have e2 : h.final_velocity ^ 2 = Earth.MU / r2 := by
    have : h.final_velocity ^ 2 = h.final_velocity ^ 2 / r2 * r2 := by field_simp
    rw [this, l2]; field_simp
  have d1 : h.delta_v_1 * (h.transfer_velocity_1 + h.initial_velocity) = Earth.MU / (r1 * (r1 + r2)) * (r2 - r1) := by
    have : h.delta_v_1 * (h.transfer_velocity_1 + h.initial_velocity) =
        h.transfer_velocity_1 ^ 2 - h.initial_velocity ^ 2 := by rw [← l6]; ring
    rw [this, e1, show h.transfer_velocity_1 ^ 2 = 2 * (-Earth.MU / (r1 + r2) + Earth.MU / r1) by linarith]
    field_simp; ring
  have d2 : h.delta_v_2 * (h.transfer_velocity_2 + h.final_velocity) = Earth.MU / (r2 * (r1 + r2)) * (r2 - r1) := by
    have : h.delta_v_2 * (h.transfer_velocity_2 + h.final_velocity) =
        h.final_velocity ^ 2 - h.transfer_velocity_2 ^ 2 := by rw [← l7]; ring
    rw [this, e2, show h.transfer_velocity_2 ^ 2 = 2 * (-Earth.MU / (r1 + r2) + Earth.MU / r2) by linarith]
    field_simp; ring
  have key : ∀ {d s k : ℝ}, 0 < s → 0 < k → d * s = k * (r2 - r1) →
      (r1 < r2 ↔ 0 < d) ∧ (r1 = r2 ↔ d = 0) ∧ (r2 < r1 ↔ d < 0) := by
    intro d s k hs hk hd
    have a1 : r1 < r2 → 0 < d := fun h => by
      have : 0 < d * s := by rw [hd]; exact mul_pos hk (by linarith)
      exact (pos_iff_pos_of_mul_pos this).mpr hs
    have a2 : r1 = r2 → d = 0 := fun h => by
      rw [h, sub_self, mul_zero] at hd
      exact (mul_eq_zero.mp hd).resolve_right hs.ne'
    have a3 : r2 < r1 → d < 0 := fun h => by
      have : d * s < 0 := by rw [hd]; exact mul_neg_of_pos_of_neg hk (by linarith)
      by_contra hc
      exact absurd this (not_lt.mpr (mul_nonneg (not_lt.mp hc) hs.le))
    rcases lt_trichotomy r1 r2 with h | h | h
    · have := a1 h
      exact ⟨⟨a1, fun _ => h⟩, ⟨a2, fun hc => by linarith⟩, ⟨a3, fun hc => by linarith⟩⟩
    · have := a2 h
      exact ⟨⟨a1, fun hc => by linarith⟩, ⟨a2, fun _ => h⟩, ⟨a3, fun hc => by linarith⟩⟩
    · have := a3 h
      exact ⟨⟨a1, fun hc => by linarith⟩, ⟨a2, fun hc => by linarith⟩, ⟨a3, fun _ => h⟩⟩
  obtain ⟨k1, k2, k3⟩ := key (add_pos p2 p1) (show 0 < Earth.MU / (r1 * (r1 + r2)) by positivity) d1
  obtain ⟨k4, k5, k6⟩ := key (add_pos p3 p4) (show 0 < Earth.MU / (r2 * (r1 + r2)) by positivity) d2
  exact ⟨k1, k4, k2, k5, k3, k6⟩

/-- going back swaps and negates the burns -/
theorem C69_reverse (r1 r2 : ℝ) (h k : Hohmann) (hh : Hohmann.new r1 r2 = .ok h) (hk : Hohmann.new r2 r1 = .ok k) :
    k.delta_v_1 = -h.delta_v_2 ∧ k.delta_v_2 = -h.delta_v_1 := by
  obtain ⟨h1, h2⟩ := (C69_defined r1 r2).mp ⟨h, hh⟩
  rw [hohmann_ok h1 h2] at hh
  rw [hohmann_ok h2 h1] at hk
  simp only [Except.ok.injEq] at hh hk
  subst hh hk
  rw [add_comm r2 r1]
  constructor <;> simp only <;> ring

example : ∃ h, Hohmann.new 6678 42164 = .ok h ∧ 0 < h.delta_v_1 ∧ 0 < h.delta_v_2 := by
  obtain ⟨h, hh⟩ := (C69_defined 6678 42164).mpr ⟨by norm_num, by norm_num⟩
  obtain ⟨k1, k2, -⟩ := C69_signs _ _ h hh
  exact ⟨h, hh, k1.mp (by norm_num), k2.mp (by norm_num)⟩

/-- the property is false for every transfer to a lower orbit: both "magnitudes" are negative -/
theorem C70_violated (r1 r2 : ℝ) (h2 : 0 < r2) (h12 : r2 < r1) :
    ∃ h, Hohmann.new r1 r2 = .ok h ∧ h.delta_v_1 < 0 ∧ h.delta_v_2 < 0 := by
  obtain ⟨h, hh⟩ := (C69_defined r1 r2).mpr ⟨by linarith, h2⟩
  obtain ⟨-, -, -, -, k5, k6⟩ := C69_signs _ _ h hh
  exact ⟨h, hh, k5.mp h12, k6.mp h12⟩

/-- what does hold: raising (or keeping) the orbit gives non-negative burns, and the magnitude of the
difference of the speeds is always the absolute value of the attribute -/
theorem C70_raising_partial (r1 r2 : ℝ) (h : Hohmann) (hh : Hohmann.new r1 r2 = .ok h) :
    (r1 ≤ r2 ↔ 0 ≤ h.delta_v_1) ∧ (r1 ≤ r2 ↔ 0 ≤ h.delta_v_2) ∧
    |h.delta_v_1| = |h.transfer_velocity_1 - h.initial_velocity| ∧
    |h.delta_v_2| = |h.final_velocity - h.transfer_velocity_2| := by
  obtain ⟨-, -, -, -, k5, k6⟩ := C69_signs _ _ h hh
  obtain ⟨-, -, -, -, -, l6, l7, -⟩ := C69_laws r1 r2 h hh
  refine ⟨?_, ?_, ?_, ?_⟩
  · rw [← not_lt, ← not_lt, k5]
  · rw [← not_lt, ← not_lt, k6]
  · rw [← l6]; congr 1; ring
  · rw [← l7]; congr 1; ring

end Openspace
