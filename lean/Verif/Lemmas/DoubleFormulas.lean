import Verif.Model.DoubleFunctions
import Verif.Lemmas.DoubleGeodetic

/-!
Rounding errors of compositions of single operations.
-/

namespace Openspace

open Real

namespace F64

theorem Near.mulr {y x y' x' k l : ℝ} (h : Near y x k) (h' : Near y' x' l) (hk0 : 0 ≤ k) (hl0 : 0 ≤ l) (hk : k ≤ 49000)
    (hl : l ≤ 49000) : Near (rnd (y * y')) (x * x') (k + l + 1.002) :=
  ((h.mul' h' hl0 hk0 (by linarith) (by linarith)).round' (by linarith) (by linarith)).mono (by linarith)

theorem Near.divr {y x y' x' k l : ℝ} (h : Near y x k) (h' : Near y' x' l) (hx' : x' ≠ 0) (hk0 : 0 ≤ k) (hl0 : 0 ≤ l)
    (hk : k ≤ 49000) (hl : l ≤ 49000) : ∃ z, div y y' = .ok z ∧ z = rnd (y / y') ∧ Near z (x / x') (k + l + 1.003) := by
  obtain ⟨h1, h2⟩ := h.div' h' hx' hl0 hk0 (by linarith) (by linarith)
  exact ⟨_, div_ok h1, rfl, (h2.round' (by linarith) (by linarith)).mono (by linarith)⟩

theorem Near.addr {y x y' x' k : ℝ} (h : Near y x k) (h' : Near y' x' k) (hx : 0 ≤ x) (hx' : 0 ≤ x') (hk0 : 0 ≤ k)
    (hk : k ≤ 98000) : Near (rnd (y + y')) (x + x') (k + 1.001) :=
  (h.add h' hx hx').round' hk0 (by linarith)

theorem Near.sqrtr {y x k : ℝ} (h : Near y x k) (hx : 0 ≤ x) (hy : 0 ≤ y) (hk0 : 0 ≤ k) (hk : k ≤ 98000) :
    ∃ z, sqrt y = .ok z ∧ 0 ≤ z ∧ Near z (√x) (k + 1.001) :=
  ⟨_, sqrt_ok hy, rnd_nonneg (Real.sqrt_nonneg _), (near_sqrt h hx hy).round' hk0 (by linarith)⟩

theorem Near.nonneg {y x k : ℝ} (h : Near y x k) (hx : 0 ≤ x) (hk : k ≤ 1e5) : 0 ≤ y := by
  have hu := u_pos
  have hu' := u_tiny
  unfold Near at h
  rw [abs_of_nonneg hx] at h
  have h1 := (_root_.abs_le.mp h).1
  have h2 : k * u ≤ 1 := by
    calc k * u ≤ 1e5 * (12 / 10 ^ 17) := by gcongr
      _ ≤ 1 := by norm_num
  have : k * u * x ≤ 1 * x := by gcongr
  linarith

theorem Near.rel {y x k c : ℝ} (h : Near y x k) (hk : 12 * k ≤ c * 10 ^ 17) : |y - x| ≤ c * |x| := by
  have hu := u_pos
  have hu' := u_tiny
  unfold Near at h
  refine h.trans ?_
  rcases le_or_gt 0 k with h0 | h0
  · have : k * u ≤ c := by
      calc k * u ≤ k * (12 / 10 ^ 17) := by gcongr
        _ ≤ c := by rw [mul_div_assoc', div_le_iff₀ (by norm_num)]; linarith
    gcongr
  · have h1 := (abs_nonneg _).trans h
    have : k * u * |x| ≤ 0 := by
      have := mul_neg_of_neg_of_pos h0 hu
      nlinarith [abs_nonneg x]
    have hx : |x| = 0 := by
      by_contra hne
      have : 0 < |x| := lt_of_le_of_ne (abs_nonneg _) (Ne.symm hne)
      have := mul_neg_of_neg_of_pos (mul_neg_of_neg_of_pos h0 hu) this
      linarith
    rw [hx]; simp

theorem near_sub {y x y' x' k κ : ℝ} (h : Near y x k) (h' : Near y' x' k) (hx : 0 ≤ x) (hx' : 0 ≤ x') (hk0 : 0 ≤ k)
    (hκ : x + x' ≤ κ * (x - x')) (hd : 0 ≤ x - x') : Near (y - y') (x - x') (k * κ) := by
  have hu := u_pos
  unfold Near at *
  rw [abs_of_nonneg hx] at h
  rw [abs_of_nonneg hx'] at h'
  rw [abs_of_nonneg hd, show y - y' - (x - x') = (y - x) - (y' - x') by ring]
  refine (abs_sub _ _).trans ?_
  have : k * u * (x + x') ≤ k * u * (κ * (x - x')) := by gcongr
  linarith

theorem near_two_pi : Near (rnd (2 * pi)) (2 * π) 2.1 := by
  have h : Near pi π 1 := near_rnd _
  exact ((Near.refl 2).mulr h (by norm_num) (by norm_num) (by norm_num) (by norm_num)).mono (by norm_num)

/-- the vis-viva law -/
theorem visViva_near {a' a m' m r k κ : ℝ} (hr : 0 < r) (ha : 0 < a) (hm : 0 < m) (hm' : 0 < m') (hma : Near m' m 1) (haa : Near a' a k)
    (hk0 : 0 ≤ k) (hk : k ≤ 2.01) (hκ : 2 / r + 1 / a ≤ κ * (2 / r - 1 / a)) (hκ1 : 1 ≤ κ) (hκ2 : κ ≤ 30001) :
    ∃ v, vFromAMuR a' m' r = .ok v ∧ 0 ≤ v ∧ Near v (√(m * (2 / r - 1 / a))) (7.1 * κ) := by
  have hD : 0 ≤ 2 / r - 1 / a := by
    have : 0 < 2 / r + 1 / a := by positivity
    by_contra h
    push Not at h
    nlinarith
  obtain ⟨t1, e1, -, n1⟩ := (Near.refl 2).divr (Near.refl r) hr.ne' le_rfl le_rfl (by norm_num) (by norm_num)
  obtain ⟨t2, e2, -, n2⟩ := (Near.refl 1).divr haa ha.ne' le_rfl hk0 (by norm_num) (by linarith)
  have d1 := near_sub (n1.mono (l := 3.02) (by norm_num)) (n2.mono (l := 3.02) (by linarith)) (by positivity) (by positivity)
    (by norm_num) hκ hD
  have d2 := (d1.round' (by linarith) (by linarith)).nonneg hD (by linarith)
  have d3 := (d1.round' (by linarith) (by linarith)).mul' hma (by linarith) (by linarith) (by linarith) (by norm_num)
  have d4 := d3.round' (by linarith) (by linarith)
  rw [mul_comm _ m', mul_comm _ m] at d4
  obtain ⟨v, e3, v0, n3⟩ := d4.sqrtr (mul_nonneg hm.le hD) (rnd_nonneg (mul_nonneg hm'.le d2)) (by linarith) (by linarith)
  refine ⟨v, ?_, v0, n3.mono (by linarith)⟩
  rw [vFromAMuR, e1, e2]
  exact e3

end F64

end Openspace
