import Verif.Model.DoubleElements
import Verif.Lemmas.DoubleKepler
import Verif.Lemmas.ElementsState

/-! # Evaluating rounded operations -/

namespace Openspace.F64

/-- rounding to the nearest multiple of the unit in the last place -/
theorem rnd_eq {x : ℝ} (n k : ℤ) (h1 : 2 ^ 52 * 2 ^ k ≤ x) (h2 : x < 2 ^ 53 * 2 ^ k)
    (h : |x - n * 2 ^ k| < 2 ^ k / 2) : rnd x = n * 2 ^ k := by
  have hk : (0 : ℝ) < 2 ^ k := zpow_pos (by norm_num) _
  have hx : 0 < x := lt_of_lt_of_le (by positivity) h1
  have e1 : ((2 : ℕ) : ℝ) ^ (52 + k) = 2 ^ 52 * 2 ^ k := by
    rw [zpow_add₀ (by norm_num)]; norm_num
  have e2 : ((2 : ℕ) : ℝ) ^ (52 + k + 1) = 2 ^ 53 * 2 ^ k := by
    rw [zpow_add_one₀ (by norm_num), e1]; push_cast; ring
  have hl : Int.log 2 x = 52 + k := by
    apply le_antisymm
    · rw [← Int.lt_add_one_iff, ← Int.lt_zpow_iff_log_lt (by norm_num) hx, e2]; exact h2
    · rw [← Int.zpow_le_iff_le_log (by norm_num) hx, e1]; exact h1
  rw [rnd, if_neg hx.ne', ulp, abs_of_pos hx, hl, show 52 + k - 52 = k by ring]
  congr 1
  norm_cast
  apply roundEven_eq
  have : x / 2 ^ k - n = (x - n * 2 ^ k) / 2 ^ k := by field_simp
  rw [this, abs_div, abs_of_pos hk, div_lt_iff₀ hk]
  linarith

theorem rnd_pos {x : ℝ} (hx : 0 < x) : 0 < rnd x := by
  have h := rnd_u x
  have hu := u_small
  rw [abs_of_pos hx, abs_le] at h
  nlinarith [h.1]

theorem rnd_nonneg {x : ℝ} (hx : 0 ≤ x) : 0 ≤ rnd x := by
  rcases hx.eq_or_lt with h | h
  · rw [← h, rnd_zero]
  · exact (rnd_pos h).le

theorem rnd_neg {x : ℝ} (hx : x < 0) : rnd x < 0 := by
  have h := rnd_u x
  have hu := u_small
  rw [abs_of_neg hx, abs_le] at h
  nlinarith [h.2]

theorem div_ok {a b : ℝ} (h : b ≠ 0) : div a b = .ok (rnd (a / b)) := by
  simp [div, pyDiv_ok h]

theorem sqrt_ok {x : ℝ} (h : 0 ≤ x) : sqrt x = .ok (rnd (√x)) := by
  simp [sqrt, pySqrt_ok h]

/-! ## errors -/

/-- `y` is close to `x`, with a relative error of `k` units -/
def Near (y x k : ℝ) : Prop := |y - x| ≤ k * u * |x|

theorem abs_le_of_near {y x k : ℝ} (h : Near y x k) : |y| ≤ (1 + k * u) * |x| := by
  have := abs_sub_abs_le_abs_sub y x
  unfold Near at h
  linarith

theorem Near.round {y x k : ℝ} (h : Near y x k) (hk0 : 0 ≤ k) (hk : k ≤ 100) : Near (rnd y) x (k + 1.001) := by
  have h1 := abs_le_of_near h
  have h2 := rnd_u y
  have hu := u_pos
  have hu' := u_small
  have h3 := abs_sub_le (rnd y) y x
  unfold Near at h ⊢
  have h4 : u * |y| ≤ u * ((1 + k * u) * |x|) := by gcongr
  have h5 : (1 + k * u) ≤ 1.001 := by nlinarith
  have h6 : u * ((1 + k * u) * |x|) ≤ u * (1.001 * |x|) := by gcongr
  linarith

theorem Near.refl (x : ℝ) : Near x x 0 := by simp [Near]

theorem Near.mono {y x k l : ℝ} (h : Near y x k) (hkl : k ≤ l) : Near y x l := by
  unfold Near at *
  have hu := u_pos
  refine h.trans ?_
  gcongr

theorem near_rnd (x : ℝ) : Near (rnd x) x 1 := by
  unfold Near; rw [one_mul]; exact rnd_u x

theorem Near.add {y x y' x' k : ℝ} (h : Near y x k) (h' : Near y' x' k) (hx : 0 ≤ x) (hx' : 0 ≤ x') :
    Near (y + y') (x + x') k := by
  unfold Near at *
  rw [abs_of_nonneg hx] at h
  rw [abs_of_nonneg hx'] at h'
  rw [abs_of_nonneg (add_nonneg hx hx'), show y + y' - (x + x') = (y - x) + (y' - x') by ring]
  have := abs_add_le (y - x) (y' - x')
  linarith

theorem Near.mul {y x y' x' k l : ℝ} (h : Near y x k) (h' : Near y' x' l) (hl0 : 0 ≤ l) (hk0 : 0 ≤ k) (hk : k ≤ 100)
    (hl : l ≤ 100) : Near (y * y') (x * x') (k + l + 0.001) := by
  have h1 := abs_le_of_near h'
  have hu := u_pos
  have hu' := u_small
  unfold Near at *
  rw [show y * y' - x * x' = (y - x) * y' + x * (y' - x') by ring, abs_mul x x']
  have h2 := abs_add_le ((y - x) * y') (x * (y' - x'))
  rw [abs_mul, abs_mul] at h2
  have h3 : |y - x| * |y'| ≤ (k * u * |x|) * ((1 + l * u) * |x'|) := by gcongr
  have h4 : |x| * |y' - x'| ≤ |x| * (l * u * |x'|) := by gcongr
  have h5 : k * (l * u) ≤ 0.001 := by
    have : l * u ≤ 100 * u := by gcongr
    have : k * (l * u) ≤ 100 * (100 * u) := by gcongr
    linarith
  have h6 : k * (l * u) * (u * (|x| * |x'|)) ≤ 0.001 * (u * (|x| * |x'|)) := by gcongr
  linarith

theorem near_sqrt {y x k : ℝ} (h : Near y x k) (hx : 0 ≤ x) (hy : 0 ≤ y) : Near (√y) (√x) k := by
  have hu := u_pos
  unfold Near at *
  rw [abs_of_nonneg (Real.sqrt_nonneg x)]
  rw [abs_of_nonneg hx] at h
  rcases hx.eq_or_lt with h0 | h0
  · rw [← h0] at h ⊢
    have : y = 0 := by simpa using h
    rw [this]; simp
  · have hs := Real.sqrt_pos.mpr h0
    have hs2 := Real.mul_self_sqrt h0.le
    have ht := Real.sqrt_nonneg y
    have ht2 := Real.mul_self_sqrt hy
    have e : |√y - √x| * (√y + √x) = |y - x| := by
      rw [← abs_of_pos (show 0 < √y + √x by linarith), ← abs_mul]
      congr 1
      linear_combination ht2 - hs2
    have h1 : |√y - √x| * √x ≤ |y - x| := by
      rw [← e]; gcongr; linarith
    have h2 : |√y - √x| * √x ≤ (k * u * √x) * √x := by
      calc _ ≤ k * u * x := h1.trans h
        _ = _ := by rw [mul_assoc (k * u), hs2]
    exact le_of_mul_le_mul_right h2 hs

theorem dot_self_near (v : Vec3) : Near (dot v v) (v.dot v) 3.1 ∧ 0 ≤ dot v v := by
  have h1 := near_rnd (v.x * v.x)
  have h2 := near_rnd (v.y * v.y)
  have h3 := near_rnd (v.z * v.z)
  have p1 := mul_self_nonneg v.x
  have p2 := mul_self_nonneg v.y
  have p3 := mul_self_nonneg v.z
  have h4 := (h1.add h2 p1 p2).round (by norm_num) (by norm_num)
  have h5 := ((h4.add (h3.mono (by norm_num)) (by positivity) p3).round (by norm_num) (by norm_num))
  refine ⟨h5.mono (by norm_num), ?_⟩
  exact rnd_nonneg (add_nonneg (rnd_nonneg (add_nonneg (rnd_nonneg p1) (rnd_nonneg p2))) (rnd_nonneg p3))

theorem magnitude_near (v : Vec3) : Near (magnitude v) v.magnitude 4.2 := by
  obtain ⟨h, h0⟩ := dot_self_near v
  have := (near_sqrt h (Vec3.dot_self_nonneg v) h0).round (by norm_num) (by norm_num)
  exact this.mono (by norm_num)

theorem cross_component (a b c d : ℝ) :
    |rnd (rnd (a * b) - rnd (c * d)) - (a * b - c * d)| ≤ 2.1 * u * (|a * b| + |c * d|) := by
  have hu := u_pos
  have hu' := u_small
  have h1 := rnd_u (a * b)
  have h2 := rnd_u (c * d)
  have h3 := rnd_u (rnd (a * b) - rnd (c * d))
  obtain ⟨x, hx⟩ : ∃ x, x = a * b := ⟨_, rfl⟩
  obtain ⟨y, hy⟩ : ∃ y, y = c * d := ⟨_, rfl⟩
  rw [← hx] at h1 h3 ⊢
  rw [← hy] at h2 h3 ⊢
  have t1 : |rnd x - rnd y - (x - y)| ≤ u * |x| + u * |y| := by
    rw [show rnd x - rnd y - (x - y) = (rnd x - x) - (rnd y - y) by ring]
    exact (abs_sub _ _).trans (add_le_add h1 h2)
  have t2 : |rnd x - rnd y| ≤ (1 + u) * (|x| + |y|) := by
    have i1 := abs_sub_abs_le_abs_sub (rnd x - rnd y) (x - y)
    have i2 := abs_sub x y
    linarith
  have t3 := abs_sub_le (rnd (rnd x - rnd y)) (rnd x - rnd y) (x - y)
  have t4 : u * |rnd x - rnd y| ≤ u * ((1 + u) * (|x| + |y|)) := by gcongr
  have t5 : u * ((1 + u) * (|x| + |y|)) ≤ u * (1.1 * (|x| + |y|)) := by
    have := abs_nonneg x; have := abs_nonneg y
    gcongr; linarith
  linarith

theorem cross_near (a b : Vec3) :
    ((cross a b).minus (a.cross b)).magnitude ≤ 3 * u * (a.magnitude * b.magnitude) := by
  have hu := u_pos
  have ha := Vec3.magnitude_nonneg a
  have hb := Vec3.magnitude_nonneg b
  apply abs_le_of_sq_le_sq' _ (by positivity) |>.2
  have c1 := cross_component a.y b.z a.z b.y
  have c2 := cross_component a.z b.x a.x b.z
  have c3 := cross_component a.x b.y a.y b.x
  have key : ∀ {e x y : ℝ}, |e| ≤ 2.1 * u * (|x| + |y|) → e * e ≤ 8.82 * u ^ 2 * (x ^ 2 + y ^ 2) := by
    intro e x y h
    have h1 : |e| ^ 2 ≤ (2.1 * u * (|x| + |y|)) ^ 2 := by gcongr
    rw [sq_abs] at h1
    have h2 : (|x| + |y|) ^ 2 ≤ 2 * (x ^ 2 + y ^ 2) := by
      rw [← sq_abs x, ← sq_abs y]; nlinarith [sq_nonneg (|x| - |y|)]
    have h3 : u ^ 2 * (|x| + |y|) ^ 2 ≤ u ^ 2 * (2 * (x ^ 2 + y ^ 2)) := by gcongr
    nlinarith
  have d1 := key c1
  have d2 := key c2
  have d3 := key c3
  have hm : (3 * u * (a.magnitude * b.magnitude)) ^ 2
      = 9 * u ^ 2 * ((a.x * a.x + a.y * a.y + a.z * a.z) * (b.x * b.x + b.y * b.y + b.z * b.z)) := by
    rw [← Vec3.magnitude_sq, ← Vec3.magnitude_sq]; ring
  rw [hm, Vec3.magnitude_sq]
  have hs : (a.y * b.z) ^ 2 + (a.z * b.y) ^ 2 + ((a.z * b.x) ^ 2 + (a.x * b.z) ^ 2)
      + ((a.x * b.y) ^ 2 + (a.y * b.x) ^ 2)
      ≤ (a.x * a.x + a.y * a.y + a.z * a.z) * (b.x * b.x + b.y * b.y + b.z * b.z) := by
    nlinarith [sq_nonneg (a.x * b.x), sq_nonneg (a.y * b.y), sq_nonneg (a.z * b.z)]
  have hu2 : 0 < u ^ 2 := by positivity
  have hs' := mul_le_mul_of_nonneg_left hs hu2.le
  have hpos : 0 ≤ u ^ 2 * ((a.x * a.x + a.y * a.y + a.z * a.z) * (b.x * b.x + b.y * b.y + b.z * b.z)) := by
    rw [← Vec3.magnitude_sq, ← Vec3.magnitude_sq]; positivity
  simp only [Vec3.minus, Vec3.cross, cross] at d1 d2 d3 ⊢
  linarith

theorem magnitude_sub_le (a b : Vec3) : |a.magnitude - b.magnitude| ≤ (a.minus b).magnitude := by
  have e : (a.minus b).toE = a.toE - b.toE := by
    ext i; fin_cases i <;> simp [Vec3.toE, Vec3.minus, Vec3.toFun]
  rw [← Vec3.norm_toE, ← Vec3.norm_toE, ← Vec3.norm_toE, e]
  exact abs_norm_sub_norm_le _ _

/-- the computed angular momentum -/
theorem momentum_near (p v : Vec3) :
    |magnitude (cross p v) - (p.cross v).magnitude| ≤ 7.3 * u * (p.magnitude * v.magnitude) := by
  have hu := u_pos
  have hu' := u_small
  have h1 := magnitude_near (cross p v)
  have h2 := cross_near p v
  have h3 := (magnitude_sub_le (cross p v) (p.cross v)).trans h2
  have h4 : (p.cross v).magnitude ≤ p.magnitude * v.magnitude := by
    apply abs_le_of_sq_le_sq' _ (mul_nonneg (Vec3.magnitude_nonneg _) (Vec3.magnitude_nonneg _)) |>.2
    rw [mul_pow, Vec3.magnitude_sq_dot, Vec3.magnitude_sq_dot, Vec3.magnitude_sq_dot, Vec3.lagrange]
    nlinarith [sq_nonneg (p.dot v)]
  have hB : 0 ≤ p.magnitude * v.magnitude := mul_nonneg (Vec3.magnitude_nonneg _) (Vec3.magnitude_nonneg _)
  obtain ⟨B, hBe⟩ : ∃ B, B = p.magnitude * v.magnitude := ⟨_, rfl⟩
  rw [← hBe] at h3 h4 hB ⊢
  unfold Near at h1
  rw [abs_of_nonneg (Vec3.magnitude_nonneg _)] at h1
  have h5 := abs_sub_le (magnitude (cross p v)) (cross p v).magnitude (p.cross v).magnitude
  have h6 : (cross p v).magnitude ≤ 1.01 * B := by
    have := (abs_le.mp h3).2
    nlinarith
  have h7 : 4.2 * u * (cross p v).magnitude ≤ 4.2 * u * (1.01 * B) := by gcongr
  nlinarith

theorem near_inv {y x k : ℝ} (h : Near y x k) (hx : x ≠ 0) (hk0 : 0 ≤ k) (hk : k ≤ 100) :
    y ≠ 0 ∧ Near (1 / y) (1 / x) (k + 0.001) := by
  have hu := u_pos
  have hu' := u_small
  have hx0 := abs_pos.mpr hx
  unfold Near at *
  have hku : k * u ≤ 1e-10 := by
    have : k * u ≤ 100 * u := by gcongr
    linarith
  have h1 : (1 - k * u) * |x| ≤ |y| := by
    have := abs_sub_abs_le_abs_sub x y
    rw [abs_sub_comm] at this
    linarith
  have hy0 : 0 < |y| := lt_of_lt_of_le (mul_pos (by linarith) hx0) h1
  have hy : y ≠ 0 := abs_pos.mp hy0
  refine ⟨hy, ?_⟩
  rw [div_sub_div _ _ hy hx, abs_div, abs_div, abs_one, abs_mul, div_le_iff₀ (by positivity)]
  rw [show 1 * x - y * 1 = -(y - x) by ring, abs_neg]
  have e : (k + 0.001) * u * (1 / |x|) * (|y| * |x|) = (k + 0.001) * u * |y| := by field_simp
  rw [e]
  have h2 : (k + 0.001) * u * ((1 - k * u) * |x|) ≤ (k + 0.001) * u * |y| := by gcongr
  have h3 : k ≤ (k + 0.001) * (1 - k * u) := by nlinarith
  have h4 : k * (u * |x|) ≤ (k + 0.001) * (1 - k * u) * (u * |x|) := by gcongr
  linarith

theorem mu_near : Near mu Earth.MU 1 := near_rnd _

theorem mu_pos' : 0 < mu := rnd_pos mu_pos

/-- the computed reciprocal of the semi-major axis -/
theorem axis_near {r v r' v' x : ℝ} (hr : 0 < r) (hr' : Near r' r 4.2) (hv' : Near v' v 4.2)
    (hx : x = 2 / r - v * v / Earth.MU) (hx0 : 1e-12 / r ≤ x) :
    ∃ a', aFromMuRV mu r' v' = .ok a' ∧ 0 < a' ∧ |1 / a' - x| ≤ 40 * u / r ∧ 1 / a' ≤ 2.01 / r := by
  have hu := u_pos
  have hu' := u_small
  have hmu := mu_pos
  obtain ⟨hr0, i1⟩ := near_inv hr' hr.ne' (by norm_num) (by norm_num)
  obtain ⟨hm0, i2⟩ := near_inv mu_near hmu.ne' (by norm_num) (by norm_num)
  have t1 : Near (rnd (2 / r')) (2 / r) 5.21 := by
    have := (((Near.refl 2).mul i1 (by norm_num) le_rfl (by norm_num) (by norm_num)).round (by norm_num) (by norm_num))
    rw [mul_one_div, mul_one_div] at this
    exact this.mono (by norm_num)
  have t2 : Near (rnd (rnd (v' * v') / mu)) (v * v / Earth.MU) 11.5 := by
    have := (((hv'.mul hv' (by norm_num) (by norm_num) (by norm_num) (by norm_num)).round (by norm_num) (by norm_num)).mul
      i2 (by norm_num) (by norm_num) (by norm_num) (by norm_num)).round (by norm_num) (by norm_num)
    rw [mul_one_div, mul_one_div] at this
    exact this.mono (by norm_num)
  have hT2 : 0 ≤ v * v / Earth.MU := div_nonneg (mul_self_nonneg _) hmu.le
  have hT1 : 0 < 2 / r := by positivity
  have hxp : 0 < x := lt_of_lt_of_le (by positivity) hx0
  unfold Near at t1 t2
  rw [abs_of_pos hT1] at t1
  rw [abs_of_nonneg hT2] at t2
  obtain ⟨A, hA⟩ : ∃ A, A = rnd (2 / r') := ⟨_, rfl⟩
  obtain ⟨B, hB⟩ : ∃ B, B = rnd (rnd (v' * v') / mu) := ⟨_, rfl⟩
  rw [← hA] at t1
  rw [← hB] at t2
  obtain ⟨R, hR⟩ : ∃ R, R = 1 / r := ⟨_, rfl⟩
  have hR0 : 0 < R := by rw [hR]; positivity
  have e1 : 2 / r = 2 * R := by rw [hR]; ring
  have e2 : (1e-12 : ℝ) / r = 1e-12 * R := by rw [hR]; ring
  have e3 : 40 * u / r = 40 * u * R := by rw [hR]; ring
  have e4 : (2.01 : ℝ) / r = 2.01 * R := by rw [hR]; ring
  rw [e1] at t1 hx
  rw [e2] at hx0
  rw [e3, e4]
  obtain ⟨T, hT⟩ : ∃ T, T = v * v / Earth.MU := ⟨_, rfl⟩
  rw [← hT] at t2 hx hT2
  have hTR : T ≤ 2 * R := by linarith
  have huR : 0 < u * R := by positivity
  have d1 : |A - B - x| ≤ 33.5 * (u * R) := by
    rw [hx, show A - B - (2 * R - T) = (A - 2 * R) - (B - T) by ring]
    have := abs_sub (A - 2 * R) (B - T)
    have hTu : u * T ≤ u * (2 * R) := by gcongr
    nlinarith
  have d2 : |A - B| ≤ 2.001 * R := by
    have := abs_sub_abs_le_abs_sub (A - B) x
    rw [abs_of_pos hxp] at this
    have : u * R ≤ 1.2e-16 * R := by gcongr
    nlinarith
  have d3 : |rnd (A - B) - x| ≤ 36 * (u * R) := by
    have := abs_sub_le (rnd (A - B)) (A - B) x
    have h3 := rnd_u (A - B)
    have h4 : u * |A - B| ≤ u * (2.001 * R) := by gcongr
    linarith
  obtain ⟨X, hX⟩ : ∃ X, X = rnd (A - B) := ⟨_, rfl⟩
  rw [← hX] at d3
  have hur : u * R ≤ 1.2e-16 * R := by gcongr
  have hXp : 0 < X := by
    have := (abs_le.mp d3).1
    nlinarith
  have hXu : X ≤ 2.005 * R := by
    have := (abs_le.mp d3).2
    nlinarith
  have hap : 0 < rnd (1 / X) := rnd_pos (by positivity)
  have hN : Near (rnd (1 / X)) (1 / X) 1 := near_rnd _
  obtain ⟨-, hI⟩ := near_inv hN (by positivity) (by norm_num) (by norm_num)
  rw [one_div_one_div] at hI
  unfold Near at hI
  rw [abs_of_pos hXp] at hI
  have d4 : |1 / rnd (1 / X) - x| ≤ 40 * u * R := by
    have := abs_sub_le (1 / rnd (1 / X)) X x
    have h4 : (1 + 0.001) * u * X ≤ (1 + 0.001) * u * (2.005 * R) := by gcongr
    nlinarith
  refine ⟨rnd (1 / X), ?_, hap, d4, ?_⟩
  · rw [aFromMuRV, div_ok hr0, ok_bind, div_ok hm0, ok_bind, ← hA, ← hB, ← hX, div_ok hXp.ne']
  · have := (abs_le.mp d4).2
    nlinarith

/-- the computed semi-parameter -/
theorem parameter_near {r B h h' : ℝ} (hB : 0 ≤ B) (hh : 0 ≤ h) (hhB : h ≤ B)
    (hh' : |h' - h| ≤ 7.3 * u * B) (hr : B * B / Earth.MU ≤ 2 * r) :
    ∃ p', pFromMuH mu h' = .ok p' ∧ |p' - h * h / Earth.MU| ≤ 37 * u * r := by
  have hu := u_pos
  have hu' := u_small
  have hmu := mu_pos
  obtain ⟨hm0, i2⟩ := near_inv mu_near hmu.ne' (by norm_num) (by norm_num)
  have hBB : 0 ≤ B * B := mul_self_nonneg B
  have hb : |h'| ≤ 1.0001 * B := by
    have := abs_sub_abs_le_abs_sub h' h
    rw [abs_of_nonneg hh] at this
    nlinarith
  have s1 : |h' * h' - h * h| ≤ 14.7 * u * (B * B) := by
    rw [show h' * h' - h * h = (h' - h) * (h' + h) by ring, abs_mul]
    have j1 : |h' + h| ≤ 2.0001 * B := by
      have := abs_add_le h' h
      rw [abs_of_nonneg hh] at this
      linarith
    calc _ ≤ (7.3 * u * B) * (2.0001 * B) := by gcongr
      _ ≤ _ := by nlinarith [mul_nonneg hu.le hBB]
  have s2 : |rnd (h' * h') - h * h| ≤ 15.8 * u * (B * B) := by
    have j1 := abs_sub_le (rnd (h' * h')) (h' * h') (h * h)
    have j2 := rnd_u (h' * h')
    have j3 : |h' * h'| ≤ 1.01 * (B * B) := by
      rw [abs_mul]
      calc |h'| * |h'| ≤ (1.0001 * B) * (1.0001 * B) := by gcongr
        _ ≤ _ := by nlinarith
    have j4 : u * |h' * h'| ≤ u * (1.01 * (B * B)) := by gcongr
    linarith [mul_nonneg hu.le hBB]
  obtain ⟨y, hy⟩ : ∃ y, y = rnd (h' * h') := ⟨_, rfl⟩
  rw [← hy] at s2
  unfold Near at i2
  obtain ⟨M, hM⟩ : ∃ M, M = 1 / Earth.MU := ⟨_, rfl⟩
  have hM0 : 0 < M := by rw [hM]; positivity
  rw [← hM, abs_of_pos hM0] at i2
  have hr' : B * B * M ≤ 2 * r := by rw [hM, mul_one_div]; exact hr
  have hBM : 0 ≤ B * B * M := by positivity
  have huBM : 0 ≤ u * (B * B * M) := by positivity
  have hhh : h * h ≤ B * B := by nlinarith
  have hy1 : |y| ≤ 1.01 * (B * B) := by
    have := abs_sub_abs_le_abs_sub y (h * h)
    rw [abs_of_nonneg (mul_self_nonneg h)] at this
    nlinarith [mul_nonneg hu.le hBB]
  have s3 : |y / mu - h * h * M| ≤ 17 * (u * (B * B * M)) := by
    rw [show y / mu - h * h * M = (y - h * h) * M + y * (1 / mu - M) by ring]
    have j1 := abs_add_le ((y - h * h) * M) (y * (1 / mu - M))
    rw [abs_mul, abs_mul, abs_of_pos hM0] at j1
    have j2 : |y - h * h| * M ≤ 15.8 * u * (B * B) * M := by gcongr
    have j3 : |y| * |1 / mu - M| ≤ (1.01 * (B * B)) * ((1 + 0.001) * u * M) := by gcongr
    nlinarith
  have s4 : |y / mu| ≤ 1.01 * (B * B * M) := by
    have := abs_sub_abs_le_abs_sub (y / mu) (h * h * M)
    rw [abs_of_nonneg (by positivity : 0 ≤ h * h * M)] at this
    have j : h * h * M ≤ B * B * M := by gcongr
    have j2 : u * (B * B * M) ≤ 1.2e-16 * (B * B * M) := by gcongr
    nlinarith
  refine ⟨rnd (y / mu), by rw [pFromMuH, ← hy, div_ok hm0], ?_⟩
  have j1 := abs_sub_le (rnd (y / mu)) (y / mu) (h * h * M)
  have j2 := rnd_u (y / mu)
  have j3 : u * |y / mu| ≤ u * (1.01 * (B * B * M)) := by gcongr
  have j4 : u * (B * B * M) ≤ u * (2 * r) := by gcongr
  rw [show h * h / Earth.MU = h * h * M by rw [hM, mul_one_div]]
  nlinarith

/-- the computed eccentricity -/
theorem eccentricity_near {r x p a' p' e : ℝ} (hr : 0 < r) (ha : 0 < a') (hx : |1 / a' - x| ≤ 40 * u / r)
    (hx1 : 1 / a' ≤ 2.01 / r) (hp0 : 0 ≤ p) (hp : p ≤ 2 * r) (hp' : |p' - p| ≤ 37 * u * r) (he : e ^ 2 = 1 - p * x)
    (h1 : 2e-7 ≤ e) (h2 : e ≤ 1 - 1e-12) :
    ∃ e', eFromAP a' p' = .ok e' ∧ 0 ≤ e' ∧ |e' ^ 2 - e ^ 2| ≤ 2e-14 := by
  have hu := u_pos
  have hu' := u_small
  have q1 : |p' / a' - p * x| ≤ 155 * u := by
    rw [show p' / a' - p * x = (p' - p) * (1 / a') + p * (1 / a' - x) by ring]
    have j1 := abs_add_le ((p' - p) * (1 / a')) (p * (1 / a' - x))
    rw [abs_mul, abs_mul, abs_of_pos (by positivity : 0 < 1 / a'), abs_of_nonneg hp0] at j1
    have j2 : |p' - p| * (1 / a') ≤ (37 * u * r) * (2.01 / r) := by gcongr
    have j3 : p * |1 / a' - x| ≤ (2 * r) * (40 * u / r) := by gcongr
    have e1 : (37 * u * r) * (2.01 / r) = 37 * 2.01 * u := by field_simp
    have e2 : (2 * r) * (40 * u / r) = 80 * u := by field_simp; norm_num
    rw [e1] at j2
    rw [e2] at j3
    linarith
  have he0 : 0 ≤ e := by linarith
  have hpx : p * x = 1 - e ^ 2 := by linarith
  have he2 : 4e-14 ≤ e ^ 2 := by nlinarith
  have he2' : e ^ 2 ≤ 1 := by nlinarith
  rw [hpx] at q1
  obtain ⟨q, hq⟩ : ∃ q, q = p' / a' := ⟨_, rfl⟩
  rw [← hq] at q1
  have q0 : |q| ≤ 1.01 := by
    rw [abs_le] at q1 ⊢
    constructor <;> linarith [q1.1, q1.2]
  have q2 : |rnd q - (1 - e ^ 2)| ≤ 156.1 * u := by
    have j1 := abs_sub_le (rnd q) q (1 - e ^ 2)
    have j2 := rnd_u q
    have j3 : u * |q| ≤ u * 1.01 := by gcongr
    linarith
  obtain ⟨q', hq'⟩ : ∃ q', q' = rnd q := ⟨_, rfl⟩
  rw [← hq'] at q2
  rw [abs_le] at q2
  have s0 : 0 < 1 - q' := by linarith [q2.2]
  have s1 : 1 - q' ≤ 1.01 := by linarith [q2.1]
  have s2 : |rnd (1 - q') - e ^ 2| ≤ 157.2 * u := by
    have j2 := rnd_u (1 - q')
    rw [abs_of_pos s0] at j2
    have j3 : u * (1 - q') ≤ u * 1.01 := by gcongr
    rw [abs_le] at j2 ⊢
    constructor <;> linarith [j2.1, j2.2, q2.1, q2.2]
  obtain ⟨t, ht⟩ : ∃ t, t = rnd (1 - q') := ⟨_, rfl⟩
  have t0 : 0 < t := by rw [ht]; exact rnd_pos s0
  rw [← ht] at s2
  rw [abs_le] at s2
  have t1 : t ≤ 1.01 := by linarith [s2.2]
  have hN := (near_rnd (√t)).mul (near_rnd (√t)) (by norm_num) (by norm_num) (by norm_num) (by norm_num)
  rw [Real.mul_self_sqrt t0.le] at hN
  unfold Near at hN
  rw [abs_of_pos t0, ← sq] at hN
  refine ⟨rnd (√t), ?_, rnd_nonneg (Real.sqrt_nonneg _), ?_⟩
  · rw [eFromAP, div_ok ha.ne', ok_bind, ← hq, ← hq', ← ht, sqrt_ok t0.le]
  · have j : (1 + 1 + 0.001) * u * t ≤ (1 + 1 + 0.001) * u * 1.01 := by gcongr
    rw [abs_le] at hN ⊢
    constructor <;> linarith [hN.1, hN.2, s2.1, s2.2]

theorem radius_bounds {a e : ℝ} (E : ℝ) (ha : 0 < a) (he : 0 ≤ e) (h2 : e ≤ 1 - 1e-12) :
    1e-12 * a ≤ a * (1 - e * Real.cos E) ∧ a * (1 - e * Real.cos E) ≤ a * (1 + e) := by
  have h3 : e * Real.cos E ≤ e := by nlinarith [Real.cos_le_one E]
  have h4 : -e ≤ e * Real.cos E := by nlinarith [Real.neg_one_le_cos E]
  constructor
  · rw [mul_comm]; gcongr; linarith
  · gcongr; linarith

theorem momentum_large {a e r v h : ℝ} (ha : 0 < a) (he : 0 ≤ e) (h2 : e ≤ 1 - 1e-12) (hr : 0 ≤ r) (hv : 0 ≤ v)
    (hh : 0 < h) (l1 : (r * v) * (r * v) ≤ 2 * r * Earth.MU) (l2 : r ≤ a * (1 + e))
    (l3 : h * h = Earth.MU * a * (1 - e) * (1 + e)) (nh : h ≤ 7.3 * u * (r * v)) : False := by
  have hu := u_pos
  have hu' := u_small
  have hmu := mu_pos
  have k1 : h * h ≤ (7.3 * u * (r * v)) * (7.3 * u * (r * v)) := by gcongr
  have k2 : 5e-13 * ((r * v) * (r * v)) ≤ h * h := by
    have l4 : 2 * Earth.MU * r ≤ 2 * Earth.MU * (a * (1 + e)) := by gcongr
    have l6 : 1e-12 * (Earth.MU * a * (1 + e)) ≤ (1 - e) * (Earth.MU * a * (1 + e)) := by
      gcongr; linarith
    linarith
  have k3 : u * u ≤ 1e-20 := by nlinarith
  have k6 := mul_self_nonneg (r * v)
  have k4 : u * u * ((r * v) * (r * v)) ≤ 1e-20 * ((r * v) * (r * v)) := by gcongr
  have k5 : 0 < h * h := by positivity
  linarith

theorem one_sub_sq_nonneg {e e' : ℝ} (he : 0 ≤ e) (h2 : e ≤ 1 - 1e-12) (h : |e' ^ 2 - e ^ 2| ≤ 2e-14) :
    0 ≤ 1 - rnd (e' * e') := by
  have hu := u_pos
  have hu' := u_small
  have l1 := rnd_u (e' * e')
  rw [abs_of_nonneg (mul_self_nonneg e')] at l1
  have l2 := (abs_le.mp l1).2
  have l3 := (abs_le.mp h).2
  have l4 : e ^ 2 ≤ e := by nlinarith
  have l5 : e' * e' ≤ 1 - 9e-13 := by nlinarith
  have l6 : u * (e' * e') ≤ u * 1 := by gcongr; linarith
  linarith

end Openspace.F64
