import Verif.Props.DoubleTime
import Verif.Props.DoubleAngles

/-!
# Property C110: the Greenwich hour angle in double precision

C10 is about the hour angle computed with real numbers.  Here it is computed in double precision, as Python does, and
compared with the real one.
-/

namespace Openspace

namespace F64

/-- the remainder in double precision is the exact remainder, up to one rounding and a multiple of the modulus -/
theorem pyMod_near (x : ℝ) {y : ℝ} (hy : 0 < y) (hd : IsDouble y) :
    ∃ k : ℤ, |pyMod x y - (x - y * k)| ≤ y * u ∧ 0 ≤ pyMod x y ∧ pyMod x y ≤ y := by
  have hu := u_pos
  unfold pyMod
  by_cases hx : 0 ≤ x
  · have h1 := Int.floor_le (x / y)
    have h2 := Int.lt_floor_add_one (x / y)
    rw [le_div_iff₀ hy] at h1
    rw [div_lt_iff₀ hy] at h2
    refine ⟨⌊x / y⌋, ?_⟩
    rw [if_pos hx, if_neg (by linarith)]
    refine ⟨by rw [sub_self, abs_zero]; positivity, by linarith, by linarith⟩
  · have h1 := Int.le_ceil (x / y)
    have h2 := Int.ceil_lt_add_one (x / y)
    rw [div_le_iff₀ hy] at h1
    rw [← sub_lt_iff_lt_add, lt_div_iff₀ hy] at h2
    rw [if_neg hx]
    by_cases hr : x - y * (⌈x / y⌉ : ℤ) < 0
    · rw [if_pos hr]
      refine ⟨⌈x / y⌉ - 1, ?_, le_rnd rnd_zero (by linarith), rnd_le hd (by linarith)⟩
      have e : x - y * ((⌈x / y⌉ - 1 : ℤ) : ℝ) = x - y * (⌈x / y⌉ : ℤ) + y := by push_cast; ring
      rw [e]
      refine (rnd_u _).trans ?_
      rw [abs_of_nonneg (by linarith), mul_comm]
      exact mul_le_mul_of_nonneg_right (by linarith) hu.le
    · rw [if_neg hr]
      refine ⟨⌈x / y⌉, by rw [sub_self, abs_zero]; positivity, by linarith, by linarith⟩

/-- the remainder of a positive number modulo one is its fraction -/
theorem pyMod_one {x : ℝ} (hx : 0 ≤ x) : pyMod x 1 = Int.fract x := by
  unfold pyMod
  have h := Int.fract_nonneg x
  rw [if_pos hx, div_one, one_mul]
  show (if Int.fract x < 0 then rnd (Int.fract x + 1) else Int.fract x) = _
  rw [if_neg (not_lt.mpr h)]

/-- `fmod` is exact: the remainder of two positive doubles is a double (this justifies that `pyMod` does not round it) -/
theorem fmod_double {x y : ℝ} (hx : Spec.IsBinary64 x) (hy : Spec.IsBinary64 y) (h0 : 0 ≤ x) (hy0 : 0 < y) :
    Spec.IsBinary64 (x - y * (⌊x / y⌋ : ℤ)) := by
  have h1 := Int.floor_le (x / y)
  have h2 := Int.lt_floor_add_one (x / y)
  rw [le_div_iff₀ hy0] at h1
  rw [div_lt_iff₀ hy0] at h2
  have hq : (0 : ℝ) ≤ ⌊x / y⌋ := by exact_mod_cast Int.floor_nonneg.mpr (by positivity)
  generalize ⌊x / y⌋ = q at *
  obtain ⟨m, e, hm, rfl⟩ := hx
  obtain ⟨n, f, hn, rfl⟩ := hy
  have step : ∀ (g : ℤ) (a b c : ℤ), |c| < 2 ^ 53 → (m : ℝ) * 2 ^ e = a * 2 ^ g → (n : ℝ) * 2 ^ f = b * 2 ^ g →
      (m : ℝ) * 2 ^ e - n * 2 ^ f * q ≤ c * 2 ^ g → Spec.IsBinary64 ((m : ℝ) * 2 ^ e - n * 2 ^ f * q) := by
    intro g a b c hc ha hb hle
    have hg : (0 : ℝ) < 2 ^ g := by positivity
    have eq : (m : ℝ) * 2 ^ e - n * 2 ^ f * q = ((a - b * q : ℤ) : ℝ) * 2 ^ g := by
      rw [ha, hb]; push_cast; ring
    refine ⟨a - b * q, g, ?_, eq⟩
    have l1 : (0 : ℝ) ≤ ((a - b * q : ℤ) : ℝ) := by
      have : 0 ≤ ((a - b * q : ℤ) : ℝ) * 2 ^ g := by rw [← eq]; linarith
      exact nonneg_of_mul_nonneg_left this hg
    have l2 : ((a - b * q : ℤ) : ℝ) ≤ c := by
      rw [eq] at hle
      exact le_of_mul_le_mul_right hle hg
    have l1' : 0 ≤ a - b * q := by exact_mod_cast l1
    have l2' : a - b * q ≤ c := by exact_mod_cast l2
    rw [abs_of_nonneg l1']
    exact lt_of_le_of_lt (l2'.trans (le_abs_self c)) hc
  have shift : ∀ (a e g : ℤ), g ≤ e → ∃ b : ℤ, (a : ℝ) * 2 ^ e = b * 2 ^ g := by
    intro a e g hge
    obtain ⟨k, hk⟩ := Int.eq_ofNat_of_zero_le (by omega : 0 ≤ e - g)
    refine ⟨a * 2 ^ k, ?_⟩
    have : e = k + g := by omega
    rw [this, zpow_add₀ (by norm_num), zpow_natCast]
    push_cast; ring
  rcases le_total e f with h | h
  · obtain ⟨b, hb⟩ := shift n f e h
    have := mul_nonneg hy0.le hq
    exact step e m b m hm rfl hb (by linarith)
  · obtain ⟨a, ha⟩ := shift m e f h
    exact step f a n n hn ha rfl (by linarith)

/-- the error of a product -/
theorem mul_err {a a' b b' A B P Q : ℝ} (ha : |a - a'| ≤ A) (hb : |b - b'| ≤ B) (hP : |a'| ≤ P) (hQ : |b'| + B ≤ Q) :
    |a * b - a' * b'| ≤ A * Q + P * B := by
  have e : a * b - a' * b' = (a - a') * b + a' * (b - b') := by ring
  have hb' : |b| ≤ Q := by
    have := abs_sub_abs_le_abs_sub b b'
    linarith
  rw [e]
  refine (abs_add_le _ _).trans ?_
  rw [abs_mul, abs_mul]
  have := abs_nonneg (a - a')
  have := abs_nonneg a'
  have := abs_nonneg b
  have := abs_nonneg (b - b')
  have h1 : |a - a'| * |b| ≤ A * Q := mul_le_mul ha hb' (abs_nonneg _) (by linarith)
  have h2 : |a'| * |b - b'| ≤ P * B := mul_le_mul hP hb (abs_nonneg _) (by linarith)
  linarith

/-- the error of a rounded sum -/
theorem add_err {a a' b b' A B : ℝ} (ha : |a - a'| ≤ A) (hb : |b - b'| ≤ B) : |a + b - (a' + b')| ≤ A + B := by
  have e : a + b - (a' + b') = (a - a') + (b - b') := by ring
  rw [e]
  exact (abs_add_le _ _).trans (add_le_add ha hb)

theorem radians_near {x : ℝ} (h0 : 0 ≤ x) (h1 : x ≤ 360) : |radians x - x * (Real.pi / 180)| ≤ 1 / 10 ^ 14 := by
  have hu := u_pos
  have hu' := u_tiny
  have p1 := Real.pi_gt_three
  have p2 := Real.pi_lt_four
  have a : |pi - Real.pi| ≤ 4 * u := by
    unfold pi
    refine (rnd_u _).trans ?_
    rw [abs_of_pos Real.pi_pos]
    nlinarith
  have b : |pi / 180 - Real.pi / 180| ≤ 4 / 180 * u := by
    rw [← sub_div, abs_div, abs_of_pos (by norm_num : (0 : ℝ) < 180)]
    linarith [div_le_div_of_nonneg_right a (by norm_num : (0 : ℝ) ≤ 180)]
  have c := rabs b (M := 5 / 180) (by rw [abs_of_pos (by positivity)]; linarith)
  have d := mul_err (a := x) (a' := x) (A := 0) (P := 360) (Q := 1) (by simp) c (by rw [abs_of_nonneg h0]; exact h1)
    (by rw [abs_of_pos (by positivity)]; linarith)
  have f := rabs d (M := 9) (by
    rw [abs_of_nonneg (by positivity)]
    have : x * (Real.pi / 180) ≤ 8 := by nlinarith
    linarith)
  unfold radians
  refine f.trans ?_
  linarith

end F64

/-- the hour angle in degrees, as a polynomial in the day number, plus the sidereal rate times the part of the day -/
noncomputable def hourAngle (n f : ℝ) : ℝ :=
  100.4606184 + 36000.77004 * ((n + 2400000.5 - 2451545) / 36525)
    + 0.000387933 * ((n + 2400000.5 - 2451545) / 36525) ^ 2 + 360.98564724 * f

namespace F64

/-- the sum before the remainder -/
noncomputable def totalDeg (utc dec_day : ℝ) : ℝ :=
  let j0 := rnd (julianValue utc - dec_day)
  let j := rnd (rnd (j0 - 2451545) / 36525)
  let theta0 := rnd (rnd (rnd 100.4606184 + rnd (rnd 36000.77004 * j)) + rnd (rnd (rnd 0.000387933 * j) * j))
  rnd (theta0 + rnd (rnd 360.98564724 * dec_day))

theorem gha_eq (e : ℝ) :
    gha e = radians (pyMod (totalDeg (rnd (e - UTC_TDT_OFFSET)) (pyMod (rnd (e - UTC_TDT_OFFSET)) 1)) 360) := rfl

theorem const_err {c : ℝ} (M : ℝ) (h : |c| ≤ M) : |rnd c - c| ≤ M * u := by
  refine (rnd_u c).trans ?_
  rw [mul_comm]
  exact mul_le_mul_of_nonneg_right h u_pos.le

/-- the day number survives -/
theorem century_near {utc : ℝ} (h0 : 0 ≤ utc) (h1 : utc ≤ 131073) :
    |rnd (rnd (rnd (julianValue utc - Int.fract utc) - 2451545) / 36525) - (⌊utc⌋ + 2400000.5 - 2451545) / 36525| ≤ 2 / 10 ^ 14 := by
  have hu := u_pos
  have hu' := u_tiny
  have hf := Int.fract_nonneg utc
  have hf' := Int.fract_lt_one utc
  have hfl : (⌊utc⌋ : ℝ) = utc - Int.fract utc := by rw [Int.fract]; ring
  have a : |julianValue utc - (utc + 2400000.5)| ≤ 2600000 * u :=
    const_err _ (by rw [abs_of_nonneg (by positivity)]; norm_num; linarith)
  have b : |julianValue utc - Int.fract utc - (⌊utc⌋ + 2400000.5)| ≤ 2600000 * u := by
    have e : julianValue utc - Int.fract utc - (⌊utc⌋ + 2400000.5) = julianValue utc - (utc + 2400000.5) := by
      rw [hfl]; ring
    rw [e]; exact a
  have hfl0 : (0 : ℝ) ≤ ⌊utc⌋ := by exact_mod_cast Int.floor_nonneg.mpr h0
  have hfl1 : (⌊utc⌋ : ℝ) ≤ 131073 := by linarith
  have c := rabs b (M := 2600000) (by rw [abs_of_nonneg (by positivity)]; norm_num at hu' ⊢; linarith)
  have d : |rnd (julianValue utc - Int.fract utc) - 2451545 - (⌊utc⌋ + 2400000.5 - 2451545)| ≤ 5200000 * u := by
    rw [sub_sub_sub_cancel_right]; exact c.trans (by linarith)
  have f := rabs d (M := 80000) (by
    have : |(⌊utc⌋ : ℝ) + 2400000.5 - 2451545| ≤ 79999 := by rw [abs_le]; constructor <;> norm_num <;> linarith
    norm_num at hu' this ⊢; linarith)
  have g : |rnd (rnd (julianValue utc - Int.fract utc) - 2451545) / 36525 - (⌊utc⌋ + 2400000.5 - 2451545) / 36525| ≤ 145 * u := by
    rw [← sub_div, abs_div, abs_of_pos (by norm_num : (0 : ℝ) < 36525), div_le_iff₀ (by norm_num)]
    exact f.trans (by linarith)
  have h := rabs g (M := 3) (by
    have : |((⌊utc⌋ : ℝ) + 2400000.5 - 2451545) / 36525| ≤ 22 / 10 := by
      rw [abs_le]; constructor <;> norm_num <;> linarith
    norm_num at hu' this ⊢; linarith)
  refine h.trans ?_
  norm_num at hu' ⊢; linarith

/-- the sum before the remainder is accurate to two billionths of a degree -/
theorem totalDeg_near {utc : ℝ} (h0 : 0 ≤ utc) (h1 : utc ≤ 131073) :
    |totalDeg utc (Int.fract utc) - hourAngle ⌊utc⌋ (Int.fract utc)| ≤ 1 / 10 ^ 9 := by
  have hu := u_pos
  have hu' : u ≤ 3 / 25000000000000000 := by have := u_tiny; norm_num at this ⊢; exact this
  have hf := Int.fract_nonneg utc
  have hf' := Int.fract_lt_one utc
  have hj := century_near h0 h1
  have hfl0 : (0 : ℝ) ≤ ⌊utc⌋ := by exact_mod_cast Int.floor_nonneg.mpr h0
  have hfl1 : (⌊utc⌋ : ℝ) ≤ 131073 := by linarith [Int.floor_le utc]
  have hJ : |((⌊utc⌋ : ℝ) + 2400000.5 - 2451545) / 36525| ≤ 22 / 10 := by
    rw [abs_le]; constructor <;> norm_num <;> linarith
  unfold totalDeg hourAngle
  simp only
  generalize rnd (rnd (rnd (julianValue utc - Int.fract utc) - 2451545) / 36525) = j at *
  generalize ((⌊utc⌋ : ℝ) + 2400000.5 - 2451545) / 36525 = J at *
  generalize Int.fract utc = f at *
  have k0 := const_err (c := 100.4606184) 101 (by norm_num [abs_of_pos])
  have k1 := const_err (c := 36000.77004) 36001 (by norm_num [abs_of_pos])
  have k2 := const_err (c := 0.000387933) (1 / 1000) (by norm_num [abs_of_pos])
  have k3 := const_err (c := 360.98564724) 361 (by norm_num [abs_of_pos])
  have l1 : |(36000.77004 : ℝ)| ≤ 36001 := by norm_num [abs_of_pos]
  have l2 : |(0.000387933 : ℝ)| ≤ 1 / 1000 := by norm_num [abs_of_pos]
  have l3 : |(360.98564724 : ℝ)| ≤ 361 := by norm_num [abs_of_pos]
  have hF : |f| ≤ 1 := by rw [abs_of_nonneg hf]; exact hf'.le
  generalize rnd 100.4606184 = c0 at *
  generalize rnd 36000.77004 = c1 at *
  generalize rnd 0.000387933 = c2 at *
  generalize rnd 360.98564724 = c3 at *
  have l0 : |(100.4606184 : ℝ)| ≤ 101 := by norm_num [abs_of_pos]
  generalize (100.4606184 : ℝ) = C0 at *
  generalize (36000.77004 : ℝ) = C1 at *
  generalize (0.000387933 : ℝ) = C2 at *
  generalize (360.98564724 : ℝ) = C3 at *
  have n1 : |C1 * J| ≤ 79203 := by
    rw [abs_mul]
    exact (mul_le_mul l1 hJ (abs_nonneg _) (by norm_num)).trans (by norm_num)
  have n2 : |C2 * J| ≤ 1 / 100 := by
    rw [abs_mul]
    exact (mul_le_mul l2 hJ (abs_nonneg _) (by norm_num)).trans (by norm_num)
  have n2' : |C2 * J * J| ≤ 1 / 10 := by
    rw [abs_mul]
    exact (mul_le_mul n2 hJ (abs_nonneg _) (by norm_num)).trans (by norm_num)
  have n3 : |C3 * f| ≤ 361 := by
    rw [abs_mul]
    exact (mul_le_mul l3 hF (abs_nonneg _) (by norm_num)).trans (by norm_num)
  -- the linear term
  have a1 := mul_err (Q := 3) k1 hj l1 (by linarith)
  have a1' : |c1 * j - C1 * J| ≤ 8 / 10 ^ 10 := a1.trans (by norm_num at hu' ⊢; linarith)
  have a2 := rabs a1' (M := 79204) (by linarith)
  have a3 := add_err k0 a2
  have a3' : |c0 + rnd (c1 * j) - (C0 + C1 * J)| ≤ 82 / 10 ^ 11 := a3.trans (by norm_num at hu' ⊢; linarith)
  have n4 := abs_add_le C0 (C1 * J)
  have a4 := rabs a3' (M := 79400) (by linarith)
  -- the quadratic term
  have b1 := mul_err (Q := 3) k2 hj l2 (by linarith)
  have b1' : |c2 * j - C2 * J| ≤ 1 / 10 ^ 15 := b1.trans (by norm_num at hu' ⊢; linarith)
  have b2 := rabs b1' (M := 1) (by linarith)
  have b2' : |rnd (c2 * j) - C2 * J| ≤ 2 / 10 ^ 15 := b2.trans (by norm_num at hu' ⊢; linarith)
  have b3 := mul_err (Q := 3) b2' hj n2 (by linarith)
  have b3' : |rnd (c2 * j) * j - C2 * J * J| ≤ 1 / 10 ^ 13 := b3.trans (by norm_num)
  have b4 := rabs b3' (M := 1) (by linarith)
  -- the first sum
  have s1 := add_err a4 b4
  have s1' : |rnd (c0 + rnd (c1 * j)) + rnd (rnd (c2 * j) * j) - (C0 + C1 * J + C2 * J * J)| ≤ 84 / 10 ^ 11 :=
    s1.trans (by norm_num at hu' ⊢; linarith)
  have n5 := abs_add_le (C0 + C1 * J) (C2 * J * J)
  have s2 := rabs s1' (M := 79500) (by linarith)
  -- the part of the day
  have d1 := mul_err (Q := 1) (B := 0) (b := f) (b' := f) k3 (by simp) l3 (by linarith)
  have d1' : |c3 * f - C3 * f| ≤ 1 / 10 ^ 13 := d1.trans (by norm_num at hu' ⊢; linarith)
  have d2 := rabs d1' (M := 362) (by linarith)
  have t1 := add_err s2 d2
  have t1' : |rnd (rnd (c0 + rnd (c1 * j)) + rnd (rnd (c2 * j) * j)) + rnd (c3 * f) - (C0 + C1 * J + C2 * J * J + C3 * f)|
      ≤ 87 / 10 ^ 11 := t1.trans (by norm_num at hu' ⊢; linarith)
  have n6 := abs_add_le (C0 + C1 * J + C2 * J * J) (C3 * f)
  have t2 := rabs t1' (M := 80000) (by linarith)
  have e : C0 + C1 * J + C2 * J ^ 2 + C3 * f = C0 + C1 * J + C2 * J * J + C3 * f := by ring
  rw [e]
  refine t2.trans ?_
  norm_num at hu' ⊢; linarith

/-- the clock of the hour angle -/
theorem utc_near {e : ℝ} (h0 : 1 ≤ e) (h1 : e ≤ 131072) :
    |rnd (e - UTC_TDT_OFFSET) - (e - 69.184 / 86400)| ≤ 16 / 10 ^ 12 := by
  have hu := u_pos
  have hu' : u ≤ 3 / 25000000000000000 := by have := u_tiny; norm_num at this ⊢; exact this
  have a := const_err (c := 69.184) 70 (by norm_num [abs_of_pos])
  have b : |rnd 69.184 / 86400 - 69.184 / 86400| ≤ 1 / 1000 * u := by
    rw [← sub_div, abs_div, abs_of_pos (by norm_num : (0 : ℝ) < 86400), div_le_iff₀ (by norm_num)]
    exact a.trans (by linarith)
  have c := rabs b (M := 1 / 1000) (by rw [abs_of_pos (by norm_num)]; norm_num; linarith)
  have d : |e - UTC_TDT_OFFSET - (e - 69.184 / 86400)| ≤ 2 / 1000 * u := by
    rw [sub_sub_sub_cancel_left, abs_sub_comm]
    exact c.trans (by linarith)
  have f := rabs d (M := 131072) (by
    rw [abs_of_nonneg (by norm_num; linarith)]; norm_num; linarith)
  refine f.trans ?_
  norm_num; linarith

/-- in degrees and up to whole turns -/
theorem gha_near {e : ℝ} (h0 : 1 ≤ e) (h1 : e ≤ 131072) : ∃ utc : ℝ, ∃ k : ℤ,
    |utc - (e - 69.184 / 86400)| ≤ 16 / 10 ^ 12 ∧
    |gha e * 180 / Real.pi - (hourAngle ⌊utc⌋ (Int.fract utc) - 360 * k)| ≤ 11 / 10 ^ 10 := by
  have hu := u_pos
  have hu' : u ≤ 3 / 25000000000000000 := by have := u_tiny; norm_num at this ⊢; exact this
  have hc := utc_near h0 h1
  have hb := abs_le.mp hc
  have u0 : 0 ≤ rnd (e - UTC_TDT_OFFSET) := by norm_num at hb; linarith [hb.1]
  have u1 : rnd (e - UTC_TDT_OFFSET) ≤ 131073 := by norm_num at hb; linarith [hb.2]
  rw [gha_eq, pyMod_one u0]
  have ht := totalDeg_near u0 u1
  obtain ⟨k, hk, hr0, hr1⟩ := pyMod_near (totalDeg (rnd (e - UTC_TDT_OFFSET)) (Int.fract (rnd (e - UTC_TDT_OFFSET))))
    (y := 360) (by norm_num) (by have := rnd_int 360 (by norm_num); simpa [IsDouble] using this)
  refine ⟨rnd (e - UTC_TDT_OFFSET), k, hc, ?_⟩
  have hrad := radians_near hr0 hr1
  generalize rnd (e - UTC_TDT_OFFSET) = utc at *
  generalize totalDeg utc (Int.fract utc) = t at *
  generalize pyMod t 360 = r at *
  generalize hourAngle ⌊utc⌋ (Int.fract utc) = T at *
  have p0 := Real.pi_gt_three
  have e1 : radians r * 180 / Real.pi - r = (radians r - r * (Real.pi / 180)) * (180 / Real.pi) := by
    field_simp
  have e2 : |radians r * 180 / Real.pi - r| ≤ 60 / 10 ^ 14 := by
    rw [e1, abs_mul, abs_of_pos (by positivity : 0 < 180 / Real.pi)]
    have : 180 / Real.pi ≤ 60 := by rw [div_le_iff₀ Real.pi_pos]; linarith
    calc _ ≤ 1 / 10 ^ 14 * 60 := mul_le_mul hrad this (by positivity) (by positivity)
      _ = _ := by norm_num
  have e3 : radians r * 180 / Real.pi - (T - 360 * k) = (radians r * 180 / Real.pi - r) + ((r - (t - 360 * k)) + (t - T)) := by
    ring
  rw [e3]
  refine (abs_add_le _ _).trans ?_
  have := abs_add_le (r - (t - 360 * k)) (t - T)
  norm_num at e2 hk ht ⊢
  linarith

end F64

/-- crossing midnight the formula jumps by less than two ten-millionths of a degree -/
theorem hourAngle_jump {n : ℝ} (h0 : 0 ≤ n) (h1 : n ≤ 131072) (f : ℝ) :
    |hourAngle (n + 1) f - hourAngle n (f + 1) + 360| ≤ 18 / 10 ^ 8 := by
  have e : hourAngle (n + 1) f - hourAngle n (f + 1) + 360 = 36000.77004 / 36525
      + 0.000387933 * ((2 * (n + 2400000.5 - 2451545) + 1) / 36525 ^ 2) - 0.98564724 := by
    unfold hourAngle; ring
  rw [e, abs_le]
  constructor <;> norm_num <;> linarith

theorem hourAngle_rate (n f g : ℝ) : hourAngle n f - hourAngle n g = 360.98564724 * (f - g) := by
  unfold hourAngle; ring

/-- the formula at two close clocks, up to a whole turn -/
theorem hourAngle_close {v w : ℝ} (h0 : 0 ≤ v) (h1 : v ≤ 131072) (h2 : 0 ≤ w) (h3 : w ≤ 131072) (h : |w - v| ≤ 16 / 10 ^ 12) :
    ∃ k : ℤ, |hourAngle ⌊w⌋ (w - ⌊w⌋) - hourAngle ⌊v⌋ (v - ⌊v⌋) - 360 * k| ≤ 186 / 10 ^ 9 ∧
      (⌊w⌋ = ⌊v⌋ → |hourAngle ⌊w⌋ (w - ⌊w⌋) - hourAngle ⌊v⌋ (v - ⌊v⌋) - 360 * k| ≤ 58 / 10 ^ 10) := by
  have hb := abs_le.mp h
  have v1 := Int.floor_le v
  have v2 := Int.lt_floor_add_one v
  have w1 := Int.floor_le w
  have w2 := Int.lt_floor_add_one w
  have rate : ∀ n a b : ℝ, |b - a| ≤ 16 / 10 ^ 12 → |hourAngle n b - hourAngle n a| ≤ 58 / 10 ^ 10 := by
    intro n a b hab
    rw [hourAngle_rate, abs_mul, abs_of_pos (by norm_num)]
    norm_num at hab ⊢
    linarith
  have n0 : (0 : ℝ) ≤ ⌊v⌋ := by exact_mod_cast Int.floor_nonneg.mpr h0
  have m0 : (0 : ℝ) ≤ ⌊w⌋ := by exact_mod_cast Int.floor_nonneg.mpr h2
  have c1 : ⌊w⌋ < ⌊v⌋ + 2 := by
    have : (⌊w⌋ : ℝ) < ⌊v⌋ + 2 := by norm_num at hb; linarith [hb.2]
    exact_mod_cast this
  have c2 : ⌊v⌋ < ⌊w⌋ + 2 := by
    have : (⌊v⌋ : ℝ) < ⌊w⌋ + 2 := by norm_num at hb; linarith [hb.1]
    exact_mod_cast this
  have c : ⌊w⌋ = ⌊v⌋ ∨ ⌊w⌋ = ⌊v⌋ + 1 ∨ ⌊v⌋ = ⌊w⌋ + 1 := by omega
  rcases c with c | c | c
  · refine ⟨0, ?_⟩
    rw [c]
    have := rate ⌊v⌋ (v - ⌊v⌋) (w - ⌊v⌋) (by rwa [sub_sub_sub_cancel_right])
    rw [Int.cast_zero, mul_zero, sub_zero]
    exact ⟨this.trans (by norm_num), fun _ => this⟩
  · refine ⟨-1, ?_, fun hc => by omega⟩
    have hj := hourAngle_jump n0 (by linarith) (w - ⌊v⌋ - 1)
    have hr := rate ⌊v⌋ (v - ⌊v⌋) (w - ⌊v⌋) (by rwa [sub_sub_sub_cancel_right])
    have e : hourAngle ⌊w⌋ (w - ⌊w⌋) - hourAngle ⌊v⌋ (v - ⌊v⌋) - 360 * ((-1 : ℤ) : ℝ)
        = (hourAngle (⌊v⌋ + 1) (w - ⌊v⌋ - 1) - hourAngle ⌊v⌋ (w - ⌊v⌋ - 1 + 1) + 360)
          + (hourAngle ⌊v⌋ (w - ⌊v⌋) - hourAngle ⌊v⌋ (v - ⌊v⌋)) := by
      rw [c]; push_cast
      rw [sub_add_cancel, show w - ((⌊v⌋ : ℝ) + 1) = w - ⌊v⌋ - 1 by ring]; ring
    rw [e]
    refine (abs_add_le _ _).trans ?_
    norm_num at hj hr ⊢
    linarith
  · refine ⟨1, ?_, fun hc => by omega⟩
    have hj := hourAngle_jump m0 (by linarith) (v - ⌊w⌋ - 1)
    have hr := rate ⌊w⌋ (v - ⌊w⌋) (w - ⌊w⌋) (by rwa [sub_sub_sub_cancel_right])
    have e : hourAngle ⌊w⌋ (w - ⌊w⌋) - hourAngle ⌊v⌋ (v - ⌊v⌋) - 360 * ((1 : ℤ) : ℝ)
        = -(hourAngle (⌊w⌋ + 1) (v - ⌊w⌋ - 1) - hourAngle ⌊w⌋ (v - ⌊w⌋ - 1 + 1) + 360)
          + (hourAngle ⌊w⌋ (w - ⌊w⌋) - hourAngle ⌊w⌋ (v - ⌊w⌋)) := by
      rw [c]; push_cast
      rw [sub_add_cancel, show v - ((⌊w⌋ : ℝ) + 1) = v - ⌊w⌋ - 1 by ring]; ring
    rw [e]
    refine (abs_add_le _ _).trans ?_
    rw [abs_neg]
    norm_num at hj hr ⊢
    linarith

/-- both bounds, in degrees -/
theorem gha64_degrees {e : ℝ} (h0 : 1 ≤ e) (h1 : e ≤ 131072) : ∃ k : ℤ,
    |(F64.gha e - (⟨e⟩ : Epoch).gha) * 180 / Real.pi - 360 * k| ≤ 188 / 10 ^ 9 ∧
    (∀ n : ℤ, n + 16 / 10 ^ 12 < e - 69.184 / 86400 → e - 69.184 / 86400 < n + 1 - 16 / 10 ^ 12 →
      |(F64.gha e - (⟨e⟩ : Epoch).gha) * 180 / Real.pi - 360 * k| ≤ 7 / 10 ^ 9) := by
  obtain ⟨w, k1, hw, hk1⟩ := F64.gha_near h0 h1
  obtain ⟨k2, hk2⟩ := gha_degrees ⟨e⟩
  obtain ⟨v, hv⟩ : ∃ v, v = e - 69.184 / 86400 := ⟨_, rfl⟩
  have hv0 : 1 / 100 ≤ v := by rw [hv]; norm_num; linarith
  have hv1 : v ≤ 131072 - 1 / 10 ^ 5 := by rw [hv]; norm_num; linarith
  have hk2' : (⟨e⟩ : Epoch).gha * 180 / Real.pi = hourAngle ⌊v⌋ (v - ⌊v⌋) - 360 * k2 := by
    rw [hk2]
    simp only [utcDay, hourAngle, ← hv]
  rw [← hv] at hw
  simp only [← hv]
  have hw' := abs_le.mp hw
  obtain ⟨k3, hk3, hk3'⟩ := hourAngle_close (v := v) (w := w) (by linarith) (by norm_num at hv1; linarith)
    (by norm_num at hw'; linarith) (by norm_num at hw' hv1; linarith) hw
  have e1 : (F64.gha e - (⟨e⟩ : Epoch).gha) * 180 / Real.pi - 360 * ((k2 - k1 + k3 : ℤ) : ℝ)
      = (F64.gha e * 180 / Real.pi - (hourAngle ⌊w⌋ (w - ⌊w⌋) - 360 * k1))
        + (hourAngle ⌊w⌋ (w - ⌊w⌋) - hourAngle ⌊v⌋ (v - ⌊v⌋) - 360 * k3) := by
    have : (F64.gha e - (⟨e⟩ : Epoch).gha) * 180 / Real.pi = F64.gha e * 180 / Real.pi - (⟨e⟩ : Epoch).gha * 180 / Real.pi := by ring
    rw [this, hk2']; push_cast; ring
  have hk1' : |F64.gha e * 180 / Real.pi - (hourAngle ⌊w⌋ (w - ⌊w⌋) - 360 * k1)| ≤ 11 / 10 ^ 10 := hk1
  refine ⟨k2 - k1 + k3, ?_, ?_⟩
  · rw [e1]
    refine (abs_add_le _ _).trans ?_
    norm_num at hk1' hk3 ⊢
    linarith
  · intro n hn1 hn2
    have hf : ⌊w⌋ = ⌊v⌋ := by
      have a : ⌊w⌋ = n := by rw [Int.floor_eq_iff]; constructor <;> linarith [hw'.1, hw'.2]
      have b : ⌊v⌋ = n := by rw [Int.floor_eq_iff]; norm_num at hn1 hn2; constructor <;> linarith
      rw [a, b]
    have := hk3' hf
    rw [e1]
    refine (abs_add_le _ _).trans ?_
    norm_num at hk1' this ⊢
    linarith

/-- degrees to radians -/
theorem degrees_radians {x b : ℝ} {k : ℤ} (h : |x * 180 / Real.pi - 360 * k| ≤ b) :
    |x - 2 * Real.pi * k| ≤ b * (22 / 1260) := by
  have e : x - 2 * Real.pi * k = (x * 180 / Real.pi - 360 * k) * (Real.pi / 180) := by
    field_simp; ring
  have hpi := Real.pi_pos
  rw [e, abs_mul, abs_of_pos (by positivity : 0 < Real.pi / 180)]
  have hp : Real.pi / 180 ≤ 22 / 1260 := by have := Real.pi_lt_d4; norm_num at this ⊢; linarith
  exact mul_le_mul h hp (by positivity) ((abs_nonneg _).trans h)

/-- From 1858 to 2217 the hour angle computed in double precision differs from the exact one by less than 3.3e-9 rad
(two centimetres on the equator), up to a whole turn. -/
theorem C110_accuracy {e : ℝ} (h0 : 1 ≤ e) (h1 : e ≤ 131072) : ∃ k : ℤ,
    |F64.gha e - (⟨e⟩ : Epoch).gha - 2 * Real.pi * k| ≤ 33 / 10 ^ 10 := by
  obtain ⟨k, hk, -⟩ := gha64_degrees h0 h1
  exact ⟨k, (degrees_radians hk).trans (by norm_num)⟩

/-- Unless it is within two microseconds of midnight UTC, the difference is less than 1.3e-10 rad (a millimetre). -/
theorem C110_daytime {e : ℝ} (h0 : 1 ≤ e) (h1 : e ≤ 131072) (n : ℤ) (h2 : n + 16 / 10 ^ 12 < e - 69.184 / 86400)
    (h3 : e - 69.184 / 86400 < n + 1 - 16 / 10 ^ 12) : ∃ k : ℤ,
    |F64.gha e - (⟨e⟩ : Epoch).gha - 2 * Real.pi * k| ≤ 13 / 10 ^ 11 := by
  obtain ⟨k, -, hk⟩ := gha64_degrees h0 h1
  exact ⟨k, (degrees_radians (hk n h2 h3)).trans (by norm_num)⟩

/-- The hour angle is between zero and two pi, both as computed in double precision, for every epoch. -/
theorem C110_range (e : ℝ) : 0 ≤ F64.gha e ∧ F64.gha e ≤ F64.rnd (2 * F64.pi) := by
  rw [F64.gha_eq]
  obtain ⟨k, -, h1, h2⟩ := F64.pyMod_near (F64.totalDeg (F64.rnd (e - F64.UTC_TDT_OFFSET))
    (F64.pyMod (F64.rnd (e - F64.UTC_TDT_OFFSET)) 1))
    (y := 360) (by norm_num) (by have := F64.rnd_int 360 (by norm_num); simpa [F64.IsDouble] using this)
  have hc : F64.rnd (F64.pi / 180) = 5030569068109113 / 2 ^ 58 := by
    rw [F64.pi_value, F64.rnd_eq 5030569068109113 (-58)]
    · norm_num
    · norm_num
    · norm_num
    · rw [abs_lt]; norm_num
  generalize F64.pyMod (F64.totalDeg _ _) 360 = r at *
  unfold F64.radians
  rw [hc]
  refine ⟨F64.le_rnd F64.rnd_zero (by positivity), ?_⟩
  have h3 : F64.rnd (360 * (5030569068109113 / 2 ^ 58)) = F64.rnd (2 * F64.pi) := by
    rw [F64.turn_value, F64.rnd_eq 7074237752028440 (-50)]
    · norm_num
    · norm_num
    · norm_num
    · rw [abs_lt]; norm_num
  rw [← h3]
  exact F64.rnd_mono (mul_le_mul_of_nonneg_right h2 (by positivity))

/-- noon on 2022-12-19 -/
example : ∃ k : ℤ, |F64.gha 59932.5 - (⟨59932.5⟩ : Epoch).gha - 2 * Real.pi * k| ≤ 13 / 10 ^ 11 :=
  C110_daytime (by norm_num) (by norm_num) 59932 (by norm_num) (by norm_num)

end Openspace
