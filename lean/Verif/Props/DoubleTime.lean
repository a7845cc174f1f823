import Verif.Model.DoubleTime
import Verif.Lemmas.DoubleGeodetic
import Verif.Props.Time

/-!
# Property C109: calendar dates in double precision

C07 and C08 are about epochs computed with real numbers.  Here the epoch of a calendar date is computed in double
precision, as Python does.  The day number is still exact, the whole epoch is accurate to a microsecond, and instants
that lie further apart than that keep their order; instants that are closer together can become the same epoch.
-/

namespace Openspace

open Calendar

namespace F64

/-- `floor(y / n)` on integers is the integer quotient, although the division is rounded -/
theorem floor_rnd_div (y n : ℤ) (hn : 0 < n) (hy : |y| < 2 ^ 52) : ⌊rnd ((y : ℝ) / n)⌋ = y / n := by
  have hn' : (0 : ℝ) < n := by exact_mod_cast hn
  have h1 : n * (y / n) ≤ y := Int.mul_ediv_self_le hn.ne'
  have h2 : y + 1 ≤ n * (y / n) + n := by have := Int.lt_mul_ediv_self_add (x := y) hn; omega
  have h1' : (n : ℝ) * (y / n : ℤ) ≤ y := by exact_mod_cast h1
  have h2' : (y : ℝ) + 1 ≤ n * (y / n : ℤ) + n := by exact_mod_cast h2
  rw [Int.floor_eq_iff]
  constructor
  · have hq : |y / n| < 2 ^ 53 := by
      have := abs_lt.mp hy
      rw [abs_lt]
      have hA : y / n ≤ |y| := by
        rcases le_or_gt 0 y with h | h
        · exact le_trans (Int.ediv_le_self n h) (le_abs_self y)
        · exact le_trans (Int.ediv_neg_of_neg_of_pos h hn).le (abs_nonneg y)
      have hB : -|y| - 1 ≤ y / n := by
        rw [Int.le_ediv_iff_mul_le hn]
        have := neg_abs_le y
        nlinarith [abs_nonneg y]
      constructor <;> omega
    exact le_rnd (by simpa [IsDouble] using rnd_int _ hq) (by rw [le_div_iff₀ hn']; linarith)
  · have hr := abs_le.mp (rnd_near ((y : ℝ) / n))
    have hy' : |(y : ℝ)| < 2 ^ 52 := by exact_mod_cast hy
    rw [abs_div, abs_of_pos hn'] at hr
    have hs : (2⁻¹ : ℝ) ^ 53 * (|(y : ℝ)| / n) < 1 / n := by
      rw [← mul_div_assoc]
      apply div_lt_div_of_pos_right _ hn'
      norm_num at hy' ⊢
      linarith
    have hk : (y : ℝ) / n + 1 / n ≤ (y / n : ℤ) + 1 := by
      rw [← add_div, div_le_iff₀ hn']; linarith
    linarith [hr.2]

/-- `floor(30.6001 * (m + 1))` is not changed by rounding -/
theorem floor_rnd_month (k : ℤ) (h1 : 4 ≤ k) (h2 : k ≤ 15) :
    ⌊rnd (rnd 30.6001 * (k : ℝ))⌋ = pyFloor (30.6001 * ofInt k) := by
  have hc := rnd_u 30.6001
  have hu := u_pos
  have hu' := u_tiny
  have hk1 : (4 : ℝ) ≤ k := by exact_mod_cast h1
  have hk2 : (k : ℝ) ≤ 15 := by exact_mod_cast h2
  have e : |rnd 30.6001 * (k : ℝ) - 30.6001 * k| ≤ 1 / 10 ^ 12 := by
    rw [← sub_mul, abs_mul, abs_of_nonneg (by linarith : (0 : ℝ) ≤ k)]
    rw [abs_of_pos (by norm_num : (0 : ℝ) < 30.6001)] at hc
    have : |rnd 30.6001 - 30.6001| ≤ 4 / 10 ^ 15 := by
      refine hc.trans ?_
      norm_num at hu' ⊢
      nlinarith
    have h0 := abs_nonneg (rnd 30.6001 - 30.6001)
    nlinarith
  have h := rabs e (M := 500) (by rw [abs_of_pos (by positivity)]; norm_num; nlinarith)
  have h' : |rnd (rnd 30.6001 * (k : ℝ)) - 30.6001 * k| ≤ 1 / 10 ^ 6 := by
    refine h.trans ?_
    norm_num at hu' ⊢; linarith
  rw [floor_table k h1 h2, Int.floor_eq_iff]
  clear h e hc
  rw [abs_le] at h'
  interval_cases k <;> norm_num at h' ⊢ <;> constructor <;> linarith [h'.1, h'.2]

/-- the day number is computed exactly -/
theorem gregorianMjd_exact (y m d : ℤ) (h1 : 1 ≤ m) (h2 : m ≤ 12) (hy : |y| < 2 ^ 51) :
    gregorianMjd y m d = Epoch.gregorianMjd y m d := by
  obtain ⟨y', hy'⟩ : ∃ y', y' = if m ≤ 2 then y - 1 else y := ⟨_, rfl⟩
  obtain ⟨m', hm'⟩ : ∃ m', m' = if m ≤ 2 then m + 12 else m := ⟨_, rfl⟩
  have a := abs_lt.mp hy
  have b : |y'| < 2 ^ 52 := by rw [abs_lt]; split_ifs at hy' <;> omega
  have c := floor_rnd_div y' 400 (by norm_num) b
  have c' := floor_rnd_div y' 100 (by norm_num) b
  have c'' := floor_rnd_div y' 4 (by norm_num) b
  have m1 : 4 ≤ m' + 1 := by split_ifs at hm' <;> omega
  have m2 : m' + 1 ≤ 15 := by split_ifs at hm' <;> omega
  have d' := floor_rnd_month (m' + 1) m1 m2
  simp only [gregorianMjd, Epoch.gregorianMjd, ← hy', ← hm']
  push_cast at c c' c''
  rw [c, c', c'', d']

/-- the part of the day is accurate to three roundings of a number below one -/
theorem hmsToDecimalDay_near {hr m s : ℝ} (h0 : 0 ≤ hr) (h1 : hr ≤ 23) (h2 : 0 ≤ m) (h3 : m ≤ 59) (h4 : 0 ≤ s) (h5 : s ≤ 60) :
    |hmsToDecimalDay hr m s - (hr / 24 + m / 1440 + s / 86400)| ≤ 31 / 10 * u := by
  have hu := u_pos
  have hu' := u_tiny
  have a := rnd_u (hr / 24)
  have b := rnd_u (m / 1440)
  have c := rnd_u (s / 86400)
  rw [abs_of_nonneg (by positivity : 0 ≤ hr / 24)] at a
  rw [abs_of_nonneg (by positivity : 0 ≤ m / 1440)] at b
  rw [abs_of_nonneg (by positivity : 0 ≤ s / 86400)] at c
  have a' : |rnd (hr / 24) - hr / 24| ≤ 96 / 100 * u := a.trans (by nlinarith)
  have b' : |rnd (m / 1440) - m / 1440| ≤ 41 / 1000 * u := b.trans (by nlinarith)
  have c' : |rnd (s / 86400) - s / 86400| ≤ 1 / 1000 * u := c.trans (by nlinarith)
  have d : |rnd (hr / 24) + rnd (m / 1440) - (hr / 24 + m / 1440)| ≤ 1001 / 1000 * u := by
    have e : rnd (hr / 24) + rnd (m / 1440) - (hr / 24 + m / 1440) = (rnd (hr / 24) - hr / 24) + (rnd (m / 1440) - m / 1440) := by
      ring
    rw [e]; exact (abs_add_le _ _).trans (by linarith)
  have d' := rabs d (M := 1) (by rw [abs_of_nonneg (by positivity)]; linarith)
  have f : |rnd (rnd (hr / 24) + rnd (m / 1440)) + rnd (s / 86400) - (hr / 24 + m / 1440 + s / 86400)| ≤ 2003 / 1000 * u := by
    have e : rnd (rnd (hr / 24) + rnd (m / 1440)) + rnd (s / 86400) - (hr / 24 + m / 1440 + s / 86400)
      = (rnd (rnd (hr / 24) + rnd (m / 1440)) - (hr / 24 + m / 1440)) + (rnd (s / 86400) - s / 86400) := by
      ring
    rw [e]; exact (abs_add_le _ _).trans (by linarith)
  have f' := rabs f (M := 1001 / 1000) (by rw [abs_of_nonneg (by positivity)]; linarith)
  exact f'.trans (by linarith)

end F64

/-- the epoch of a calendar instant in double precision -/
noncomputable def Calendar.Instant.epoch64 (i : Instant) : ℝ :=
  F64.fromGregorian i.date.year i.date.month i.date.day i.hour i.minute i.second

theorem Calendar.Instant.epoch_value (i : Instant) :
    i.epoch.value = i.date.mjd + ((i.hour : ℝ) / 24 + i.minute / 1440 + i.second / 86400) := by
  simp [Instant.epoch, Epoch.fromGregorian, hmsToDecimalDay, ofInt, Date.mjd, HOURS_IN_DAY,
    MINUTES_IN_DAY, SECONDS_IN_DAY]

/-- bounds of the day number -/
theorem mjd_bounds (d : Date) (hd : d.Valid) :
    365 * d.year + (d.year - 1) / 400 - (d.year - 1) / 100 + (d.year - 1) / 4 - 679004 + 64 ≤ d.mjd ∧
    d.mjd ≤ 365 * d.year + d.year / 400 - d.year / 100 + d.year / 4 - 679004 + 428 := by
  obtain ⟨y, m, k⟩ := d
  obtain ⟨h1, h2, h3, h4⟩ := hd
  simp only at h1 h2 h3 h4
  have h5 : daysInMonth y m ≤ 31 := by
    unfold daysInMonth
    by_cases a : m = 2
    · rw [if_pos a]
      by_cases b : IsLeap y
      · rw [if_pos b]; norm_num
      · rw [if_neg b]; norm_num
    · rw [if_neg a]
      by_cases b : m = 4 ∨ m = 6 ∨ m = 9 ∨ m = 11
      · rw [if_pos b]; norm_num
      · rw [if_neg b]
  unfold Date.mjd
  rw [gregorianMjd_eq _ _ _ h1 h2]
  simp only
  have : m = 1 ∨ m = 2 ∨ m = 3 ∨ m = 4 ∨ m = 5 ∨ m = 6 ∨ m = 7 ∨ m = 8 ∨ m = 9 ∨ m = 10 ∨ m = 11
      ∨ m = 12 := by omega
  clear h1 h2
  rcases this with rfl | rfl | rfl | rfl | rfl | rfl | rfl | rfl | rfl | rfl | rfl | rfl <;>
    simp only [monthOffset] <;> norm_num <;> omega

/-- The epoch of a midnight is exact: the number of days since 1858-11-17, for all years of absolute value below 2^40. -/
theorem C109_midnight_partial (d : Date) (hd : d.Valid) (hy : |d.year| < 2 ^ 40) : d.midnight.epoch64 = d.midnight.epoch.value := by
  have hx : F64.hmsToDecimalDay 0 0 0 = 0 := by simp [F64.hmsToDecimalDay, F64.rnd_zero]
  have hg := F64.gregorianMjd_exact d.year d.month d.day hd.1 hd.2.1 (hy.trans (by norm_num))
  rw [midnight_value]
  simp only [Instant.epoch64, Date.midnight, F64.fromGregorian, Int.cast_zero, hx, add_zero, hg, Date.mjd]
  apply F64.rnd_int
  have hb := mjd_bounds d hd
  have := abs_lt.mp hy
  unfold Date.mjd at hb
  rw [abs_lt]
  constructor <;> omega

/-- The epoch differs from the exact one by at most one rounding of a number four days further from zero. -/
theorem C109_accuracy_partial (i : Instant) (hi : i.Valid) (hy : |i.date.year| < 2 ^ 51) :
    |i.epoch64 - i.epoch.value| ≤ (|i.epoch.value| + 4) / 2 ^ 53 := by
  obtain ⟨hd, h0, h1, h2, h3, h4, h5⟩ := hi
  have hu := F64.u_pos
  have hu' := F64.u_tiny
  have hue : (1 : ℝ) / 2 ^ 53 = F64.u := by unfold F64.u; norm_num
  have n := F64.hmsToDecimalDay_near (hr := i.hour) (m := i.minute) (s := i.second) (by exact_mod_cast h0)
    (by exact_mod_cast Int.lt_add_one_iff.mp h1) (by exact_mod_cast h2) (by exact_mod_cast Int.lt_add_one_iff.mp h3) h4 h5.le
  have hg := F64.gregorianMjd_exact i.date.year i.date.month i.date.day hd.1 hd.2.1 hy
  have n' : |(i.date.mjd : ℝ) + F64.hmsToDecimalDay i.hour i.minute i.second - i.epoch.value| ≤ 31 / 10 * F64.u := by
    rw [i.epoch_value]
    rwa [add_sub_add_left_eq_sub]
  have := F64.rabs n' le_rfl
  rw [div_eq_mul_one_div, hue]
  simp only [Instant.epoch64, F64.fromGregorian, hg]
  refine this.trans ?_
  nlinarith

/-- From 1858 to 2217 the error is below 1.3 microseconds. -/
theorem C109_microsecond_partial (i : Instant) (hi : i.Valid) (h1 : 1859 ≤ i.date.year) (h2 : i.date.year ≤ 2216) :
    |i.epoch64 - i.epoch.value| * 86400 ≤ 13 / 10 ^ 7 := by
  have h := C109_accuracy_partial i hi (by rw [abs_lt]; constructor <;> omega)
  have hb : 0 ≤ i.epoch.value ∧ i.epoch.value ≤ 131000 := by
    obtain ⟨hd, k0, k1, k2, k3, k4, k5⟩ := hi
    have hb := mjd_bounds i.date hd
    have hz : 45 ≤ i.date.mjd ∧ i.date.mjd ≤ 130999 := by constructor <;> omega
    have z1 : (0 : ℝ) ≤ i.date.mjd := by exact_mod_cast (by omega : 0 ≤ i.date.mjd)
    have z2 : (i.date.mjd : ℝ) ≤ 130999 := by exact_mod_cast hz.2
    have r0 : (i.hour : ℝ) ≤ 23 := by exact_mod_cast Int.lt_add_one_iff.mp k1
    have r1 : (i.minute : ℝ) ≤ 59 := by exact_mod_cast Int.lt_add_one_iff.mp k3
    have r2 : (0 : ℝ) ≤ i.hour := by exact_mod_cast k0
    have r3 : (0 : ℝ) ≤ i.minute := by exact_mod_cast k2
    rw [i.epoch_value]
    constructor
    · positivity
    · linarith
  rw [abs_of_nonneg hb.1] at h
  norm_num at h ⊢
  linarith [hb.2]

/-- Hence two instants that are more than three microseconds apart keep their order. -/
theorem C109_order_partial (a b : Instant) (ha : a.Valid) (hb : b.Valid) (ha1 : 1859 ≤ a.date.year)
    (ha2 : a.date.year ≤ 2216) (hb1 : 1859 ≤ b.date.year) (hb2 : b.date.year ≤ 2216)
    (h : 3 / 10 ^ 6 ≤ (b.epoch.value - a.epoch.value) * 86400) : a.epoch64 < b.epoch64 := by
  have h1 := C109_microsecond_partial a ha ha1 ha2
  have h2 := C109_microsecond_partial b hb hb1 hb2
  have h3 := le_abs_self (a.epoch64 - a.epoch.value)
  have h4 := neg_abs_le (b.epoch64 - b.epoch.value)
  linarith

namespace F64

/-- doubles from 4 on are multiples of 2^-50 -/
theorem double_grid {x : ℝ} (hx : Spec.IsBinary64 x) (h : 4 ≤ x) : ∃ k : ℤ, x = k / 2 ^ 50 := by
  obtain ⟨m, e, hm, rfl⟩ := hx
  have he : -50 ≤ e := by
    by_contra hc
    have h1 : (2 : ℝ) ^ e ≤ 2 ^ (-51 : ℤ) := zpow_le_zpow_right₀ (by norm_num) (by omega)
    have h2 : (m : ℝ) ≤ 2 ^ 53 := by
      have := (abs_lt.mp hm).2
      exact_mod_cast this.le
    have h3 : (0 : ℝ) < 2 ^ e := by positivity
    have h4 : (m : ℝ) < 2 ^ 53 := by
      have := (abs_lt.mp hm).2
      exact_mod_cast this
    have h5 : (m : ℝ) * 2 ^ e < 2 ^ 53 * 2 ^ e := by nlinarith
    have h6 : (2 : ℝ) ^ 53 * 2 ^ (-51 : ℤ) = 4 := by norm_num
    nlinarith
  obtain ⟨n, hn⟩ := Int.eq_ofNat_of_zero_le (by omega : 0 ≤ e + 50)
  refine ⟨m * 2 ^ n, ?_⟩
  have : e = (n : ℤ) - 50 := by omega
  rw [this, zpow_sub₀ (by norm_num), zpow_natCast]
  push_cast
  norm_num
  ring

/-- an excess of a few units in the last place of one disappears in the rounding -/
theorem rnd_drop {n : ℤ} (h4 : 4 ≤ n) (hn : n < 2 ^ 53) {x : ℝ} (h : x ≤ n + 31 / 10 * u) : rnd x ≤ n := by
  have hd : IsDouble (n : ℝ) := by
    simpa [IsDouble] using rnd_int n (by rw [abs_lt]; constructor <;> omega)
  rcases le_or_gt x n with hx | hx
  · exact rnd_le hd hx
  · have h1 := rnd_nearest x ((isDouble_iff _).mp hd)
    rw [abs_sub_comm (n : ℝ), abs_of_pos (by linarith : 0 < x - n)] at h1
    have h2 := (abs_le.mp h1).2
    have h3 : (4 : ℝ) ≤ n := by exact_mod_cast h4
    have h5 : (4 : ℝ) ≤ rnd x := h3.trans (le_rnd hd hx.le)
    obtain ⟨k, hk⟩ := double_grid (rnd_binary64 x) h5
    have hu : u = 1 / 2 ^ 53 := by unfold u; norm_num
    have h6 : (k : ℝ) < n * 2 ^ 50 + 1 := by
      have : rnd x ≤ n + 62 / 10 * u := by linarith
      rw [hk, hu, div_le_iff₀ (by positivity)] at this
      norm_num at this ⊢
      linarith
    have h7 : k < n * 2 ^ 50 + 1 := by exact_mod_cast h6
    rw [hk, div_le_iff₀ (by positivity)]
    exact_mod_cast Int.lt_add_one_iff.mp h7

end F64

theorem mjd_early (d : Date) (hd : d.Valid) (h : 1859 ≤ d.year) : 45 ≤ d.mjd := by
  have := (mjd_bounds d hd).1
  omega

theorem mjd_late (d : Date) (hd : d.Valid) (h : d.year < 2 ^ 40) : d.mjd < 2 ^ 52 := by
  have := (mjd_bounds d hd).2
  omega

/-- Whatever the times of day, the epoch of a date is never before the epoch of an earlier date. -/
theorem C109_days_partial (a b : Instant) (ha : a.Valid) (hb : b.Valid) (hy : 1859 ≤ a.date.year)
    (hy' : b.date.year < 2 ^ 40) (h : a.date.Before b.date) : a.epoch64 ≤ b.epoch64 := by
  have hm := mjd_strictMono _ _ ha.1 hb.1 h
  have hyab : a.date.year ≤ b.date.year := by unfold Date.Before at h; omega
  have ba := mjd_early a.date ha.1 hy
  have bb := mjd_late b.date hb.1 hy'
  have ga := F64.gregorianMjd_exact a.date.year a.date.month a.date.day ha.1.1 ha.1.2.1 (by rw [abs_lt]; constructor <;> omega)
  have gb := F64.gregorianMjd_exact b.date.year b.date.month b.date.day hb.1.1 hb.1.2.1 (by rw [abs_lt]; constructor <;> omega)
  have near : ∀ i : Instant, i.Valid → 0 ≤ F64.hmsToDecimalDay i.hour i.minute i.second ∧
      F64.hmsToDecimalDay i.hour i.minute i.second ≤ 1 + 31 / 10 * F64.u := by
    rintro i ⟨hd, h0, h1, h2, h3, h4, h5⟩
    have r0 : (i.hour : ℝ) ≤ 23 := by exact_mod_cast Int.lt_add_one_iff.mp h1
    have r1 : (i.minute : ℝ) ≤ 59 := by exact_mod_cast Int.lt_add_one_iff.mp h3
    have r2 : (0 : ℝ) ≤ i.hour := by exact_mod_cast h0
    have r3 : (0 : ℝ) ≤ i.minute := by exact_mod_cast h2
    have n := F64.hmsToDecimalDay_near (hr := i.hour) (m := i.minute) (s := i.second) r2 r0 r3 r1 h4 h5.le
    have z : F64.IsDouble 0 := F64.rnd_zero
    constructor
    · unfold F64.hmsToDecimalDay
      have z1 := F64.le_rnd z (by positivity : 0 ≤ (i.hour : ℝ) / 24)
      have z2 := F64.le_rnd z (by positivity : 0 ≤ (i.minute : ℝ) / 1440)
      have z3 := F64.le_rnd z (by positivity : 0 ≤ i.second / 86400)
      exact F64.le_rnd z (add_nonneg (F64.le_rnd z (add_nonneg z1 z2)) z3)
    · have := (abs_le.mp n).2
      linarith
  have hA : a.epoch64 ≤ ((a.date.mjd + 1 : ℤ) : ℝ) := by
    simp only [Instant.epoch64, F64.fromGregorian, ga]
    apply F64.rnd_drop
    · omega
    · omega
    · have := (near a ha).2
      unfold Date.mjd
      push_cast
      linarith
  have hB : (b.date.mjd : ℝ) ≤ b.epoch64 := by
    simp only [Instant.epoch64, F64.fromGregorian, gb]
    apply F64.le_rnd
    · have := F64.rnd_int b.date.mjd (by rw [abs_lt]; constructor <;> omega)
      simpa [F64.IsDouble] using this
    · have := (near b hb).1
      unfold Date.mjd
      linarith
  have : ((a.date.mjd + 1 : ℤ) : ℝ) ≤ b.date.mjd := by exact_mod_cast hm
  linarith

/-- The instants 2022-12-19 00:00:00 and a quarter of a microsecond later are different calendar instants with the
same epoch. -/
theorem C109_violated : ¬ ∀ a b : Instant, a.Valid → b.Valid → F64.IsDouble a.second → F64.IsDouble b.second →
    a.Before b → a.epoch64 < b.epoch64 := by
  intro h
  have hd : (⟨2022, 12, 19⟩ : Date).Valid := by norm_num [Date.Valid, daysInMonth]
  have hm : (⟨2022, 12, 19⟩ : Date).mjd = 59932 := by
    unfold Date.mjd
    rw [gregorianMjd_eq _ _ _ hd.1 hd.2.1]
    simp [monthOffset]
  have hg := F64.gregorianMjd_exact 2022 12 19 (by norm_num) (by norm_num) (by norm_num)
  have h1 := h ⟨⟨2022, 12, 19⟩, 0, 0, 0⟩ ⟨⟨2022, 12, 19⟩, 0, 0, 1 / 2 ^ 22⟩ ⟨hd, by norm_num⟩ ⟨hd, by norm_num⟩
    F64.rnd_zero (by
      have := F64.isDouble_mul 1 (-22) (by norm_num)
      norm_num at this ⊢
      exact this) (by right; norm_num)
  have e1 : (⟨⟨2022, 12, 19⟩, 0, 0, 0⟩ : Instant).epoch64 = 59932 := by
    have := C109_midnight_partial ⟨2022, 12, 19⟩ hd (by norm_num)
    rw [midnight_value, hm] at this
    simpa [Date.midnight] using this
  have hg' : F64.gregorianMjd 2022 12 19 = 59932 := hg.trans hm
  have e2 : (⟨⟨2022, 12, 19⟩, 0, 0, 1 / 2 ^ 22⟩ : Instant).epoch64 = 59932 := by
    have n := F64.hmsToDecimalDay_near (hr := 0) (m := 0) (s := 1 / 2 ^ 22) le_rfl (by norm_num) le_rfl (by norm_num)
      (by positivity) (by norm_num)
    have hu' := F64.u_tiny
    simp only [Instant.epoch64, F64.fromGregorian, hg', Int.cast_zero]
    rw [abs_le] at n
    norm_num at n hu'
    have := F64.rnd_eq (x := ((59932 : ℤ) : ℝ) + F64.hmsToDecimalDay 0 0 (1 / 2 ^ 22)) (59932 * 2 ^ 37) (-37)
      (by norm_num; linarith [n.1]) (by norm_num; linarith [n.2]) (by rw [abs_lt]; norm_num; constructor <;> linarith [n.1, n.2])
    rw [this]; norm_num
  rw [e1, e2] at h1
  exact lt_irrefl _ h1

/-- a date and time of day for the theorems above -/
example : (⟨⟨2022, 12, 31⟩, 23, 59, 119 / 2⟩ : Instant).Valid ∧ (⟨⟨2023, 1, 1⟩, 0, 0, 0⟩ : Instant).Valid ∧
    (⟨2022, 12, 31⟩ : Date).Before ⟨2023, 1, 1⟩ ∧
    (⟨⟨2022, 12, 31⟩, 23, 59, 119 / 2⟩ : Instant).epoch64 < (⟨⟨2023, 1, 1⟩, 0, 0, 0⟩ : Instant).epoch64 := by
  have h1 : (⟨⟨2022, 12, 31⟩, 23, 59, 119 / 2⟩ : Instant).Valid := by
    norm_num [Instant.Valid, Date.Valid, daysInMonth]
  have h2 : (⟨⟨2023, 1, 1⟩, 0, 0, 0⟩ : Instant).Valid := by norm_num [Instant.Valid, Date.Valid, daysInMonth]
  refine ⟨h1, h2, by norm_num [Date.Before], C109_order_partial _ _ h1 h2 (by norm_num) (by norm_num) (by norm_num) (by norm_num) ?_⟩
  have m1 : (⟨2022, 12, 31⟩ : Date).mjd = 59944 := by
    unfold Date.mjd; rw [gregorianMjd_eq _ _ _ (by norm_num) (by norm_num)]; simp [monthOffset]
  have m2 : (⟨2023, 1, 1⟩ : Date).mjd = 59945 := by
    unfold Date.mjd; rw [gregorianMjd_eq _ _ _ (by norm_num) (by norm_num)]; simp [monthOffset]
  rw [Instant.epoch_value, Instant.epoch_value, m1, m2]
  norm_num

end Openspace
