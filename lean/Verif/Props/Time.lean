import Verif.Lemmas.Calendar

/-!
# Properties C07–C10 and C74: time and unit conversions
-/

namespace Openspace

open Calendar

/-- the epoch of a calendar instant -/
noncomputable def Calendar.Instant.epoch (i : Instant) : Epoch :=
  Epoch.fromGregorian i.date.year i.date.month i.date.day i.hour i.minute i.second

/-- midnight of a date -/
noncomputable def Calendar.Date.midnight (d : Date) : Instant := ⟨d, 0, 0, 0⟩

/-! ## C07 -/

theorem midnight_value (d : Date) : d.midnight.epoch.value = d.mjd := by
  simp [Instant.epoch, Date.midnight, Epoch.fromGregorian, hmsToDecimalDay, ofInt, Date.mjd]

/-- the day number is 0 on 1858-11-17 and grows by one from each date to the next -/
theorem C07_gregorian :
    (Epoch.fromGregorian 1858 11 17 0 0 0).value = 0 ∧
    ∀ d : Date, d.Valid →
      (Epoch.fromGregorian d.next.year d.next.month d.next.day 0 0 0).value
        = (Epoch.fromGregorian d.year d.month d.day 0 0 0).value + 1 := by
  constructor
  · have h := midnight_value ⟨1858, 11, 17⟩
    simp only [Instant.epoch, Date.midnight, Date.mjd] at h
    rw [h, gregorianMjd_eq _ _ _ (by norm_num) (by norm_num)]
    simp [monthOffset]
  · intro d hd
    have h1 := midnight_value d
    have h2 := midnight_value d.next
    rw [mjd_next d hd] at h2
    simp only [Instant.epoch, Date.midnight] at h1 h2
    rw [h1, h2]; push_cast; ring

/-- hence the difference of two midnights is the number of calendar days between them, for any
two dates (the later one reached from the earlier by `n` applications of "next day") -/
theorem C07_day_count (d : Date) (hd : d.Valid) (n : Nat) :
    (Date.next^[n] d).midnight.epoch.value = d.midnight.epoch.value + n ∧ (Date.next^[n] d).Valid := by
  induction n with
  | zero => simpa using hd
  | succ n ih =>
    rw [Function.iterate_succ_apply']
    refine ⟨?_, next_valid _ ih.2⟩
    rw [midnight_value, mjd_next _ ih.2]
    have := ih.1
    rw [midnight_value] at this
    push_cast
    rw [this]; ring

example : (⟨2000, 2, 28⟩ : Date).Valid ∧ (⟨2000, 2, 28⟩ : Date).next = ⟨2000, 2, 29⟩ ∧
    (⟨1900, 2, 28⟩ : Date).next = ⟨1900, 3, 1⟩ ∧ (⟨-45, 12, 31⟩ : Date).next = ⟨-44, 1, 1⟩ := by
  norm_num [Date.Valid, Date.next, daysInMonth, IsLeap]

/-! ## C08 -/

/-- the order of epochs is the chronological order of calendar instants -/
theorem C08_order (a b : Instant) (ha : a.Valid) (hb : b.Valid) :
    a.epoch.value < b.epoch.value ↔ a.Before b := by
  have main : ∀ a b : Instant, a.Valid → b.Valid → a.Before b → a.epoch.value < b.epoch.value := by
    intro a b ha hb h
    obtain ⟨hd, h0, h1, h2, h3, h4, h5⟩ := ha
    obtain ⟨kd, k0, k1, k2, k3, k4, k5⟩ := hb
    have v : ∀ i : Instant, i.epoch.value = i.date.mjd + ((i.hour : ℝ) / 24 + i.minute / 1440 + i.second / 86400) := by
      intro i
      simp [Instant.epoch, Epoch.fromGregorian, hmsToDecimalDay, ofInt, Date.mjd, HOURS_IN_DAY,
        MINUTES_IN_DAY, SECONDS_IN_DAY]
    have r0 : (a.hour : ℝ) ≤ 23 := by exact_mod_cast Int.lt_add_one_iff.mp h1
    have r1 : (a.minute : ℝ) ≤ 59 := by exact_mod_cast Int.lt_add_one_iff.mp h3
    have r2 : (0 : ℝ) ≤ b.hour := by exact_mod_cast k0
    have r3 : (0 : ℝ) ≤ b.minute := by exact_mod_cast k2
    rw [v, v]
    rcases h with h | ⟨he, h⟩
    · have := mjd_strictMono _ _ hd kd h
      have : ((a.date.mjd : ℤ) : ℝ) + 1 ≤ b.date.mjd := by exact_mod_cast this
      linarith
    · rw [he]
      rcases h with h | ⟨he, h⟩
      · have : (a.hour : ℝ) + 1 ≤ b.hour := by exact_mod_cast h
        linarith
      · rw [he]
        rcases h with h | ⟨he, h⟩
        · have : (a.minute : ℝ) + 1 ≤ b.minute := by exact_mod_cast h
          linarith
        · rw [he]; linarith
  constructor
  · intro h
    by_contra hn
    have tri : b.Before a ∨ a.epoch.value = b.epoch.value := by
      by_cases h1 : b.Before a
      · exact Or.inl h1
      · right
        obtain ⟨⟨y, m, d⟩, hh, mm, ss⟩ := a
        obtain ⟨⟨y', m', d'⟩, hh', mm', ss'⟩ := b
        simp only [Instant.Before, Date.Before, Date.mk.injEq, not_or, not_and, not_lt] at hn h1
        obtain ⟨⟨n1, n2⟩, n3⟩ := hn
        obtain ⟨⟨p1, p2⟩, p3⟩ := h1
        have e1 : y = y' := le_antisymm p1 n1
        have e2 : m = m' := le_antisymm (p2 e1.symm).1 (n2 e1).1
        have e3 : d = d' := le_antisymm ((p2 e1.symm).2 e2.symm) ((n2 e1).2 e2)
        have n4 := n3 ⟨e1, e2, e3⟩
        have p4 := p3 ⟨e1.symm, e2.symm, e3.symm⟩
        have e4 : hh = hh' := le_antisymm p4.1 n4.1
        have n5 := n4.2 e4
        have p5 := p4.2 e4.symm
        have e5 : mm = mm' := le_antisymm p5.1 n5.1
        have e6 : ss = ss' := le_antisymm (p5.2 e5.symm) (n5.2 e5)
        subst e1 e2 e3 e4 e5 e6
        rfl
    rcases tri with h1 | h1
    · have := main b a hb ha h1; linarith
    · linarith
  · exact main a b ha hb

/-- different instants never collide -/
theorem C08_injective (a b : Instant) (ha : a.Valid) (hb : b.Valid)
    (h : a.epoch = b.epoch) : a = b := by
  have h1 : ¬ a.Before b := fun hc => by
    have := (C08_order a b ha hb).mpr hc; rw [h] at this; exact lt_irrefl _ this
  have h2 : ¬ b.Before a := fun hc => by
    have := (C08_order b a hb ha).mpr hc; rw [h] at this; exact lt_irrefl _ this
  obtain ⟨⟨y, m, d⟩, hh, mm, ss⟩ := a
  obtain ⟨⟨y', m', d'⟩, hh', mm', ss'⟩ := b
  simp only [Instant.Before, Date.Before, Date.mk.injEq, not_or, not_and, not_lt] at h1 h2
  obtain ⟨⟨n1, n2⟩, n3⟩ := h1
  obtain ⟨⟨p1, p2⟩, p3⟩ := h2
  have e1 : y = y' := le_antisymm p1 n1
  have e2 : m = m' := le_antisymm (p2 e1.symm).1 (n2 e1).1
  have e3 : d = d' := le_antisymm ((p2 e1.symm).2 e2.symm) ((n2 e1).2 e2)
  have n4 := n3 ⟨e1, e2, e3⟩
  have p4 := p3 ⟨e1.symm, e2.symm, e3.symm⟩
  have e4 : hh = hh' := le_antisymm p4.1 n4.1
  have n5 := n4.2 e4
  have p5 := p4.2 e4.symm
  have e5 : mm = mm' := le_antisymm p5.1 n5.1
  have e6 : ss = ss' := le_antisymm (p5.2 e5.symm) (n5.2 e5)
  subst e1 e2 e3 e4 e5 e6
  rfl

/-- 24:00 of a date is 00:00 of the next date -/
theorem C08_midnight (d : Date) (hd : d.Valid) :
    (Epoch.fromGregorian d.year d.month d.day 24 0 0) = d.next.midnight.epoch := by
  ext
  rw [midnight_value, mjd_next d hd]
  simp [Epoch.fromGregorian, hmsToDecimalDay, ofInt, Date.mjd, HOURS_IN_DAY]

example : (⟨⟨2022, 12, 31⟩, 23, 59, 59.5⟩ : Instant).Valid ∧ (⟨⟨2023, 1, 1⟩, 0, 0, 0⟩ : Instant).Valid ∧
    (⟨⟨2022, 12, 31⟩, 23, 59, 59.5⟩ : Instant).Before ⟨⟨2023, 1, 1⟩, 0, 0, 0⟩ := by
  norm_num [Instant.Valid, Instant.Before, Date.Valid, Date.Before, daysInMonth]

/-! ## C09 -/

theorem C09_translation (e : Epoch) (s t : ℝ) :
    (e.plusDays s).plusDays t = e.plusDays (s + t) ∧ e.plusDays 0 = e ∧ e.copy = e ∧
    (e.plusDays t).value - e.value = t ∧
    e.julianValue = e.value + 2400000.5 ∧
    (e.julianCenturies = 0 ↔ e.julianValue = 2451545) ∧
    (e.plusDays 36525).julianCenturies = e.julianCenturies + 1 ∧
    (e.plusDays t).julianCenturies - e.julianCenturies = t / 36525 := by
  refine ⟨?_, ?_, rfl, ?_, rfl, ?_, ?_, ?_⟩
  · ext; simp only [Epoch.plusDays]; ring
  · ext; simp [Epoch.plusDays]
  · simp [Epoch.plusDays]
  · simp only [Epoch.julianCenturies, Epoch.J2000_JULIAN_DATE, Epoch.JULIAN_CENTURY]
    constructor
    · intro h; linarith [(div_eq_zero_iff.mp h).resolve_right (by norm_num)]
    · intro h; rw [h]; norm_num
  · simp only [Epoch.julianCenturies, Epoch.julianValue, Epoch.plusDays, Epoch.JULIAN_CENTURY]; ring
  · simp only [Epoch.julianCenturies, Epoch.julianValue, Epoch.plusDays, Epoch.JULIAN_CENTURY]; ring

/-! ## C10 -/

/-- the UTC day (an integer) to which an epoch belongs: the library's epochs are TDT, 69.184 s
ahead of UTC -/
noncomputable def utcDay (e : Epoch) : Int := ⌊e.value - 69.184 / 86400⌋

theorem pyMod_range (x : ℝ) {y : ℝ} (hy : 0 < y) : 0 ≤ pyMod x y ∧ pyMod x y < y := by
  unfold pyMod ofInt pyFloor
  have h1 := Int.floor_le (x / y)
  have h2 := Int.lt_floor_add_one (x / y)
  rw [le_div_iff₀ hy] at h1
  rw [div_lt_iff₀ hy] at h2
  constructor <;> nlinarith

/-- in degrees, up to whole turns, the hour angle is the polynomial of the UTC day plus the
sidereal rate times the fraction of the day -/
theorem gha_degrees (e : Epoch) : ∃ k : ℤ,
    e.gha * 180 / Real.pi = 100.4606184
      + 36000.77004 * ((utcDay e + 2400000.5 - 2451545) / 36525)
      + 0.000387933 * ((utcDay e + 2400000.5 - 2451545) / 36525) ^ 2
      + 360.98564724 * (e.value - 69.184 / 86400 - utcDay e) - 360 * k := by
  have hpi := Real.pi_pos.ne'
  have hd : pyMod (e.value - Epoch.UTC_TDT_OFFSET) 1 = e.value - 69.184 / 86400 - utcDay e := by
    simp only [pyMod, ofInt, pyFloor, utcDay, div_one, one_mul, Epoch.UTC_TDT_OFFSET, SECONDS_IN_DAY]
  have hm : ∀ x : ℝ, pyRadians (pyMod x 360) * 180 / Real.pi = x - 360 * (⌊x / 360⌋ : ℤ) := by
    intro x
    simp only [pyRadians, pyPi, pyMod, ofInt, pyFloor]
    field_simp
  unfold Epoch.gha
  rw [hm]
  refine ⟨_, congrArg (· - _) ?_⟩
  have hd' : pyMod (e.value - 69.184 / 86400) 1 = e.value - 69.184 / 86400 - utcDay e := by
    rw [← hd]; simp only [Epoch.UTC_TDT_OFFSET, SECONDS_IN_DAY]
  simp only [Epoch.julianValue, Epoch.UTC_TDT_OFFSET, SECONDS_IN_DAY, Epoch.MJD_ZERO,
    Epoch.J2000_JULIAN_DATE, Epoch.JULIAN_CENTURY, hd']
  ring

/-- the hour angle is in [0, 2 pi) for every epoch -/
theorem C10_range (e : Epoch) : 0 ≤ e.gha ∧ e.gha < 2 * Real.pi := by
  unfold Epoch.gha
  simp only [pyRadians, pyPi]
  obtain ⟨h1, h2⟩ := pyMod_range (100.4606184 + 36000.77004 *
    (((⟨e.value - Epoch.UTC_TDT_OFFSET⟩ : Epoch).julianValue -
          pyMod (⟨e.value - Epoch.UTC_TDT_OFFSET⟩ : Epoch).value 1 - Epoch.J2000_JULIAN_DATE) / Epoch.JULIAN_CENTURY) +
    0.000387933 * (((⟨e.value - Epoch.UTC_TDT_OFFSET⟩ : Epoch).julianValue -
          pyMod (⟨e.value - Epoch.UTC_TDT_OFFSET⟩ : Epoch).value 1 - Epoch.J2000_JULIAN_DATE) / Epoch.JULIAN_CENTURY) *
        (((⟨e.value - Epoch.UTC_TDT_OFFSET⟩ : Epoch).julianValue -
          pyMod (⟨e.value - Epoch.UTC_TDT_OFFSET⟩ : Epoch).value 1 - Epoch.J2000_JULIAN_DATE) / Epoch.JULIAN_CENTURY) +
      360.98564724 * pyMod (⟨e.value - Epoch.UTC_TDT_OFFSET⟩ : Epoch).value 1) (y := 360) (by norm_num)
  have := Real.pi_pos
  constructor
  · positivity
  · rw [div_lt_iff₀ (by norm_num)]; nlinarith

/-- within one UTC day the hour angle advances by 360.98564724 degrees per day, modulo 360 -/
theorem C10_rate (a b : Epoch) (h : utcDay a = utcDay b) : ∃ k : ℤ,
    (b.gha - a.gha) * 180 / Real.pi = 360.98564724 * (b.value - a.value) + 360 * k := by
  obtain ⟨k1, h1⟩ := gha_degrees a
  obtain ⟨k2, h2⟩ := gha_degrees b
  refine ⟨k1 - k2, ?_⟩
  have : (b.gha - a.gha) * 180 / Real.pi = b.gha * 180 / Real.pi - a.gha * 180 / Real.pi := by ring
  rw [this, h1, h2, h]; push_cast; ring

/-- crossing midnight, the advance differs from that rate by less than 2e-6 degrees (modulo
360), within 50 centuries of J2000 -/
theorem C10_midnight (a b : Epoch) (h : utcDay b = utcDay a + 1)
    (hc : |((utcDay a : ℝ) + 2400000.5 - 2451545) / 36525| ≤ 50) : ∃ k : ℤ,
    |(b.gha - a.gha) * 180 / Real.pi - 360.98564724 * (b.value - a.value) - 360 * k| < 2e-6 := by
  obtain ⟨k1, h1⟩ := gha_degrees a
  obtain ⟨k2, h2⟩ := gha_degrees b
  refine ⟨k1 - k2 - 1, ?_⟩
  have : (b.gha - a.gha) * 180 / Real.pi = b.gha * 180 / Real.pi - a.gha * 180 / Real.pi := by ring
  rw [this, h1, h2, h]
  have hb := abs_le.mp hc
  push_cast
  rw [abs_lt]
  constructor <;> nlinarith [hb.1, hb.2]

example : utcDay ⟨59932⟩ = 59931 ∧ utcDay ⟨59932.5⟩ = utcDay ⟨59931⟩ + 2 ∧
    utcDay ⟨59932.5⟩ = utcDay ⟨59932⟩ + 1 ∧
    |((utcDay ⟨59932⟩ : ℝ) + 2400000.5 - 2451545) / 36525| ≤ 50 := by
  have h1 : utcDay ⟨59932⟩ = 59931 := by
    rw [utcDay, Int.floor_eq_iff]; norm_num
  have h2 : utcDay ⟨59932.5⟩ = 59932 := by
    rw [utcDay, Int.floor_eq_iff]; norm_num
  have h3 : utcDay ⟨59931⟩ = 59930 := by
    rw [utcDay, Int.floor_eq_iff]; norm_num
  rw [h1, h2, h3]; norm_num [abs_le]

/-! ## C74 -/

theorem C74_sign (x : ℝ) : pySign x * |x| = x ∧ (pySign x = -1 ∨ pySign x = 0 ∨ pySign x = 1) ∧
    (pySign x = 1 ↔ 0 < x) ∧ (pySign x = -1 ↔ x < 0) := by
  unfold pySign
  rcases lt_trichotomy x 0 with h | h | h
  · simp only [not_lt.mpr h.le, if_false, h, if_true, abs_of_neg h]; norm_num
  · subst h; norm_num
  · simp only [gt_iff_lt, h, if_true, abs_of_pos h, not_lt.mpr h.le]; norm_num

/-- additivity and carries of the two conversions -/
theorem C74_conversions (a b c a' b' c' : ℝ) :
    hmsToDecimalDay (a + a') (b + b') (c + c') = hmsToDecimalDay a b c + hmsToDecimalDay a' b' c' ∧
    dmsToRadians (a + a') (b + b') (c + c') = dmsToRadians a b c + dmsToRadians a' b' c' ∧
    hmsToDecimalDay a b (c + 60) = hmsToDecimalDay a (b + 1) c ∧
    hmsToDecimalDay a (b + 60) c = hmsToDecimalDay (a + 1) b c ∧
    hmsToDecimalDay 24 0 0 = 1 ∧
    dmsToRadians a b (c + 60) = dmsToRadians a (b + 1) c ∧
    dmsToRadians a (b + 60) c = dmsToRadians (a + 1) b c ∧
    dmsToRadians 180 0 0 = Real.pi := by
  simp only [hmsToDecimalDay, dmsToRadians, pyRadians, pyPi, HOURS_IN_DAY, MINUTES_IN_DAY,
    SECONDS_IN_DAY, MINUTES_IN_HOUR, SECONDS_IN_HOUR]
  refine ⟨?_, ?_, ?_, ?_, ?_, ?_, ?_, ?_⟩ <;> ring

end Openspace
