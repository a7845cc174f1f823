import Verif.Spec.Calendar
import Verif.Model.Time
import Verif.Lemmas.Py
import Mathlib.Tactic.IntervalCases

/-! # Day counts -/

namespace Openspace

open Calendar

/-- the values of `floor(30.6001 * (m + 1))` that occur -/
theorem floor_table (k : Int) (h1 : 4 ≤ k) (h2 : k ≤ 15) :
    pyFloor (30.6001 * ofInt k) =
      if k = 4 then 122 else if k = 5 then 153 else if k = 6 then 183 else if k = 7 then 214
      else if k = 8 then 244 else if k = 9 then 275 else if k = 10 then 306 else if k = 11 then 336
      else if k = 12 then 367 else if k = 13 then 397 else if k = 14 then 428 else 459 := by
  unfold pyFloor ofInt
  rw [Int.floor_eq_iff]
  interval_cases k <;> norm_num

/-- the cumulative day count of a month, March to February -/
def monthOffset (m : Int) : Int :=
  if m = 1 then 428 else if m = 2 then 459 else if m = 3 then 122 else if m = 4 then 153
  else if m = 5 then 183 else if m = 6 then 214 else if m = 7 then 244 else if m = 8 then 275
  else if m = 9 then 306 else if m = 10 then 336 else if m = 11 then 367 else 397

theorem gregorianMjd_eq (y m d : Int) (h1 : 1 ≤ m) (h2 : m ≤ 12) :
    Epoch.gregorianMjd y m d =
      (if m ≤ 2 then 365 * (y - 1) + (y - 1) / 400 - (y - 1) / 100 + (y - 1) / 4
       else 365 * y + y / 400 - y / 100 + y / 4) - 679004 + monthOffset m + d := by
  have : m = 1 ∨ m = 2 ∨ m = 3 ∨ m = 4 ∨ m = 5 ∨ m = 6 ∨ m = 7 ∨ m = 8 ∨ m = 9 ∨ m = 10 ∨ m = 11
      ∨ m = 12 := by omega
  have key : ∀ k v : Int, 4 ≤ k → k ≤ 15 →
      (if k = 4 then 122 else if k = 5 then 153 else if k = 6 then 183 else if k = 7 then 214
      else if k = 8 then 244 else if k = 9 then 275 else if k = 10 then 306 else if k = 11 then 336
      else if k = 12 then 367 else if k = 13 then 397 else if k = 14 then 428 else 459) = v →
      pyFloor (30.6001 * ofInt k) = v := fun k v a b c => (floor_table k a b).trans c
  unfold Epoch.gregorianMjd
  rcases this with rfl | rfl | rfl | rfl | rfl | rfl | rfl | rfl | rfl | rfl | rfl | rfl
  · have := key (1 + 12 + 1) 428 (by decide) (by decide) (by decide)
    simp only [monthOffset]; norm_num at this ⊢; rw [this]; omega
  · have := key (2 + 12 + 1) 459 (by decide) (by decide) (by decide)
    simp only [monthOffset]; norm_num at this ⊢; rw [this]; omega
  · have := key (3 + 1) 122 (by decide) (by decide) (by decide)
    simp only [monthOffset]; norm_num at this ⊢; rw [this]; omega
  · have := key (4 + 1) 153 (by decide) (by decide) (by decide)
    simp only [monthOffset]; norm_num at this ⊢; rw [this]; omega
  · have := key (5 + 1) 183 (by decide) (by decide) (by decide)
    simp only [monthOffset]; norm_num at this ⊢; rw [this]; omega
  · have := key (6 + 1) 214 (by decide) (by decide) (by decide)
    simp only [monthOffset]; norm_num at this ⊢; rw [this]; omega
  · have := key (7 + 1) 244 (by decide) (by decide) (by decide)
    simp only [monthOffset]; norm_num at this ⊢; rw [this]; omega
  · have := key (8 + 1) 275 (by decide) (by decide) (by decide)
    simp only [monthOffset]; norm_num at this ⊢; rw [this]; omega
  · have := key (9 + 1) 306 (by decide) (by decide) (by decide)
    simp only [monthOffset]; norm_num at this ⊢; rw [this]; omega
  · have := key (10 + 1) 336 (by decide) (by decide) (by decide)
    simp only [monthOffset]; norm_num at this ⊢; rw [this]; omega
  · have := key (11 + 1) 367 (by decide) (by decide) (by decide)
    simp only [monthOffset]; norm_num at this ⊢; rw [this]; omega
  · have := key (12 + 1) 397 (by decide) (by decide) (by decide)
    simp only [monthOffset]; norm_num at this ⊢; rw [this]; omega

theorem next_valid (d : Date) (h : d.Valid) : d.next.Valid := by
  obtain ⟨y, m, dd⟩ := d
  obtain ⟨h1, h2, h3, h4⟩ := h
  simp only [Date.next] at *
  split_ifs with ha hb
  · exact ⟨h1, h2, by simp only; omega, by simp only; omega⟩
  · refine ⟨by simp only; omega, by simp only; omega, by simp, ?_⟩
    simp only [daysInMonth]; split_ifs <;> omega
  · refine ⟨by simp, by simp, by simp, ?_⟩
    simp only [daysInMonth]; split_ifs <;> omega

/-- the number of the day -/
noncomputable def Calendar.Date.mjd (d : Date) : Int := Epoch.gregorianMjd d.year d.month d.day

theorem mjd_next (d : Date) (h : d.Valid) : d.next.mjd = d.mjd + 1 := by
  obtain ⟨y, m, dd⟩ := d
  obtain ⟨h1, h2, h3, h4⟩ := h
  simp only [Date.next, Date.mjd] at *
  split_ifs with ha hb
  · simp only; rw [gregorianMjd_eq _ _ _ h1 h2, gregorianMjd_eq _ _ _ h1 h2]; omega
  · simp only
    rw [gregorianMjd_eq _ _ _ h1 h2, gregorianMjd_eq _ _ _ (by omega) (by omega)]
    simp only [daysInMonth, IsLeap] at ha h4
    have : m = 1 ∨ m = 2 ∨ m = 3 ∨ m = 4 ∨ m = 5 ∨ m = 6 ∨ m = 7 ∨ m = 8 ∨ m = 9 ∨ m = 10 ∨ m = 11 := by
      omega
    rcases this with rfl | rfl | rfl | rfl | rfl | rfl | rfl | rfl | rfl | rfl | rfl <;>
      simp only [monthOffset] <;> norm_num at * <;> (try split_ifs at ha h4) <;> omega
  · simp only
    have hm : m = 12 := by omega
    subst hm
    rw [gregorianMjd_eq _ _ _ (by omega) (by omega), gregorianMjd_eq _ _ _ (by omega) (by omega)]
    simp only [daysInMonth, IsLeap] at ha h4
    simp only [monthOffset]; norm_num at *; try omega

theorem mjd_strictMono (a b : Date) (ha : a.Valid) (hb : b.Valid) (h : a.Before b) :
    a.mjd < b.mjd := by
  obtain ⟨y, m, d⟩ := a
  obtain ⟨y', m', d'⟩ := b
  obtain ⟨h1, h2, h3, h4⟩ := ha
  obtain ⟨k1, k2, k3, k4⟩ := hb
  simp only [Date.mjd, Date.Before] at *
  rw [gregorianMjd_eq _ _ _ h1 h2, gregorianMjd_eq _ _ _ k1 k2]
  -- position within the year, counted from January 1st
  have pos : ∀ y m d : Int, 1 ≤ m → m ≤ 12 → 1 ≤ d → d ≤ daysInMonth y m →
      365 * (y - 1) + (y - 1) / 400 - (y - 1) / 100 + (y - 1) / 4 + 429 ≤
        (if m ≤ 2 then 365 * (y - 1) + (y - 1) / 400 - (y - 1) / 100 + (y - 1) / 4
         else 365 * y + y / 400 - y / 100 + y / 4) + monthOffset m + d ∧
      (if m ≤ 2 then 365 * (y - 1) + (y - 1) / 400 - (y - 1) / 100 + (y - 1) / 4
         else 365 * y + y / 400 - y / 100 + y / 4) + monthOffset m + d
        < 365 * y + y / 400 - y / 100 + y / 4 + 429 := by
    intro y m d a1 a2 a3 a4
    simp only [daysInMonth, IsLeap] at a4
    have : m = 1 ∨ m = 2 ∨ m = 3 ∨ m = 4 ∨ m = 5 ∨ m = 6 ∨ m = 7 ∨ m = 8 ∨ m = 9 ∨ m = 10 ∨ m = 11
        ∨ m = 12 := by omega
    rcases this with rfl | rfl | rfl | rfl | rfl | rfl | rfl | rfl | rfl | rfl | rfl | rfl <;>
      simp only [monthOffset] <;> norm_num at * <;> (try split_ifs at a4) <;> omega
  rcases h with h | ⟨rfl, h⟩
  · have p1 := (pos y m d h1 h2 h3 h4).2
    have p2 := (pos y' m' d' k1 k2 k3 k4).1
    omega
  · rcases h with h | ⟨rfl, h⟩
    · -- the month offset of `m'` is at least that of `m` plus the length of `m`
      have step : ∀ m : Int, 1 ≤ m → m ≤ 11 →
          (if m ≤ 2 then 365 * (y - 1) + (y - 1) / 400 - (y - 1) / 100 + (y - 1) / 4
           else 365 * y + y / 400 - y / 100 + y / 4) + monthOffset m + daysInMonth y m =
          (if m + 1 ≤ 2 then 365 * (y - 1) + (y - 1) / 400 - (y - 1) / 100 + (y - 1) / 4
           else 365 * y + y / 400 - y / 100 + y / 4) + monthOffset (m + 1) := by
        intro m a1 a2
        have hm : m = 1 ∨ m = 2 ∨ m = 3 ∨ m = 4 ∨ m = 5 ∨ m = 6 ∨ m = 7 ∨ m = 8 ∨ m = 9 ∨ m = 10
            ∨ m = 11 := by omega
        rcases hm with rfl | rfl | rfl | rfl | rfl | rfl | rfl | rfl | rfl | rfl | rfl <;>
          simp only [monthOffset, daysInMonth, IsLeap] <;> norm_num <;> (try split_ifs) <;> omega
      have dpos : ∀ m, 0 ≤ daysInMonth y m := by
        intro m; simp only [daysInMonth]; split_ifs <;> omega
      have mono : ∀ n : Nat, ∀ m : Int, 1 ≤ m → m + 1 + n ≤ 12 →
          (if m ≤ 2 then 365 * (y - 1) + (y - 1) / 400 - (y - 1) / 100 + (y - 1) / 4
           else 365 * y + y / 400 - y / 100 + y / 4) + monthOffset m + daysInMonth y m ≤
          (if m + 1 + n ≤ 2 then 365 * (y - 1) + (y - 1) / 400 - (y - 1) / 100 + (y - 1) / 4
           else 365 * y + y / 400 - y / 100 + y / 4) + monthOffset (m + 1 + n) := by
        intro n
        induction n with
        | zero => intro m a1 a2; simpa using (step m a1 (by omega)).le
        | succ n ih =>
          intro m a1 a2
          have e1 := ih m a1 (by omega)
          have e2 := step (m + 1 + n) (by omega) (by omega)
          have e3 := dpos (m + 1 + n)
          rw [show m + 1 + ((n + 1 : Nat) : Int) = m + 1 + n + 1 by push_cast; ring]
          omega
      have key : ∀ m m' : Int, 1 ≤ m → m < m' → m' ≤ 12 →
          (if m ≤ 2 then 365 * (y - 1) + (y - 1) / 400 - (y - 1) / 100 + (y - 1) / 4
           else 365 * y + y / 400 - y / 100 + y / 4) + monthOffset m + daysInMonth y m ≤
          (if m' ≤ 2 then 365 * (y - 1) + (y - 1) / 400 - (y - 1) / 100 + (y - 1) / 4
           else 365 * y + y / 400 - y / 100 + y / 4) + monthOffset m' := by
        intro m m' a1 a2 a3
        obtain ⟨n, rfl⟩ : ∃ n : Nat, m' = m + 1 + n := ⟨(m' - m - 1).toNat, by omega⟩
        exact mono n m a1 a3
      have := key m m' h1 h k2
      omega
    · omega

end Openspace
