import Verif.Model.Double
import Verif.Spec.Double
import Mathlib.Tactic.Linarith
import Mathlib.Tactic.NormNum
import Mathlib.Tactic.FieldSimp
import Mathlib.Tactic.Positivity
import Mathlib.Tactic.Ring
import Mathlib.Tactic.Push
import Mathlib.Data.Fintype.Card

/-!
# Rounding, and landing on an epoch
-/

namespace Openspace.F64

/-! ## rounding to an integer -/

theorem roundEven_near (y : ℝ) : |(roundEven y : ℝ) - y| ≤ 1 / 2 := by
  have h := Int.floor_add_fract y
  have h0 := Int.fract_nonneg y
  have h1 := Int.fract_lt_one y
  rw [abs_le]
  unfold roundEven
  split_ifs <;> push_cast <;> constructor <;> linarith

theorem roundEven_int (n : ℤ) : roundEven (n : ℝ) = n := by
  unfold roundEven
  rw [Int.fract_intCast, if_pos (by norm_num), Int.floor_intCast]

/-- an integer closer than a half is the nearest one -/
theorem roundEven_eq {y : ℝ} {n : ℤ} (h : |y - n| < 1 / 2) : roundEven y = n := by
  have h1 := roundEven_near y
  have h2 : |(roundEven y : ℝ) - n| < 1 := by
    have := abs_sub_le (roundEven y : ℝ) y n
    linarith
  have h3 : |roundEven y - n| < 1 := by exact_mod_cast h2
  rw [Int.abs_lt_one_iff] at h3
  linarith

/-- half-way points go to the even neighbour -/
theorem roundEven_half (n : ℤ) : Even (roundEven (n + 1 / 2 : ℝ)) ∧
    (roundEven (n + 1 / 2 : ℝ) = n ∨ roundEven (n + 1 / 2 : ℝ) = n + 1) := by
  have hf : ⌊(n + 1 / 2 : ℝ)⌋ = n := by rw [Int.floor_eq_iff]; constructor <;> linarith
  have hr : Int.fract (n + 1 / 2 : ℝ) = 1 / 2 := by rw [Int.fract, hf]; ring
  unfold roundEven
  rw [hr, hf, if_neg (lt_irrefl _), if_neg (lt_irrefl _)]
  split_ifs with h
  · exact ⟨h, .inl rfl⟩
  · rw [Int.not_even_iff_odd] at h
    exact ⟨h.add_one, .inr rfl⟩

theorem roundEven_add_even {c : ℤ} (hc : Even c) (y : ℝ) : roundEven (c + y) = c + roundEven y := by
  unfold roundEven
  rw [Int.fract_intCast_add, Int.floor_intCast_add]
  have : Even (c + ⌊y⌋) ↔ Even ⌊y⌋ := by rw [Int.even_add]; simp [hc]
  simp only [this]
  split_ifs <;> ring

/-- a number that is not half-way between two integers is rounded alike from any integer -/
theorem roundEven_add (c : ℤ) (y : ℝ) : roundEven (c + y) = c + roundEven y ∨ Even (roundEven (c + y)) := by
  by_cases h : Int.fract y = 1 / 2
  · right
    have e : (c + y : ℝ) = ((c + ⌊y⌋ : ℤ) : ℝ) + 1 / 2 := by
      have := Int.floor_add_fract y
      push_cast; linarith
    rw [e]
    exact (roundEven_half _).1
  · left
    unfold roundEven
    rw [Int.fract_intCast_add, Int.floor_intCast_add]
    rcases lt_or_gt_of_ne h with h | h
    · rw [if_pos h, if_pos h]
    · rw [if_neg h.not_gt, if_neg h.not_gt, if_pos h, if_pos h]; ring

/-- adding the same number twice to an even integer gives an even integer -/
theorem twice_even {c : ℤ} (hc : Even c) (y : ℝ) : Even (roundEven (roundEven (c + y) + y)) := by
  rcases roundEven_add (roundEven (c + y)) y with h | h
  · rw [h, roundEven_add_even hc, add_assoc]
    exact hc.add (Even.add_self _)
  · exact h

/-! ## rounding to a double -/

theorem ulp_pos (x : ℝ) : 0 < ulp x := zpow_pos (by norm_num) _

theorem ulp_le {x : ℝ} (hx : x ≠ 0) : ulp x ≤ 2⁻¹ ^ 52 * |x| := by
  have h := Int.zpow_log_le_self (b := 2) (r := |x|) (by norm_num) (abs_pos.mpr hx)
  unfold ulp
  rw [zpow_sub₀ (by norm_num)]
  norm_num at h ⊢
  linarith

theorem rnd_zero : rnd 0 = 0 := by simp [rnd]

/-- the relative error of rounding -/
theorem rnd_near (x : ℝ) : |rnd x - x| ≤ 2⁻¹ ^ 53 * |x| := by
  by_cases hx : x = 0
  · subst hx; simp [rnd_zero]
  · have h1 := roundEven_near (x / ulp x)
    have h2 := ulp_pos x
    have h3 := ulp_le hx
    rw [rnd, if_neg hx]
    have : (roundEven (x / ulp x) : ℝ) * ulp x - x = (roundEven (x / ulp x) - x / ulp x) * ulp x := by
      field_simp
    rw [this, abs_mul, abs_of_pos h2]
    calc _ ≤ 1 / 2 * ulp x := by gcongr
      _ ≤ 1 / 2 * (2⁻¹ ^ 52 * |x|) := by gcongr
      _ = _ := by ring

/-- integers of less than 54 bits times a power of two are doubles -/
theorem rnd_exact (m e : ℤ) (hm : |m| < 2 ^ 53) : rnd (m * 2 ^ e) = m * 2 ^ e := by
  by_cases hx : (m : ℝ) * 2 ^ e = 0
  · rw [hx, rnd_zero]
  · have hp : (0 : ℝ) < 2 ^ e := zpow_pos (by norm_num) _
    have h1 := Int.zpow_log_le_self (b := 2) (r := |(m : ℝ) * 2 ^ e|) (by norm_num) (abs_pos.mpr hx)
    rw [rnd, if_neg hx]
    unfold ulp
    obtain ⟨L, hL⟩ : ∃ L, L = Int.log 2 |(m : ℝ) * 2 ^ e| := ⟨_, rfl⟩
    rw [← hL] at h1 ⊢
    have hle : L - 52 ≤ e := by
      by_contra hlt
      rw [not_le] at hlt
      have h2 : (2 : ℝ) ^ (e + 53) ≤ 2 ^ L := zpow_le_zpow_right₀ (by norm_num) (by omega)
      have h3 : |(m : ℝ)| < 2 ^ (53 : ℤ) := by exact_mod_cast hm
      rw [abs_mul, abs_of_pos hp] at h1
      rw [zpow_add₀ (by norm_num)] at h2
      push_cast at h1
      nlinarith
    obtain ⟨k, hk⟩ : ∃ k : ℕ, e = L - 52 + k := ⟨(e - (L - 52)).toNat, by omega⟩
    have hq : (m : ℝ) * 2 ^ e / 2 ^ (L - 52) = ((m * 2 ^ k : ℤ) : ℝ) := by
      rw [hk, zpow_add₀ (by norm_num)]
      push_cast
      rw [zpow_natCast]
      field_simp
    rw [hq, roundEven_int, ← hq]
    field_simp

theorem isDouble_mul (m e : ℤ) (hm : |m| < 2 ^ 53) : IsDouble (m * 2 ^ e) := rnd_exact m e hm

theorem roundEven_nearest (y : ℝ) (k : ℤ) : |(roundEven y : ℝ) - y| ≤ |(k : ℝ) - y| := by
  by_contra h
  rw [not_le] at h
  have h1 : |y - k| < 1 / 2 := by
    rw [abs_sub_comm]; exact h.trans_le (roundEven_near y)
  rw [roundEven_eq h1] at h
  exact lt_irrefl _ h

theorem lt_ulp {x : ℝ} : |x| < 2 ^ 53 * ulp x := by
  have h := Int.lt_zpow_succ_log_self (b := 2) (by norm_num) |x|
  have e : ((2 : ℕ) : ℝ) ^ (Int.log 2 |x| + 1) = 2 ^ 53 * ulp x := by
    unfold ulp
    rw [← zpow_natCast, ← zpow_add₀ (by norm_num)]
    push_cast
    congr 1
    ring
  rwa [e] at h

/-- rounding gives a double -/
theorem rnd_binary64 (x : ℝ) : Spec.IsBinary64 (rnd x) := by
  by_cases hx : x = 0
  · exact ⟨0, 0, by norm_num, by rw [hx, rnd_zero]; simp⟩
  · obtain ⟨m, hm⟩ : ∃ m, m = roundEven (x / ulp x) := ⟨_, rfl⟩
    have hu := ulp_pos x
    have h1 : |x / ulp x| < 2 ^ 53 := by
      rw [abs_div, abs_of_pos hu, div_lt_iff₀ hu]
      exact lt_ulp
    have hr : rnd x = m * 2 ^ (Int.log 2 |x| - 52) := by rw [rnd, if_neg hx, ← hm]; rfl
    have h2 := roundEven_near (x / ulp x)
    rw [← hm] at h2
    have h3 : |(m : ℝ)| < 2 ^ 53 + 1 := by
      have := abs_sub_abs_le_abs_sub (m : ℝ) (x / ulp x)
      linarith
    have h4 : |m| < 2 ^ 53 + 1 := by exact_mod_cast h3
    by_cases h5 : |m| < 2 ^ 53
    · exact ⟨m, _, h5, hr⟩
    · have h6 : |m| = 2 ^ 53 := by omega
      have e : (2 : ℝ) ^ (Int.log 2 |x| - 52 + 1) = 2 ^ (Int.log 2 |x| - 52) * 2 := by
        rw [zpow_add₀ (by norm_num), zpow_one]
      rcases abs_eq (by norm_num) |>.mp h6 with h | h
      · refine ⟨2 ^ 52, Int.log 2 |x| - 52 + 1, by norm_num, ?_⟩
        rw [hr, h, e]; push_cast; ring
      · refine ⟨-2 ^ 52, Int.log 2 |x| - 52 + 1, by norm_num, ?_⟩
        rw [hr, h, e]; push_cast; ring

theorem isDouble_iff (x : ℝ) : IsDouble x ↔ Spec.IsBinary64 x := by
  constructor
  · intro h
    rw [← h]; exact rnd_binary64 x
  · rintro ⟨m, e, hm, rfl⟩
    exact rnd_exact m e hm

/-- rounding gives a double nearest to its argument -/
theorem rnd_nearest (x : ℝ) {y : ℝ} (hy : Spec.IsBinary64 y) : |rnd x - x| ≤ |y - x| := by
  by_cases hx : x = 0
  · rw [hx, rnd_zero]; simp
  · have hu := ulp_pos x
    have main : ∀ k : ℤ, |rnd x - x| ≤ |k * ulp x - x| := by
      intro k
      have h := roundEven_nearest (x / ulp x) k
      have e1 : rnd x - x = (roundEven (x / ulp x) - x / ulp x) * ulp x := by
        rw [rnd, if_neg hx]; field_simp
      have e2 : k * ulp x - x = (k - x / ulp x) * ulp x := by field_simp
      rw [e1, e2, abs_mul, abs_mul]
      gcongr
    obtain ⟨m, e, hm, rfl⟩ := hy
    by_cases he : Int.log 2 |x| - 52 ≤ e
    · obtain ⟨k, hk⟩ : ∃ k : ℕ, e = Int.log 2 |x| - 52 + k := ⟨(e - (Int.log 2 |x| - 52)).toNat, by omega⟩
      have h := main (m * 2 ^ k)
      have e1 : ((m * 2 ^ k : ℤ) : ℝ) * ulp x = m * 2 ^ e := by
        unfold ulp
        rw [hk, zpow_add₀ (by norm_num), zpow_natCast]; push_cast; ring
      rwa [e1] at h
    · rw [not_le] at he
      -- a double of a smaller binade is further away than the power of two between
      have hy : |(m : ℝ) * 2 ^ e| ≤ 2 ^ 52 * ulp x := by
        have hp : (0 : ℝ) < 2 ^ e := zpow_pos (by norm_num) _
        have h3 : |(m : ℝ)| ≤ 2 ^ 53 := by exact_mod_cast hm.le
        have h4 : (2 : ℝ) ^ (e + 1) ≤ ulp x := by
          unfold ulp
          exact zpow_le_zpow_right₀ (by norm_num) (by omega)
        rw [zpow_add₀ (by norm_num), zpow_one] at h4
        rw [abs_mul, abs_of_pos hp]
        calc _ ≤ 2 ^ 53 * (2 : ℝ) ^ e := by gcongr
          _ = 2 ^ 52 * (2 ^ e * 2) := by ring
          _ ≤ _ := by gcongr
      have hxu : 2 ^ 52 * ulp x ≤ |x| := by
        have := ulp_le hx
        norm_num at this ⊢
        linarith
      rw [abs_le] at hy
      rcases le_total 0 x with h0 | h0
      · have h := main (2 ^ 52)
        rw [abs_of_nonneg h0] at hxu
        push_cast at h
        refine h.trans ?_
        rw [abs_of_nonpos (by linarith), abs_of_nonpos (by linarith)]
        linarith
      · have h := main (-2 ^ 52)
        rw [abs_of_nonpos h0] at hxu
        push_cast at h
        refine h.trans ?_
        rw [abs_of_nonneg (by linarith), abs_of_nonneg (by linarith)]
        linarith

/-- between 2¹⁵ and 2¹⁶ the doubles are the multiples of 2⁻³⁷ -/
theorem rnd_binade {x : ℝ} (h1 : 2 ^ 15 ≤ x) (h2 : x < 2 ^ 16) : rnd x = roundEven (x * 2 ^ 37) / 2 ^ 37 := by
  have hx : 0 < x := lt_of_lt_of_le (by norm_num) h1
  have hl : Int.log 2 x = 15 := by
    apply le_antisymm
    · rw [← Int.lt_add_one_iff, ← Int.lt_zpow_iff_log_lt (by norm_num) hx]
      norm_num at h2 ⊢; exact h2
    · rw [← Int.zpow_le_iff_le_log (by norm_num) hx]
      norm_num at h1 ⊢; exact h1
  rw [rnd, if_neg hx.ne', ulp, abs_of_pos hx, hl]
  have : (2 : ℝ) ^ ((15 : ℤ) - 52) = (2 ^ 37)⁻¹ := by norm_num
  rw [this, div_inv_eq_mul, div_eq_mul_inv]

/-- the epochs from 1948 to 2038: `a` units of 2⁻³⁷ days, about 0.63 microseconds -/
noncomputable def tick (a : ℤ) : ℝ := a / 2 ^ 37

theorem tick_inj {a b : ℤ} : tick a = tick b ↔ a = b := by
  unfold tick
  rw [div_left_inj' (by positivity)]
  exact Int.cast_inj

theorem tick_sub (a b : ℤ) : tick a - tick b = tick (a - b) := by
  unfold tick; push_cast; ring

theorem tick_isDouble {a : ℤ} (ha : |a| < 2 ^ 53) : IsDouble (tick a) := by
  have := isDouble_mul a (-37) ha
  unfold tick
  rwa [zpow_neg, ← div_eq_mul_inv] at this

/-- doubles in this range are ticks -/
theorem isDouble_tick {x : ℝ} (h1 : 2 ^ 15 ≤ x) (h2 : x < 2 ^ 16) (h : IsDouble x) : ∃ a, x = tick a :=
  ⟨_, h.symm.trans (rnd_binade h1 h2)⟩

/-- adding a number of days to an epoch -/
theorem plusDays_tick {a : ℤ} {x : ℝ} (h1 : 2 ^ 52 ≤ a + x) (h2 : a + x < 2 ^ 53) :
    plusDays (tick a) (x / 2 ^ 37) = tick (roundEven (a + x)) := by
  have e : tick a + x / 2 ^ 37 = (a + x) / 2 ^ 37 := by unfold tick; ring
  rw [plusDays, e, rnd_binade]
  · rw [tick, div_mul_cancel₀ _ (by positivity)]
  · rw [le_div_iff₀ (by positivity)]; norm_num at h1 ⊢; exact h1
  · rw [div_lt_iff₀ (by positivity)]; norm_num at h2 ⊢; exact h2

/-- an epoch at least `m` ticks inside the range -/
def Inside (m : ℤ) (a : ℤ) : Prop := 2 ^ 52 + m ≤ a ∧ a + m < 2 ^ 53

/-! ## a single step -/

/-- the landing point of a single step: exact, except that an odd epoch an odd number of ticks away is replaced by an
even neighbour -/
theorem single_step {a b : ℤ} (ha : Inside 1 a) (hb : Inside 1 b) (hne : b ≠ a) (hd : |b - a| ≤ 477218588) :
    ∃ c : ℤ, stepToEpoch (tick b) (tick a) = tick c ∧ |c - b| ≤ 1 ∧ (Even b → c = b) ∧ (c ≠ b → Even c) ∧
      (Even (b - a) → c = b) := by
  obtain ⟨d, hd'⟩ : ∃ d, d = b - a := ⟨_, rfl⟩
  rw [← hd'] at hd
  have hd0 : d ≠ 0 := by omega
  have t1 : ∀ m : ℤ, |m| < 2 ^ 53 → rnd (tick m) = tick m := fun m hm => tick_isDouble hm
  have hdr : |(d : ℝ)| ≤ 477218588 := by exact_mod_cast hd
  have hdr1 : 1 ≤ |(d : ℝ)| := by exact_mod_cast Int.one_le_abs hd0
  -- the span in seconds
  have hspan : span (tick b) (tick a) = tick (d * 86400) := by
    rw [span, tick_sub, ← hd', t1 d (by omega)]
    have : tick d * 86400 = tick (d * 86400) := by unfold tick; push_cast; ring
    rw [this, t1]
    rw [abs_mul]
    have : |(86400 : ℤ)| = 86400 := rfl
    rw [this]; omega
  have hn : numSteps (tick b) (tick a) = 1 := by
    rw [numSteps, hspan]
    have e : tick (d * 86400) / 300 = d * 288 / 2 ^ 37 := by unfold tick; push_cast; ring
    rw [e]
    obtain ⟨q, hq⟩ : ∃ q : ℝ, q = d * 288 / 2 ^ 37 := ⟨_, rfl⟩
    have hqa : |q| = |(d : ℝ)| * 288 / 2 ^ 37 := by
      rw [hq, abs_div, abs_mul, abs_of_pos (by norm_num : (0 : ℝ) < 288), abs_of_pos (by positivity : (0 : ℝ) < 2 ^ 37)]
    have q1 : |q| ≤ 0.9999999991 := by rw [hqa]; norm_num; linarith
    have q0 : 0 < |q| := by rw [hqa]; positivity
    rw [← hq]
    have h1 := rnd_near q
    have h2 : |rnd q| ≤ 1 := by
      have := abs_sub_abs_le_abs_sub (rnd q) q
      norm_num at h1 q1 ⊢; linarith
    have h3 : 0 < |rnd q| := by
      have := abs_sub_abs_le_abs_sub q (rnd q)
      rw [abs_sub_comm] at this
      norm_num at h1; linarith
    rw [Nat.ceil_eq_iff (by norm_num)]
    exact ⟨by simpa using h3, by simpa using h2⟩
  -- half the span in days
  have hdd : rnd (rnd (rnd (span (tick b) (tick a) / (numSteps (tick b) (tick a) : ℝ)) / 2) / 86400) =
      (d / 2 : ℝ) / 2 ^ 37 := by
    rw [hn, hspan, Nat.cast_one, div_one]
    have b1 : |d * 86400| < 2 ^ 53 := by
      rw [abs_mul]
      have : |(86400 : ℤ)| = 86400 := rfl
      rw [this]; omega
    rw [t1 _ b1]
    have e1 : tick (d * 86400) / 2 = tick (d * 43200) := by unfold tick; push_cast; ring
    have b2 : |d * 43200| < 2 ^ 53 := by
      rw [abs_mul]
      have : |(43200 : ℤ)| = 43200 := rfl
      rw [this]; omega
    rw [e1, t1 _ b2]
    have e2 : tick (d * 43200) / 86400 = d * 2 ^ (-38 : ℤ) := by
      unfold tick; push_cast; norm_num; ring
    rw [e2, rnd_exact d (-38) (by omega)]
    norm_num; ring
  have hstep : stepToEpoch (tick b) (tick a) =
      plusDays (plusDays (tick a) ((d / 2 : ℝ) / 2 ^ 37)) ((d / 2 : ℝ) / 2 ^ 37) := by
    have : stepToEpoch (tick b) (tick a) =
      step (rnd (span (tick b) (tick a) / (numSteps (tick b) (tick a) : ℝ))) (tick a) := by
      rw [stepToEpoch]
      simp only [hn, Function.iterate_one]
    rw [this, step]
    simp only [hdd]
  rw [hstep]
  obtain ⟨ha1, ha2⟩ := ha
  obtain ⟨hb1, hb2⟩ := hb
  have ha1' : (2 : ℝ) ^ 52 + 1 ≤ a := by exact_mod_cast ha1
  have ha2' : (a : ℝ) + 1 ≤ 2 ^ 53 - 1 := by
    have : a + 1 ≤ 2 ^ 53 - 1 := by omega
    exact_mod_cast this
  have hb1' : (2 : ℝ) ^ 52 + 1 ≤ b := by exact_mod_cast hb1
  have hb2' : (b : ℝ) + 1 ≤ 2 ^ 53 - 1 := by
    have : b + 1 ≤ 2 ^ 53 - 1 := by omega
    exact_mod_cast this
  have hbd : (b : ℝ) = a + d := by rw [hd']; push_cast; ring
  rw [plusDays_tick (by linarith) (by linarith)]
  obtain ⟨c1, hc1⟩ : ∃ c1, c1 = roundEven (a + d / 2 : ℝ) := ⟨_, rfl⟩
  have near := roundEven_near (a + d / 2 : ℝ)
  rw [← hc1, abs_le] at near
  rw [← hc1, plusDays_tick (by linarith) (by linarith)]
  refine ⟨_, rfl, ?_⟩
  rcases Int.even_or_odd' d with ⟨k, hk | hk⟩
  · -- an even number of ticks
    have e1 : (a + d / 2 : ℝ) = ((a + k : ℤ) : ℝ) := by rw [hk]; push_cast; ring
    rw [e1, roundEven_int] at hc1
    have e2 : (c1 + d / 2 : ℝ) = ((c1 + k : ℤ) : ℝ) := by rw [hk]; push_cast; ring
    rw [e2, roundEven_int]
    have : c1 + k = b := by omega
    rw [this]
    exact ⟨by simp, fun _ => rfl, fun h => absurd rfl h, fun _ => rfl⟩
  · -- an odd number of ticks: both additions are ties
    have e1 : (a + d / 2 : ℝ) = ((a + k : ℤ) : ℝ) + 1 / 2 := by rw [hk]; push_cast; ring
    have e2 : (c1 + d / 2 : ℝ) = ((c1 + k : ℤ) : ℝ) + 1 / 2 := by rw [hk]; push_cast; ring
    obtain ⟨f1, f2⟩ := roundEven_half (a + k)
    rw [← e1, ← hc1] at f1 f2
    obtain ⟨g1, g2⟩ := roundEven_half (c1 + k)
    rw [← e2] at g1 g2
    obtain ⟨c, hc⟩ : ∃ c, c = roundEven (c1 + d / 2 : ℝ) := ⟨_, rfl⟩
    rw [← hc] at g1 g2 ⊢
    rw [Int.even_iff] at f1 g1 ⊢
    refine ⟨?_, ?_, fun _ => by rw [Int.even_iff]; exact g1, fun he => ?_⟩
    · rw [abs_le]
      rcases f2 with f2 | f2 <;> rcases g2 with g2 | g2 <;> omega
    · intro hb
      rcases f2 with f2 | f2 <;> rcases g2 with g2 | g2 <;> omega
    · rw [Int.even_iff] at he
      omega

/-! ## any number of steps -/

theorem rnd_rel (x : ℝ) : ∃ δ : ℝ, |δ| ≤ 2⁻¹ ^ 53 ∧ rnd x = x * (1 + δ) := by
  by_cases hx : x = 0
  · exact ⟨0, by simp, by rw [hx, rnd_zero, zero_mul]⟩
  · refine ⟨(rnd x - x) / x, ?_, by field_simp; ring⟩
    rw [abs_div, div_le_iff₀ (abs_pos.mpr hx)]
    exact rnd_near x

theorem rnd_ne_zero {x : ℝ} (hx : x ≠ 0) : rnd x ≠ 0 := by
  intro h
  have h1 := rnd_near x
  rw [h, zero_sub, abs_neg] at h1
  have := abs_pos.mpr hx
  norm_num at h1
  linarith

theorem rel_mul {x y p q : ℝ} (hx : |x - 1| ≤ p) (hy : |y| ≤ q) (hp : p ≤ 1 / 10) : |x * (1 + y) - 1| ≤ p + 11 / 10 * q := by
  have e : x * (1 + y) - 1 = (x - 1) + x * y := by ring
  have h1 : |x| ≤ 11 / 10 := by
    have := abs_sub_abs_le_abs_sub x 1
    rw [abs_one] at this; linarith
  have h2 : |x * y| ≤ 11 / 10 * q := by
    rw [abs_mul]
    exact mul_le_mul h1 hy (abs_nonneg _) (by norm_num)
  rw [e]
  exact (abs_add_le _ _).trans (add_le_add hx h2)

/-- the increment in ticks of each half step -/
theorem increment (d : ℤ) (a b : ℤ) (hd : d = b - a) (hdb : |d| < 2 ^ 52) (N : ℝ) :
    ∃ η : ℝ, |η| ≤ 43 / 10 * 2⁻¹ ^ 53 ∧
      rnd (rnd (rnd (span (tick b) (tick a) / N) / 2) / 86400) = d / (2 * N) * (1 + η) / 2 ^ 37 := by
  have h0 : rnd (tick b - tick a) = tick d := by
    rw [tick_sub, ← hd]
    exact tick_isDouble (by omega)
  obtain ⟨δ1, h1, e1⟩ := rnd_rel (tick d * 86400)
  obtain ⟨δ2, h2, e2⟩ := rnd_rel (tick d * 86400 * (1 + δ1) / N)
  obtain ⟨δ3, h3, e3⟩ := rnd_rel (tick d * 86400 * (1 + δ1) / N * (1 + δ2) / 2)
  obtain ⟨δ4, h4, e4⟩ := rnd_rel (tick d * 86400 * (1 + δ1) / N * (1 + δ2) / 2 * (1 + δ3) / 86400)
  refine ⟨(1 + δ1) * (1 + δ2) * (1 + δ3) * (1 + δ4) - 1, ?_, ?_⟩
  · have g1 : |(1 + δ1) - 1| ≤ 2⁻¹ ^ 53 := by rwa [add_sub_cancel_left]
    have g2 := rel_mul g1 h2 (by norm_num)
    have g3 := rel_mul g2 h3 (by norm_num)
    have g4 := rel_mul g3 h4 (by norm_num)
    linarith
  · rw [span, h0, e1, e2, e3, e4]
    unfold tick
    by_cases hN : N = 0
    · rw [hN]; simp
    · field_simp; ring

theorem convex_lower {lo a d θ : ℝ} (h0 : 0 ≤ θ) (h1 : θ ≤ 1) (ha : lo ≤ a) (hb : lo ≤ a + d) : lo ≤ a + θ * d := by
  nlinarith

theorem convex_upper {hi a d θ : ℝ} (h0 : 0 ≤ θ) (h1 : θ ≤ 1) (ha : a ≤ hi) (hb : a + d ≤ hi) : a + θ * d ≤ hi := by
  nlinarith

/-- the landing point of any number of steps: half a tick of error for every half step, and two ticks for the rounding
of the step size -/
theorem long_step {a b : ℤ} (N : ℕ) (hN : numSteps (tick b) (tick a) = N) (ha : Inside (N + 4) a)
    (hb : Inside (N + 4) b) :
    ∃ c : ℤ, stepToEpoch (tick b) (tick a) = tick c ∧ |c - b| ≤ N + 2 ∧ (Even a → Even c) := by
  obtain ⟨d, hd⟩ : ∃ d, d = b - a := ⟨_, rfl⟩
  obtain ⟨ha1, ha2⟩ := ha
  obtain ⟨hb1, hb2⟩ := hb
  have hdb : |d| < 2 ^ 52 := by rw [abs_lt]; omega
  obtain ⟨η, hη, hinc⟩ := increment d a b hd hdb N
  rcases Nat.eq_zero_or_pos N with h0 | hpos
  · -- no steps: the epochs are equal
    have hd0 : d = 0 := by
      by_contra hne
      rw [h0, numSteps, Nat.ceil_eq_zero] at hN
      have h1 : rnd (span (tick b) (tick a) / 300) ≠ 0 := by
        apply rnd_ne_zero
        apply div_ne_zero _ (by norm_num)
        rw [span]
        apply rnd_ne_zero
        apply mul_ne_zero _ (by norm_num)
        apply rnd_ne_zero
        rw [tick_sub, ← hd]
        intro h
        have : tick d = tick 0 := by rw [h]; simp [tick]
        exact hne (tick_inj.mp this)
      exact absurd hN (not_le.mpr (abs_pos.mpr h1))
    refine ⟨a, ?_, ?_, id⟩
    · rw [stepToEpoch, hN, h0, Function.iterate_zero, id]
    · have : a - b = 0 := by omega
      rw [this, abs_zero]; positivity
  · have hNr : (0 : ℝ) < N := by exact_mod_cast hpos
    obtain ⟨D, hD⟩ : ∃ D : ℝ, D = d / (2 * N) * (1 + η) := ⟨_, rfl⟩
    rw [← hD] at hinc
    have hdr : |(d : ℝ)| ≤ 2 ^ 52 := by exact_mod_cast hdb.le
    obtain ⟨d', hd'⟩ : ∃ d' : ℝ, d' = 2 * N * D := ⟨_, rfl⟩
    have hd'1 : d' = d + d * η := by rw [hd', hD]; field_simp
    have hdη : |(d : ℝ) * η| ≤ 43 / 20 := by
      rw [abs_mul]
      calc |(d : ℝ)| * |η| ≤ 2 ^ 52 * (43 / 10 * 2⁻¹ ^ 53) := mul_le_mul hdr hη (abs_nonneg _) (by positivity)
        _ = 43 / 20 := by norm_num
    have ha1' : (2 : ℝ) ^ 52 + (N + 4) ≤ a := by exact_mod_cast ha1
    have hb1' : (2 : ℝ) ^ 52 + (N + 4) ≤ b := by exact_mod_cast hb1
    have ha2' : (a : ℝ) + (N + 4) < 2 ^ 53 := by exact_mod_cast ha2
    have hb2' : (b : ℝ) + (N + 4) < 2 ^ 53 := by exact_mod_cast hb2
    have hbd : (b : ℝ) = a + d := by rw [hd]; push_cast; ring
    rw [abs_le] at hdη
    -- where the exact multiples of the increment lie
    have range : ∀ s : ℝ, 0 ≤ s → s ≤ 2 * N →
        (2 : ℝ) ^ 52 + N + 1 ≤ a + s * D ∧ a + s * D ≤ 2 ^ 53 - N - 1 := by
      intro s hs0 hs1
      have e : s * D = s / (2 * N) * d' := by rw [hd']; field_simp
      have t0 : 0 ≤ s / (2 * N) := by positivity
      have t1 : s / (2 * N) ≤ 1 := by rw [div_le_one (by positivity)]; exact hs1
      rw [e]
      exact ⟨convex_lower t0 t1 (by linarith) (by linarith), convex_upper t0 t1 (by linarith) (by linarith)⟩
    have key : ∀ j : ℕ, j ≤ N → ∃ c : ℤ,
        (step (rnd (span (tick b) (tick a) / (N : ℝ))))^[j] (tick a) = tick c ∧ |(c : ℝ) - (a + 2 * j * D)| ≤ j ∧
          (Even a → Even c) := by
      intro j
      induction j with
      | zero => exact fun _ => ⟨a, rfl, by simp, id⟩
      | succ j ih =>
        intro hj
        obtain ⟨c, hc, hcn, hpar⟩ := ih (by omega)
        have hjr : (j : ℝ) + 1 ≤ N := by exact_mod_cast hj
        have hj0 : (0 : ℝ) ≤ j := j.cast_nonneg
        obtain ⟨r1, r2⟩ := range (2 * j + 1) (by linarith) (by linarith)
        obtain ⟨r3, r4⟩ := range (2 * j + 2) (by linarith) (by linarith)
        rw [abs_le] at hcn
        obtain ⟨c1, hc1⟩ : ∃ c1, c1 = roundEven (c + D) := ⟨_, rfl⟩
        have n1 := roundEven_near (c + D)
        rw [← hc1, abs_le] at n1
        obtain ⟨c2, hc2⟩ : ∃ c2, c2 = roundEven (c1 + D) := ⟨_, rfl⟩
        have n2 := roundEven_near (c1 + D)
        rw [← hc2, abs_le] at n2
        refine ⟨c2, ?_, ?_, fun h => by rw [hc2, hc1]; exact twice_even (hpar h) D⟩
        · rw [Function.iterate_succ_apply', hc, step]
          simp only [hinc]
          rw [plusDays_tick (by linarith) (by linarith), ← hc1, plusDays_tick (by linarith) (by linarith), ← hc2]
        · push_cast
          rw [abs_le]
          constructor <;> linarith
    obtain ⟨c, hc, hcn, hpar⟩ := key N le_rfl
    refine ⟨c, ?_, ?_, hpar⟩
    · rw [stepToEpoch, hN]; exact hc
    · have e : (a + 2 * N * D : ℝ) = b + d * η := by rw [← hd', hd'1, hbd]; ring
      rw [e, abs_le] at hcn
      have : |((c - b : ℤ) : ℝ)| < N + 3 := by
        push_cast
        rw [abs_lt]
        constructor <;> linarith
      have : |c - b| < (N : ℤ) + 3 := by exact_mod_cast this
      omega

/-- the number of steps grows by 288 for every day -/
theorem numSteps_le {a b : ℤ} (D : ℕ) (hD : D < 2 ^ 16) (h : |b - a| ≤ D * 2 ^ 37) (hd : |b - a| < 2 ^ 53) :
    numSteps (tick b) (tick a) ≤ 288 * D + 1 := by
  rw [numSteps, Nat.ceil_le, span, tick_sub]
  have h0 : rnd (tick (b - a)) = tick (b - a) := tick_isDouble hd
  obtain ⟨δ1, h1, e1⟩ := rnd_rel (tick (b - a) * 86400)
  obtain ⟨δ2, h2, e2⟩ := rnd_rel (tick (b - a) * 86400 * (1 + δ1) / 300)
  rw [h0, e1, e2]
  have g1 : |(1 + δ1) - 1| ≤ 2⁻¹ ^ 53 := by rwa [add_sub_cancel_left]
  have g2 := rel_mul g1 h2 (by norm_num)
  have e : tick (b - a) * 86400 * (1 + δ1) / 300 * (1 + δ2) = tick (b - a) * 288 * ((1 + δ1) * (1 + δ2)) := by ring
  have ht : |tick (b - a)| ≤ D := by
    unfold tick
    rw [abs_div, abs_of_pos (by positivity : (0 : ℝ) < 2 ^ 37), div_le_iff₀ (by positivity)]
    exact_mod_cast h
  have hp : |(1 + δ1) * (1 + δ2)| ≤ 1 + 2⁻¹ ^ 51 := by
    have := abs_sub_abs_le_abs_sub ((1 + δ1) * (1 + δ2)) 1
    rw [abs_one] at this
    norm_num at this g2 ⊢
    linarith
  have hD' : (D : ℝ) < 65536 := by exact_mod_cast hD
  have hD0 : (0 : ℝ) ≤ D := D.cast_nonneg
  rw [e, abs_mul, abs_mul, abs_of_pos (by norm_num : (0 : ℝ) < 288)]
  push_cast
  calc _ ≤ (D : ℝ) * 288 * (1 + 2⁻¹ ^ 51) := by gcongr
    _ ≤ _ := by norm_num; linarith

/-! ## spacecraft that track one another -/

variable {ι : Type} [DecidableEq ι]

/-- the clocks, in ticks -/
noncomputable def clocks (E : ι → ℤ) : ι → ℝ := fun j => tick (E j)

theorem update_clocks (E : ι → ℤ) (t : ι) (c : ℤ) :
    Function.update (clocks E) t (tick c) = clocks (Function.update E t c) := by
  funext j
  unfold clocks
  by_cases h : j = t
  · subst h; simp
  · simp [h]

/-- synchronising the clock of `t` removes it from the clocks that differ -/
theorem differ_lt {V : Finset ι} {E : ι → ℤ} {i t : ι} (ht : t ∈ V) (hne : E t ≠ E i) :
    (V.filter fun v => Function.update E t (E i) v ≠ Function.update E t (E i) t).card <
      (V.filter fun v => E v ≠ E i).card := by
  apply Finset.card_lt_card
  rw [Finset.ssubset_iff_of_subset]
  · exact ⟨t, by simp [ht, hne], by simp⟩
  · intro v hv
    rw [Finset.mem_filter] at hv ⊢
    obtain ⟨h1, h2⟩ := hv
    have hvt : v ≠ t := by rintro rfl; exact h2 rfl
    rw [Function.update_of_ne hvt, Function.update_self] at h2
    exact ⟨h1, h2⟩

/-- clocks are set to an even epoch exactly -/
theorem even_phase (tracks : ι → Option ι) (V : Finset ι) (closed : ∀ v ∈ V, ∀ t, tracks v = some t → t ∈ V) :
    ∀ (depth : ℕ) (E : ι → ℤ) (i : ι), i ∈ V → Even (E i) → (∀ v ∈ V, Inside 1 (E v)) →
      (∀ v ∈ V, |E v - E i| ≤ 475000000) → (V.filter fun v => E v ≠ E i).card < depth →
      ∃ w', updateAttitude tracks depth i (clocks E) = some w' := by
  intro depth
  induction depth with
  | zero => intro E i _ _ _ _ h; exact absurd h (Nat.not_lt_zero _)
  | succ depth ih =>
    intro E i hi hev hin hnear hdepth
    rw [updateAttitude]
    rcases ht : tracks i with _ | t
    · exact ⟨_, rfl⟩
    · have htV := closed i hi t ht
      simp only
      by_cases hne : clocks E t ≠ clocks E i
      · rw [if_pos hne]
        have hne' : E t ≠ E i := fun h => hne (by unfold clocks; rw [h])
        obtain ⟨c, hc, -, hex, -⟩ := single_step (hin t htV) (hin i hi) (Ne.symm hne')
          (by rw [abs_sub_comm]; exact (hnear t htV).trans (by norm_num))
        have hce := hex hev
        subst hce
        have e : stepToEpoch (clocks E i) (clocks E t) = tick (E i) := hc
        rw [e, update_clocks]
        have hval : Function.update E t (E i) t = E i := Function.update_self ..
        apply ih _ t htV
        · rw [hval]; exact hev
        · intro v hv
          by_cases hvt : v = t
          · rw [hvt, hval]; exact hin i hi
          · rw [Function.update_of_ne hvt]; exact hin v hv
        · intro v hv
          rw [hval]
          by_cases hvt : v = t
          · rw [hvt, hval]; simp
          · rw [Function.update_of_ne hvt]; exact hnear v hv
        · have := differ_lt htV hne'
          omega
      · rw [if_neg hne]; exact ⟨_, rfl⟩

/-- an odd epoch is either hit, or replaced by an even one -/
theorem closed_phase (tracks : ι → Option ι) (V : Finset ι) (closed : ∀ v ∈ V, ∀ t, tracks v = some t → t ∈ V) :
    ∀ (depth : ℕ) (E : ι → ℤ) (i : ι), i ∈ V → (∀ v ∈ V, Inside 2 (E v)) →
      (∀ v ∈ V, |E v - E i| ≤ 474999999) → (V.filter fun v => E v ≠ E i).card + V.card + 1 < depth →
      ∃ w', updateAttitude tracks depth i (clocks E) = some w' := by
  intro depth
  induction depth with
  | zero => intro E i _ _ _ h; exact absurd h (Nat.not_lt_zero _)
  | succ depth ih =>
    intro E i hi hin hnear hdepth
    have hin1 : ∀ v ∈ V, Inside 1 (E v) := fun v hv => by
      obtain ⟨h1, h2⟩ := hin v hv
      exact ⟨by omega, by omega⟩
    rw [updateAttitude]
    rcases ht : tracks i with _ | t
    · exact ⟨_, rfl⟩
    · have htV := closed i hi t ht
      simp only
      by_cases hne : clocks E t ≠ clocks E i
      · rw [if_pos hne]
        have hne' : E t ≠ E i := fun h => hne (by unfold clocks; rw [h])
        obtain ⟨c, hc, hc1, -, hodd, -⟩ := single_step (hin1 t htV) (hin1 i hi) (Ne.symm hne')
          (by rw [abs_sub_comm]; exact (hnear t htV).trans (by norm_num))
        have e : stepToEpoch (clocks E i) (clocks E t) = tick c := hc
        rw [e, update_clocks]
        by_cases hce : c = E i
        · subst hce
          have hval : Function.update E t (E i) t = E i := Function.update_self ..
          apply ih _ t htV
          · intro v hv
            by_cases hvt : v = t
            · rw [hvt, hval]; exact hin i hi
            · rw [Function.update_of_ne hvt]; exact hin v hv
          · intro v hv
            rw [hval]
            by_cases hvt : v = t
            · rw [hvt, hval]; simp
            · rw [Function.update_of_ne hvt]; exact hnear v hv
          · have := differ_lt htV hne'
            omega
        · have hval : Function.update E t c t = c := Function.update_self ..
          rw [abs_le] at hc1
          apply even_phase tracks V closed _ _ t htV
          · rw [hval]; exact hodd hce
          · intro v hv
            by_cases hvt : v = t
            · rw [hvt, hval]
              obtain ⟨h1, h2⟩ := hin i hi
              exact ⟨by omega, by omega⟩
            · rw [Function.update_of_ne hvt]; exact hin1 v hv
          · intro v hv
            rw [hval]
            by_cases hvt : v = t
            · rw [hvt, hval]; simp
            · rw [Function.update_of_ne hvt]
              have := hnear v hv
              rw [abs_le] at this ⊢
              omega
          · have := Finset.card_filter_le V fun v => Function.update E t c v ≠ Function.update E t c t
            omega
      · rw [if_neg hne]; exact ⟨_, rfl⟩

/-- the whole recursion.  `V` are the spacecraft visited so far, `base` the epoch it started with, `D` bounds the
distance in days of the clocks not yet visited from it. -/
theorem fresh_phase [Fintype ι] (tracks : ι → Option ι) (base : ℤ) (D : ℕ) (hD : D < 2 ^ 15)
    (hk : Fintype.card ι * (288 * (D + 1) + 5) ≤ 474999999) (hbase : Inside (2 ^ 36) base) :
    ∀ (n depth : ℕ) (V : Finset ι) (E : ι → ℤ) (i : ι), V.card + n = Fintype.card ι → i ∈ V →
      (∀ v ∈ V, v ≠ i → ∀ t, tracks v = some t → t ∈ V) →
      (∀ v ∈ V, |E v - E i| ≤ V.card * (288 * (D + 1) + 5)) →
      |E i - base| ≤ V.card * (288 * (D + 1) + 5) →
      (∀ v ∉ V, |E v - base| ≤ D * 2 ^ 37 ∧ Inside (2 ^ 36) (E v)) →
      n + 2 * Fintype.card ι + 1 < depth →
      ∃ w', updateAttitude tracks depth i (clocks E) = some w' := by
  intro n
  induction n with
  | zero =>
    intro depth V E i hcard hi hcl hnear hstart _ hdepth
    have hV : V = Finset.univ := by rw [← Finset.card_eq_iff_eq_univ]; omega
    have hk' : (V.card * (288 * (D + 1) + 5) : ℤ) ≤ 474999999 := by
      have : V.card = Fintype.card ι := by omega
      rw [this]; exact_mod_cast hk
    apply closed_phase tracks V (fun v _ t _ => by rw [hV]; exact Finset.mem_univ t) _ _ _ hi
    · intro v hv
      have h1 := hnear v hv
      rw [abs_le] at h1 hstart
      obtain ⟨h2, h3⟩ := hbase
      exact ⟨by omega, by omega⟩
    · intro v hv; exact (hnear v hv).trans hk'
    · have := Finset.card_filter_le V fun v => E v ≠ E i
      omega
  | succ n ih =>
    intro depth V E i hcard hi hcl hnear hstart hout hdepth
    have hk' : ((V.card + 1) * (288 * (D + 1) + 5) : ℤ) ≤ 474999999 := by
      have h1 : (V.card + 1) * (288 * (D + 1) + 5) ≤ Fintype.card ι * (288 * (D + 1) + 5) :=
        Nat.mul_le_mul_right _ (by omega)
      exact_mod_cast h1.trans hk
    have hM : (V.card * (288 * (D + 1) + 5) : ℤ) + (288 * (D + 1) + 5) ≤ 474999999 := by linarith
    have hM0 : (0 : ℤ) ≤ V.card * (288 * (D + 1) + 5) := by positivity
    obtain ⟨hb1, hb2⟩ := hbase
    have hin : ∀ v ∈ V, Inside (2 ^ 35) (E v) := by
      intro v hv
      have h1 := hnear v hv
      rw [abs_le] at h1
      have h2 := hstart
      rw [abs_le] at h2
      exact ⟨by omega, by omega⟩
    by_cases hclosed : ∀ t, tracks i = some t → t ∈ V
    · apply closed_phase tracks V _ _ _ _ hi
      · intro v hv
        obtain ⟨h1, h2⟩ := hin v hv
        exact ⟨by omega, by omega⟩
      · intro v hv; exact (hnear v hv).trans (by omega)
      · have := Finset.card_filter_le V fun v => E v ≠ E i
        omega
      · intro v hv t ht
        by_cases hvi : v = i
        · subst hvi; exact hclosed t ht
        · exact hcl v hv hvi t ht
    · push Not at hclosed
      obtain ⟨t, ht, htV⟩ := hclosed
      obtain ⟨depth, rfl⟩ : ∃ m, depth = m + 1 := ⟨depth - 1, by omega⟩
      rw [updateAttitude, ht]
      simp only
      by_cases hne : clocks E t ≠ clocks E i
      · rw [if_pos hne]
        obtain ⟨ho1, ho2⟩ := hout t htV
        have hst := hstart
        rw [abs_le] at ho1 hst
        have hdist : |E i - E t| ≤ ((D + 1 : ℕ) : ℤ) * 2 ^ 37 := by
          rw [abs_le]; push_cast
          constructor <;> linarith
        obtain ⟨N, hN⟩ : ∃ N, N = numSteps (tick (E i)) (tick (E t)) := ⟨_, rfl⟩
        have hii := hin i hi
        have hNle : N ≤ 288 * (D + 1) + 1 := by
          rw [hN]
          apply numSteps_le (D + 1) (by omega) hdist
          obtain ⟨h1, h2⟩ := hii
          obtain ⟨h3, h4⟩ := ho2
          rw [abs_lt]; omega
        have hNz : (N : ℤ) ≤ 288 * (D + 1) + 1 := by exact_mod_cast hNle
        obtain ⟨c, hc, hcn, -⟩ := long_step (a := E t) (b := E i) N hN.symm
          (by obtain ⟨h3, h4⟩ := ho2; exact ⟨by omega, by omega⟩)
          (by obtain ⟨h3, h4⟩ := hii; exact ⟨by omega, by omega⟩)
        have e : stepToEpoch (clocks E i) (clocks E t) = tick c := hc
        rw [e, update_clocks]
        have hval : Function.update E t c t = c := Function.update_self ..
        have hoth : ∀ v, v ≠ t → Function.update E t c v = E v := fun v hv => Function.update_of_ne hv ..
        have hcard' : (insert t V).card = V.card + 1 := Finset.card_insert_of_notMem htV
        rw [abs_le] at hcn
        have hsucc : (((V.card + 1 : ℕ) : ℤ) * (288 * (D + 1) + 5)) =
            V.card * (288 * (D + 1) + 5) + (288 * (D + 1) + 5) := by push_cast; ring
        apply ih _ (insert t V) _ t (by omega) (Finset.mem_insert_self t V)
        · intro v hv hvt u hu
          rcases Finset.mem_insert.mp hv with h | h
          · exact absurd h hvt
          · by_cases hvi : v = i
            · subst hvi
              rw [ht] at hu
              cases hu
              exact Finset.mem_insert_self t V
            · exact Finset.mem_insert_of_mem (hcl v h hvi u hu)
        · intro v hv
          rw [hval, hcard', hsucc]
          by_cases hvt : v = t
          · rw [hvt, hval]; simp only [sub_self, abs_zero]; omega
          · rw [hoth v hvt]
            have h1 := hnear v ((Finset.mem_insert.mp hv).resolve_left hvt)
            rw [abs_le] at h1 ⊢
            omega
        · rw [hval, hcard', hsucc, abs_le]
          omega
        · intro v hv
          have hvt : v ≠ t := fun h => hv (h ▸ Finset.mem_insert_self t V)
          rw [hoth v hvt]
          exact hout v fun h => hv (Finset.mem_insert_of_mem h)
        · omega
      · rw [if_neg hne]; exact ⟨_, rfl⟩

end Openspace.F64
