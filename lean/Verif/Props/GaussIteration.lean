import Verif.Props.Gauss
import Mathlib.Analysis.SpecialFunctions.Trigonometric.Bounds

/-!
# C58: the secant iteration of the Gauss method
-/

namespace Openspace

open Real

/-! ## Where `f_of_nu` is defined -/

theorem two_arcsin_sin_pos {w : ℝ} (h0 : 0 < w) (h1 : w < 1) :
    0 < 2 * arcsin (√w) ∧ 2 * arcsin (√w) < π := by
  have hs0 : 0 < √w := sqrt_pos.mpr h0
  have hs1 : √w < 1 := by rw [sqrt_lt' one_pos]; simpa using h1
  have := arcsin_pos.mpr hs0
  have := arcsin_lt_pi_div_two.mpr hs1
  constructor <;> linarith

theorem wOfOmega_cases (w : ℝ) :
    ((w < 0 ∨ 1 < w) ∧ Gauss.wOfOmega w = .error .valueError) ∨
    ((w = 0 ∨ w = 1) ∧ Gauss.wOfOmega w = .error .zeroDivision) ∨
    ((0 < w ∧ w < 1) ∧ ∃ y, Gauss.wOfOmega w = .ok y) := by
  rcases lt_or_ge w 0 with h | h
  · left
    exact ⟨.inl h, by simp [Gauss.wOfOmega, pySqrt, h]⟩
  rcases lt_or_ge 1 w with h1 | h1
  · left
    refine ⟨.inr h1, ?_⟩
    have : 1 < √w := by rw [lt_sqrt zero_le_one]; simpa using h1
    simp [Gauss.wOfOmega, pySqrt_ok h, pyAsin, this]
  have hs1 : √w ≤ 1 := sqrt_le_one.mpr h1
  have hs0 := sqrt_nonneg w
  have e : Gauss.wOfOmega w = pyDiv (2 * (2 * arcsin √w) - sin (2 * (2 * arcsin √w)))
      (sin (2 * arcsin √w) * sin (2 * arcsin √w) * sin (2 * arcsin √w)) := by
    simp only [Gauss.wOfOmega, pySqrt_ok h, ok_bind, pyAsin_ok (by linarith : -1 ≤ √w) hs1]; rfl
  rcases h.eq_or_lt with rfl | h
  · right; left
    refine ⟨.inl rfl, ?_⟩
    rw [e]; simp [pyDiv]
  rcases h1.eq_or_lt with rfl | h1
  · right; left
    refine ⟨.inr rfl, ?_⟩
    rw [e]
    have : sin (2 * arcsin √1) = 0 := by
      rw [sqrt_one, arcsin_one, mul_div_cancel₀ _ two_ne_zero, sin_pi]
    rw [this]; simp [pyDiv]
  · right; right
    obtain ⟨g0, g1⟩ := two_arcsin_sin_pos h h1
    have := sin_pos_of_pos_of_lt_pi g0 g1
    refine ⟨⟨h, h1⟩, ?_⟩
    rw [e, pyDiv_ok (by positivity)]
    exact ⟨_, rfl⟩

/-- **C58**, second part.  `f_of_nu` raises ZeroDivisionError exactly when `nu = 0` or
`m / nu² - l` is 0 or 1, a math domain error exactly when that number is outside `[0, 1]`, and
returns a number in every other case. -/
theorem C58_domain (n m l : ℝ) :
    (Gauss.fOfNu n m l = .error .zeroDivision ↔ n = 0 ∨ m / n ^ 2 - l = 0 ∨ m / n ^ 2 - l = 1) ∧
    (Gauss.fOfNu n m l = .error .valueError ↔ n ≠ 0 ∧ (m / n ^ 2 - l < 0 ∨ 1 < m / n ^ 2 - l)) ∧
    ((∃ y, Gauss.fOfNu n m l = .ok y) ↔ n ≠ 0 ∧ 0 < m / n ^ 2 - l ∧ m / n ^ 2 - l < 1) := by
  by_cases hn : n = 0
  · subst hn
    have : Gauss.fOfNu 0 m l = .error .zeroDivision := by simp [Gauss.fOfNu, pyDiv]
    rw [this]; simp
  · have e : Gauss.fOfNu n m l = (Gauss.wOfOmega (m / n ^ 2 - l) >>= fun w => pure (1 - n + m / n ^ 2 * w)) := by
      simp only [Gauss.fOfNu, pyDiv_ok (mul_ne_zero hn hn), ok_bind, sq]
    rw [e]
    generalize m / n ^ 2 - l = w
    rcases wOfOmega_cases w with ⟨h, hw⟩ | ⟨h, hw⟩ | ⟨h, y, hw⟩
    · rw [hw]
      simp only [error_bind, Except.error.injEq, reduceCtorEq, false_iff, exists_false, hn, false_or, ne_eq,
        not_false_eq_true, true_and, h, not_or, not_and]
      rcases h with h | h
      · exact ⟨⟨by linarith, by linarith⟩, by intro; linarith⟩
      · exact ⟨⟨by linarith, by linarith⟩, by intro; linarith⟩
    · rw [hw]
      simp only [error_bind, Except.error.injEq, reduceCtorEq, false_iff, exists_false, hn, false_or, ne_eq,
        not_false_eq_true, true_and, h, not_or, not_and]
      rcases h with h | h <;> subst h <;> norm_num
    · rw [hw]
      simp only [ok_bind, pure_eq_ok, reduceCtorEq, false_iff, hn, false_or, ne_eq,
        not_false_eq_true, true_and, h, not_or, and_self, Except.ok.injEq, exists_eq']
      obtain ⟨h1, h2⟩ := h
      exact ⟨⟨h1.ne', h2.ne⟩, ⟨not_lt.mpr h1.le, not_lt.mpr h2.le⟩, by simp⟩

/-! ## When the loop ends -/

/-- consecutive iterates `(a, b)` of the secant procedure for `f`, started from `(n0, n1)`: each new
iterate is where the chord through the last two points of the graph meets the axis, and the
procedure went on because it had moved by at least the tolerance -/
inductive SecantReach (f : ℝ → Py ℝ) (n0 n1 : ℝ) : ℝ → ℝ → Prop
  | start : SecantReach f n0 n1 n0 n1
  | step {a b c ya yb : ℝ} : SecantReach f n0 n1 a b → f a = .ok ya → f b = .ok yb → ya ≠ yb →
      (c - b) * (yb - ya) = -yb * (b - a) → 1e-12 ≤ |c - b| → SecantReach f n0 n1 b c

theorem secantStep_eq_ok {m l a b c : ℝ} : Gauss.secantStep m l a b = .ok c ↔
    ∃ yb ya, Gauss.fOfNu b m l = .ok yb ∧ Gauss.fOfNu a m l = .ok ya ∧ yb - ya ≠ 0 ∧
      c = b - yb * (b - a) / (yb - ya) := by
  simp only [Gauss.secantStep, bind_eq_ok, pyDiv_eq_ok, pure_eq_ok, Except.ok.injEq]
  constructor
  · rintro ⟨yb, h1, ya, h2, q, ⟨h3, rfl⟩, rfl⟩; exact ⟨yb, ya, h1, h2, h3, rfl⟩
  · rintro ⟨yb, ya, h1, h2, h3, rfl⟩; exact ⟨yb, h1, ya, h2, _, ⟨h3, rfl⟩, rfl⟩

theorem solveNu_reach {m l n0 n1 : ℝ} {fuel : Nat} : ∀ {a b n : ℝ},
    SecantReach (Gauss.fOfNu · m l) n0 n1 a b → Gauss.solveNu m l fuel a b = .ok n →
    ∃ a' b' ya yb, SecantReach (Gauss.fOfNu · m l) n0 n1 a' b' ∧ Gauss.fOfNu a' m l = .ok ya ∧
      Gauss.fOfNu b' m l = .ok yb ∧ ya ≠ yb ∧ (n - b') * (yb - ya) = -yb * (b' - a') ∧ |n - b'| < 1e-12 := by
  induction fuel with
  | zero => intro a b n _ h; simp [Gauss.solveNu] at h
  | succ k ih =>
    intro a b n hr h
    simp only [Gauss.solveNu, bind_eq_ok] at h
    obtain ⟨c, hc, h⟩ := h
    obtain ⟨yb, ya, h1, h2, h3, h4⟩ := secantStep_eq_ok.mp hc
    have hc' : (c - b) * (yb - ya) = -yb * (b - a) := by rw [h4]; field_simp; ring
    have hne : ya ≠ yb := fun e => h3 (by rw [e]; ring)
    split at h
    · rename_i hlt
      simp only [pure_eq_ok, Except.ok.injEq] at h
      subst h
      exact ⟨a, b, ya, yb, hr, h2, h1, hne, hc', hlt⟩
    · rename_i hlt
      exact ih (.step hr h2 h1 hne hc' (not_lt.mp hlt)) h

/-- **C58**, first part.  When the loop returns `n`, it is the secant step from the last two iterates,
the last step was shorter than 1e-12, and so the last iterate is a root up to 1e-12 times
the slope of the chord. -/
theorem C58_loop {m l n0 n1 n : ℝ} {fuel : Nat} (h : Gauss.solveNu m l fuel n0 n1 = .ok n) :
    ∃ a b ya yb, SecantReach (Gauss.fOfNu · m l) n0 n1 a b ∧ Gauss.fOfNu a m l = .ok ya ∧
      Gauss.fOfNu b m l = .ok yb ∧ ya ≠ yb ∧ (n - b) * (yb - ya) = -yb * (b - a) ∧ |n - b| < 1e-12 ∧
      |yb| * |b - a| < 1e-12 * |yb - ya| := by
  obtain ⟨a, b, ya, yb, h1, h2, h3, h4, h5, h6⟩ := solveNu_reach .start h
  refine ⟨a, b, ya, yb, h1, h2, h3, h4, h5, h6, ?_⟩
  have e := congrArg abs h5
  rw [abs_mul, abs_mul, abs_neg] at e
  rw [← e]
  exact mul_lt_mul_of_pos_right h6 (abs_pos.mpr (sub_ne_zero.mpr h4.symm))

/-- the only exceptions the loop can raise are those two -/
theorem C58_errors {m l : ℝ} {fuel : Nat} : ∀ {n0 n1 : ℝ} {e : PyErr},
    Gauss.solveNu m l fuel n0 n1 = .error e → e = .zeroDivision ∨ e = .valueError ∨ e = .outOfFuel := by
  have hf : ∀ n e, Gauss.fOfNu n m l = .error e → e = .zeroDivision ∨ e = .valueError := by
    intro n e h
    obtain ⟨h1, h2, h3⟩ := C58_domain n m l
    by_cases hn : n = 0
    · rw [h1.mpr (.inl hn)] at h; cases h; exact .inl rfl
    rcases lt_trichotomy (m / n ^ 2 - l) 0 with hw | hw | hw
    · rw [h2.mpr ⟨hn, .inl hw⟩] at h; cases h; exact .inr rfl
    · rw [h1.mpr (.inr (.inl hw))] at h; cases h; exact .inl rfl
    rcases lt_trichotomy (m / n ^ 2 - l) 1 with hw1 | hw1 | hw1
    · obtain ⟨y, hy⟩ := h3.mpr ⟨hn, hw, hw1⟩
      rw [hy] at h; cases h
    · rw [h1.mpr (.inr (.inr hw1))] at h; cases h; exact .inl rfl
    · rw [h2.mpr ⟨hn, .inr hw1⟩] at h; cases h; exact .inr rfl
  induction fuel with
  | zero => intro n0 n1 e h; simp only [Gauss.solveNu, Except.error.injEq] at h; exact .inr (.inr h.symm)
  | succ k ih =>
    intro n0 n1 e h
    simp only [Gauss.solveNu, bind_eq_error] at h
    rcases h with h | ⟨c, -, h⟩
    · simp only [Gauss.secantStep, bind_eq_error] at h
      rcases h with h | ⟨y1, -, h | ⟨y0, -, h | ⟨q, -, h⟩⟩⟩
      · exact (hf _ _ h).imp_right .inl
      · exact (hf _ _ h).imp_right .inl
      · unfold pyDiv at h
        split at h
        · cases h; exact .inl rfl
        · cases h
      · simp at h
    · split at h
      · simp at h
      · exact ih h

/-- giving the loop more iterations never changes an outcome it has reached -/
theorem C58_fuel {m l : ℝ} {fuel k : Nat} (hk : fuel ≤ k) : ∀ {n0 n1 : ℝ},
    Gauss.solveNu m l fuel n0 n1 ≠ .error .outOfFuel →
    Gauss.solveNu m l k n0 n1 = Gauss.solveNu m l fuel n0 n1 := by
  induction fuel generalizing k with
  | zero => intro n0 n1 h; exact absurd rfl h
  | succ j ih =>
    intro n0 n1 h
    obtain ⟨k, rfl⟩ : ∃ k', k = k' + 1 := ⟨k - 1, by omega⟩
    simp only [Gauss.solveNu] at h ⊢
    cases hs : Gauss.secantStep m l n0 n1 with
    | error e => rfl
    | ok c =>
      rw [hs] at h
      simp only [ok_bind] at h ⊢
      split
      · rfl
      · rename_i hc
        rw [if_neg hc] at h
        exact ih (by omega) h

/-- started at an exact root, the loop returns that root -/
theorem C58_root {m l n0 n1 y0 : ℝ} (fuel : Nat) (h1 : Gauss.fOfNu n1 m l = .ok 0) (h0 : Gauss.fOfNu n0 m l = .ok y0)
    (hy : y0 ≠ 0) : Gauss.solveNu m l (fuel + 1) n0 n1 = .ok n1 := by
  have : Gauss.secantStep m l n0 n1 = .ok n1 :=
    secantStep_eq_ok.mpr ⟨0, y0, h1, h0, by simpa using hy, by simp⟩
  simp only [Gauss.solveNu, this, ok_bind, pyAbs, Gauss.NU_TOLERANCE, sub_self, abs_zero]
  rw [if_pos (by norm_num)]; rfl

end Openspace
