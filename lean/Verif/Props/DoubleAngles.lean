import Verif.Lemmas.DoubleElements
import Mathlib.Analysis.Real.Pi.Bounds

/-!
# Property C104: normalised angles in double precision
-/

namespace Openspace

namespace F64

theorem pi_value : pi = 7074237752028440 / 2 ^ 51 := by
  have h1 := Real.pi_gt_d20
  have h2 := Real.pi_lt_d20
  unfold pi
  rw [rnd_eq 7074237752028440 (-51)]
  · norm_num
  · norm_num at h1 ⊢; linarith
  · norm_num at h2 ⊢; linarith
  · rw [abs_lt]; norm_num at h1 h2 ⊢; constructor <;> linarith

/-- `2 * pi` -/
theorem turn_value : rnd (2 * pi) = 7074237752028440 / 2 ^ 50 := by
  rw [pi_value, rnd_eq 7074237752028440 (-50)] <;> norm_num

theorem turn_double : Spec.IsBinary64 (rnd (2 * pi)) := rnd_binary64 _

theorem wrapNeg_range {x : ℝ} (h1 : -rnd (2 * pi) ≤ x) (h2 : x ≤ rnd (2 * pi)) :
    0 ≤ wrapNeg x ∧ wrapNeg x ≤ rnd (2 * pi) := by
  unfold wrapNeg
  split_ifs with h
  · refine ⟨rnd_nonneg (by linarith), ?_⟩
    by_contra hc
    rw [not_le] at hc
    have := rnd_nearest (x + rnd (2 * pi)) turn_double
    rw [abs_of_pos (by linarith), abs_of_pos (by linarith)] at this
    linarith
  · exact ⟨not_lt.mp h, h2⟩

/-- the result is a full turn exactly for small negative angles -/
theorem wrapNeg_turn {x : ℝ} (h1 : -(1 / 2 ^ 51) < x) (h2 : x < 0) : wrapNeg x = rnd (2 * pi) := by
  rw [wrapNeg, if_pos h2, turn_value, rnd_eq 7074237752028440 (-50)]
  · norm_num
  · norm_num at h1 ⊢; linarith
  · norm_num at h1 ⊢; linarith
  · rw [abs_lt]; norm_num at h1 ⊢; constructor <;> linarith

theorem wrapNeg_lt {x : ℝ} (h1 : -rnd (2 * pi) ≤ x) (h2 : x < 0 → x ≤ -(1 / 2 ^ 50)) (h3 : x < rnd (2 * pi)) :
    wrapNeg x < rnd (2 * pi) := by
  by_cases h : x < 0
  · have hx := h2 h
    rw [wrapNeg, if_pos h]
    have ht := turn_value
    obtain ⟨t, hte⟩ : ∃ t, t = rnd (2 * pi) := ⟨_, rfl⟩
    rw [← hte] at h1 ht ⊢
    have h4 := rnd_u (x + t)
    have hu : u = 1 / 2 ^ 53 := by unfold u; norm_num
    rw [abs_of_nonneg (by linarith : 0 ≤ x + t)] at h4
    have h5 := (abs_le.mp h4).2
    have h6 : u * (x + t) ≤ u * 7 := by
      have := u_pos
      gcongr
      rw [ht]; norm_num; linarith
    rw [hu] at h5 h6
    norm_num at h5 h6 hx
    linarith
  · rwa [wrapNeg, if_neg h]

end F64

/-- **C104, what holds.** With an arctangent between `-pi` and `pi`, the angles computed in double precision are between
zero and `2 * pi` inclusive. Missing: `2 * pi` itself is returned as well, see `C104_violated`. -/
theorem C104_range_partial (lib : F64.Libm) (hlib : ∀ y x, |lib.atan2 y x| ≤ F64.pi) :
    (∀ w, 0 ≤ F64.raanFromW lib w ∧ F64.raanFromW lib w ≤ F64.rnd (2 * F64.pi)) ∧
    (∀ r w, 0 ≤ F64.uFromRW lib r w ∧ F64.uFromRW lib r w ≤ F64.rnd (2 * F64.pi)) ∧
    (∀ rdv r a n ea, F64.eaFromRdvRAN lib rdv r a n = .ok ea → 0 ≤ ea ∧ ea ≤ F64.rnd (2 * F64.pi)) ∧
    (∀ e ea nu, F64.nuFromEEa lib e ea = .ok nu → 0 ≤ nu ∧ nu ≤ F64.rnd (2 * F64.pi)) ∧
    (∀ u nu, 0 ≤ u → u ≤ F64.rnd (2 * F64.pi) → 0 ≤ nu → nu ≤ F64.rnd (2 * F64.pi) →
      0 ≤ F64.wFromUNu u nu ∧ F64.wFromUNu u nu ≤ F64.rnd (2 * F64.pi)) := by
  have hp : 0 < F64.pi := by rw [F64.pi_value]; norm_num
  have ht : F64.pi ≤ F64.rnd (2 * F64.pi) := by rw [F64.turn_value, F64.pi_value]; norm_num
  have key : ∀ y x, 0 ≤ F64.wrapNeg (lib.atan2 y x) ∧ F64.wrapNeg (lib.atan2 y x) ≤ F64.rnd (2 * F64.pi) := by
    intro y x
    obtain ⟨h1, h2⟩ := abs_le.mp (hlib y x)
    exact F64.wrapNeg_range (by linarith) (by linarith)
  refine ⟨fun w => key _ _, fun r w => key _ _, ?_, ?_, ?_⟩
  · intro rdv r a n ea h
    simp only [F64.eaFromRdvRAN, bind_eq_ok, pure_eq_ok, Except.ok.injEq] at h
    obtain ⟨_, _, _, _, rfl⟩ := h
    exact key _ _
  · intro e ea nu h
    simp only [F64.nuFromEEa, bind_eq_ok, pure_eq_ok, Except.ok.injEq] at h
    obtain ⟨_, _, rfl⟩ := h
    exact key _ _
  · intro u nu h1 h2 h3 h4
    -- rounding a difference of two angles does not leave the interval
    have mono : ∀ x, |x| ≤ F64.rnd (2 * F64.pi) → |F64.rnd x| ≤ F64.rnd (2 * F64.pi) := by
      intro x hx
      obtain ⟨m, k, hm, hk⟩ := F64.turn_double
      have hneg : Spec.IsBinary64 (-F64.rnd (2 * F64.pi)) := ⟨-m, k, by rwa [abs_neg], by rw [hk]; push_cast; ring⟩
      have n1 := F64.rnd_nearest x F64.turn_double
      have n2 := F64.rnd_nearest x hneg
      obtain ⟨x1, x2⟩ := abs_le.mp hx
      rw [abs_le]
      constructor
      · by_contra hc
        rw [not_le] at hc
        rw [abs_of_neg (by linarith), abs_of_nonpos (by linarith)] at n2
        linarith
      · by_contra hc
        rw [not_le] at hc
        rw [abs_of_pos (by linarith), abs_of_nonneg (by linarith)] at n1
        linarith
    have hd : |u - nu| ≤ F64.rnd (2 * F64.pi) := by rw [abs_le]; constructor <;> linarith
    obtain ⟨i1, i2⟩ := abs_le.mp (mono _ hd)
    exact F64.wrapNeg_range i1 i2

/-- an angle is below `2 * pi` unless it is computed from a negative angle of less than `2 ^ -50` -/
theorem C104_strict_partial (lib : F64.Libm) (hlib : ∀ y x, |lib.atan2 y x| ≤ F64.pi) (w : Vec3)
    (h : lib.atan2 w.x (-w.y) < 0 → lib.atan2 w.x (-w.y) ≤ -(1 / 2 ^ 50)) :
    F64.raanFromW lib w < F64.rnd (2 * F64.pi) := by
  have hp : 0 < F64.pi := by rw [F64.pi_value]; norm_num
  have ht : F64.pi < F64.rnd (2 * F64.pi) := by rw [F64.turn_value, F64.pi_value]; norm_num
  obtain ⟨h1, h2⟩ := abs_le.mp (hlib w.x (-w.y))
  exact F64.wrapNeg_lt (by linarith) h (by linarith)

/-- **C104 is false of the code.** Two angles below `2 * pi` whose normalised difference is `2 * pi`; and, with an
arctangent that is correct up to rounding, an orbit normal whose node is at `2 * pi`. -/
theorem C104_violated :
    (∃ u nu, F64.IsDouble u ∧ F64.IsDouble nu ∧ 0 ≤ u ∧ u < F64.rnd (2 * F64.pi) ∧ 0 ≤ nu ∧
      nu < F64.rnd (2 * F64.pi) ∧ F64.wFromUNu u nu = F64.rnd (2 * F64.pi)) ∧
    ∃ w : Vec3, F64.IsDouble w.x ∧ F64.IsDouble w.y ∧ F64.IsDouble w.z ∧
      ∀ lib : F64.Libm, (∀ y x, lib.atan2 y x = F64.rnd (pyAtan2 y x)) →
        F64.raanFromW lib w = F64.rnd (2 * F64.pi) := by
  have hs : F64.rnd (1 / 2 ^ 60) = 1 / 2 ^ 60 := by
    have := F64.rnd_exact 1 (-60) (by norm_num); norm_num at this ⊢; exact this
  have hs' : F64.rnd (-(1 / 2 ^ 60)) = -(1 / 2 ^ 60) := by
    have := F64.rnd_exact (-1) (-60) (by norm_num); norm_num at this ⊢; exact this
  have h1 : F64.rnd 1 = 1 := by
    have := F64.rnd_exact 1 0 (by norm_num); norm_num at this ⊢; exact this
  have h1' : F64.rnd (-1) = -1 := by
    have := F64.rnd_exact (-1) 0 (by norm_num); norm_num at this ⊢; exact this
  refine ⟨⟨0, 1 / 2 ^ 60, F64.rnd_zero, hs, le_rfl, ?_, by norm_num, ?_, ?_⟩,
    ⟨-(1 / 2 ^ 60), -1, 0⟩, hs', h1', F64.rnd_zero, ?_⟩
  · rw [F64.turn_value]; norm_num
  · rw [F64.turn_value]; norm_num
  · rw [F64.wFromUNu, zero_sub, hs']
    exact F64.wrapNeg_turn (by norm_num) (by norm_num)
  · intro lib hlib
    have hv : pyAtan2 (-(1 / 2 ^ 60)) (-(-1)) = Real.arctan (-(1 / 2 ^ 60)) := by
      obtain ⟨z, hz⟩ : ∃ z : ℝ, z = -(1 / 2 ^ 60) := ⟨_, rfl⟩
      rw [← hz]
      have hq : 0 < √(1 + z ^ 2) := Real.sqrt_pos.mpr (by positivity)
      refine pyAtan2_eq hq (by have := Real.neg_pi_div_two_lt_arctan z; linarith [Real.pi_pos])
        (by have := Real.arctan_lt_pi_div_two z; linarith [Real.pi_pos]) ?_ ?_
      · rw [Real.cos_arctan]; field_simp
      · rw [Real.sin_arctan]; field_simp
    have hneg : Real.arctan (-(1 / 2 ^ 60)) < 0 := by
      rw [Real.arctan_lt_zero]; norm_num
    have hge : -(1 / 2 ^ 60) ≤ Real.arctan (-(1 / 2 ^ 60) : ℝ) := by
      rw [Real.arctan_neg, neg_le_neg_iff]
      have h0 : (0 : ℝ) < 1 / 2 ^ 60 := by norm_num
      have := Real.lt_tan (Real.arctan_pos.mpr h0) (Real.arctan_lt_pi_div_two _)
      rw [Real.tan_arctan] at this
      exact this.le
    have hr := F64.rnd_u (Real.arctan (-(1 / 2 ^ 60)))
    have hu' := F64.u_small
    rw [F64.raanFromW, hlib, hv]
    apply F64.wrapNeg_turn _ (F64.rnd_neg hneg)
    rw [abs_of_neg hneg] at hr
    have := (abs_le.mp hr).1
    nlinarith

/-- the arctangent rounded to the nearest double and cut off at `pi` meets the hypothesis -/
example : ∃ lib : F64.Libm, ∀ y x, |lib.atan2 y x| ≤ F64.pi := by
  have hp : 0 < F64.pi := by rw [F64.pi_value]; norm_num
  refine ⟨⟨Real.sin, Real.cos, fun y x => max (-F64.pi) (min F64.pi (F64.rnd (pyAtan2 y x))),
    Real.arcsin, fun x y => x ^ y⟩, fun y x => ?_⟩
  rw [abs_le]
  exact ⟨le_max_left _ _, max_le (by linarith) (min_le_left _ _)⟩

end Openspace
