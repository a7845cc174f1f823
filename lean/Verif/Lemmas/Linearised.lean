import Mathlib.Analysis.Calculus.MeanValue
import Mathlib.Analysis.SpecialFunctions.Trigonometric.Deriv
import Mathlib.Analysis.SpecialFunctions.Trigonometric.Bounds
import Verif.Props.Hill

/-!
# How far the Clohessy-Wiltshire solution is from a solution with a small extra acceleration

and how far the attraction of the Earth is from its linear part near a circular orbit.
-/

namespace Openspace

open Real

/-- a function whose derivative shrinks linearly to zero at the end of the interval -/
theorem increment_le {f f' : ℝ → ℝ} {T C : ℝ} (h : ∀ t ∈ Set.uIcc 0 T, HasDerivAt f (f' t) t)
    (hb : ∀ t ∈ Set.uIcc 0 T, |f' t| ≤ C * |T - t|) : |f T - f 0| ≤ C / 2 * T ^ 2 := by
  have hin : ∀ s ∈ Set.Icc (0 : ℝ) 1, T * s ∈ Set.uIcc 0 T := by
    intro s hs
    rw [Set.mem_uIcc]
    rcases le_total 0 T with hT | hT
    · left; exact ⟨mul_nonneg hT hs.1, mul_le_of_le_one_right hT hs.2⟩
    · right; exact ⟨by nlinarith [hs.2], mul_nonpos_of_nonpos_of_nonneg hT hs.1⟩
  have hg : ∀ s ∈ Set.Icc (0 : ℝ) 1, HasDerivAt (fun s => f (T * s)) (f' (T * s) * T) s := by
    intro s hs
    have hl : HasDerivAt (fun s : ℝ => T * s) T s := by simpa using (hasDerivAt_id s).const_mul T
    exact (h _ (hin s hs)).comp s hl
  have hbd : ∀ s ∈ Set.Icc (0 : ℝ) 1, |f' (T * s) * T| ≤ C * T ^ 2 * (1 - s) := by
    intro s hs
    have h1 := hb _ (hin s hs)
    rw [abs_mul]
    have e : |T - T * s| = |T| * (1 - s) := by
      rw [show T - T * s = T * (1 - s) by ring, abs_mul, abs_of_nonneg (by linarith [hs.2] : 0 ≤ 1 - s)]
    rw [e] at h1
    calc |f' (T * s)| * |T| ≤ C * (|T| * (1 - s)) * |T| := by gcongr
      _ = C * |T| ^ 2 * (1 - s) := by ring
      _ = _ := by rw [sq_abs]
  have hB : ∀ s : ℝ, HasDerivAt (fun s => C * T ^ 2 * (s - s ^ 2 / 2)) (C * T ^ 2 * (1 - s)) s := by
    intro s
    have := (((hasDerivAt_id s).sub ((hasDerivAt_pow 2 s).div_const 2)).const_mul (C * T ^ 2))
    refine this.congr_deriv ?_
    simp
  have up : MonotoneOn (fun s => C * T ^ 2 * (s - s ^ 2 / 2) - f (T * s)) (Set.Icc 0 1) := by
    apply monotoneOn_of_deriv_nonneg (convex_Icc 0 1)
    · exact fun s hs => ((hB s).sub (hg s hs)).continuousAt.continuousWithinAt
    · intro s hs
      rw [interior_Icc] at hs
      exact ((hB s).sub (hg s (Set.Ioo_subset_Icc_self hs))).differentiableAt.differentiableWithinAt
    · intro s hs
      rw [interior_Icc] at hs
      have hs' := Set.Ioo_subset_Icc_self hs
      refine le_of_le_of_eq ?_ ((hB s).sub (hg s hs')).deriv.symm
      linarith [(abs_le.mp (hbd s hs')).2]
  have dn : MonotoneOn (fun s => C * T ^ 2 * (s - s ^ 2 / 2) + f (T * s)) (Set.Icc 0 1) := by
    apply monotoneOn_of_deriv_nonneg (convex_Icc 0 1)
    · exact fun s hs => ((hB s).add (hg s hs)).continuousAt.continuousWithinAt
    · intro s hs
      rw [interior_Icc] at hs
      exact ((hB s).add (hg s (Set.Ioo_subset_Icc_self hs))).differentiableAt.differentiableWithinAt
    · intro s hs
      rw [interior_Icc] at hs
      have hs' := Set.Ioo_subset_Icc_self hs
      refine le_of_le_of_eq ?_ ((hB s).add (hg s hs')).deriv.symm
      linarith [(abs_le.mp (hbd s hs')).1]
  have m1 := up (Set.left_mem_Icc.mpr zero_le_one) (Set.right_mem_Icc.mpr zero_le_one) zero_le_one
  have m2 := dn (Set.left_mem_Icc.mpr zero_le_one) (Set.right_mem_Icc.mpr zero_le_one) zero_le_one
  simp only [mul_zero, mul_one, zero_pow two_ne_zero, one_pow, zero_div, sub_zero] at m1 m2
  rw [abs_le]
  constructor <;> linarith

/-- a function whose derivative is bounded -/
theorem increment_le' {f f' : ℝ → ℝ} {T C : ℝ} (h : ∀ t ∈ Set.uIcc 0 T, HasDerivAt f (f' t) t)
    (hb : ∀ t ∈ Set.uIcc 0 T, |f' t| ≤ C) : |f T - f 0| ≤ C * |T| := by
  have := (convex_uIcc 0 T).norm_image_sub_le_of_norm_hasDerivWithin_le (f := f) (f' := f') (C := C)
    (fun t ht => (h t ht).hasDerivWithinAt) (fun t ht => by rw [norm_eq_abs]; exact hb t ht)
    Set.left_mem_uIcc Set.right_mem_uIcc
  simpa [norm_eq_abs] using this

theorem two_one_sub_cos_le (x : ℝ) : |2 * (1 - cos x)| ≤ 2 * |x| := by
  have h1 := cos_le_one x
  have h2 := neg_one_le_cos x
  have h3 := one_sub_sq_div_two_le_cos (x := x)
  rw [abs_of_nonneg (by linarith)]
  have h4 := abs_nonneg x
  have h5 := sq_abs x
  rcases le_total |x| 2 with h | h
  · nlinarith
  · linarith

/-- motion with accelerations `p`, `q`, `r` beyond those of the linear equations -/
structure Perturbed (n : ℝ) (I : Set ℝ) (x y z vx vy vz p q r : ℝ → ℝ) : Prop where
  dx : ∀ t ∈ I, HasDerivAt x (vx t) t
  dy : ∀ t ∈ I, HasDerivAt y (vy t) t
  dz : ∀ t ∈ I, HasDerivAt z (vz t) t
  dvx : ∀ t ∈ I, HasDerivAt vx (3 * n ^ 2 * x t + 2 * n * vy t + p t) t
  dvy : ∀ t ∈ I, HasDerivAt vy (-(2 * n * vx t) + q t) t
  dvz : ∀ t ∈ I, HasDerivAt vz (-(n ^ 2 * z t) + r t) t

theorem perturbed_error {n T P Q : ℝ} {x y z vx vy vz p q r : ℝ → ℝ} (hn : 0 < n)
    (h : Perturbed n (Set.uIcc 0 T) x y z vx vy vz p q r)
    (hp : ∀ t ∈ Set.uIcc 0 T, |p t| ≤ P) (hq : ∀ t ∈ Set.uIcc 0 T, |q t| ≤ Q) (hr : ∀ t ∈ Set.uIcc 0 T, |r t| ≤ Q) :
    let e := (Hill.phi n T).mulVec ⟨x 0, y 0, z 0, vx 0, vy 0, vz 0⟩
    |x T - e.x| ≤ (P + 2 * Q) / 2 * T ^ 2 ∧ |y T - e.y| ≤ (2 * P + 7 * Q) / 2 * T ^ 2 ∧
    |z T - e.z| ≤ Q / 2 * T ^ 2 ∧
    |vx T - e.vx| ≤ (P + 2 * Q) * |T| ∧ |vy T - e.vy| ≤ (2 * P + 7 * Q) * |T| ∧ |vz T - e.vz| ≤ Q * |T| := by
  have hT : ∀ A B C D t, HasDerivAt (fun t => A + B * sin (n * (T - t)) + C * cos (n * (T - t)) + D * (T - t))
      (-(B * cos (n * (T - t)) * n) + C * sin (n * (T - t)) * n - D) t := by
    intro A B C D t
    have hl : HasDerivAt (fun t => n * (T - t)) (-n) t := by
      simpa using ((hasDerivAt_id t).const_sub T).const_mul n
    have hd : HasDerivAt (fun t => D * (T - t)) (-D) t := by
      simpa using ((hasDerivAt_id t).const_sub T).const_mul D
    exact ((((hl.sin.const_mul B).const_add A).add (hl.cos.const_mul C)).add hd).congr_deriv (by ring)
  have hni : 0 < 1 / n := by positivity
  have mul1 : ∀ a b A B : ℝ, |a| ≤ A → |b| ≤ B → |a * b| ≤ A * B := fun a b A B ha hb => by
    rw [abs_mul]; exact mul_le_mul ha hb (abs_nonneg _) ((abs_nonneg _).trans ha)
  -- bounds of the coefficients
  have cs : ∀ t, |1 / n * sin (n * (T - t))| ≤ |T - t| := fun t => by
    rw [abs_mul, abs_of_pos hni]
    calc 1 / n * |sin (n * (T - t))| ≤ 1 / n * |n * (T - t)| :=
        mul_le_mul_of_nonneg_left abs_sin_le_abs hni.le
      _ = _ := by rw [abs_mul, abs_of_pos hn]; field_simp
  have cc : ∀ t, |2 * (1 / n) + -2 * (1 / n) * cos (n * (T - t))| ≤ 2 * |T - t| := fun t => by
    rw [show 2 * (1 / n) + -2 * (1 / n) * cos (n * (T - t)) = 1 / n * (2 * (1 - cos (n * (T - t)))) by ring, abs_mul,
      abs_of_pos hni]
    calc 1 / n * |2 * (1 - cos (n * (T - t)))| ≤ 1 / n * (2 * |n * (T - t)|) := by
          gcongr; exact two_one_sub_cos_le _
      _ = _ := by rw [abs_mul, abs_of_pos hn]; field_simp
  have cc' : ∀ t, |-(2 * (1 / n) + -2 * (1 / n) * cos (n * (T - t)))| ≤ 2 * |T - t| := fun t => by
    rw [abs_neg]; exact cc t
  have c4 : ∀ t, |4 * (1 / n) * sin (n * (T - t)) + -3 * (T - t)| ≤ 7 * |T - t| := fun t => by
    refine (abs_add_le _ _).trans ?_
    have := cs t
    rw [show 4 * (1 / n) * sin (n * (T - t)) = 4 * (1 / n * sin (n * (T - t))) by ring, abs_mul, abs_mul (-3), abs_neg,
      abs_of_pos (by norm_num : (0 : ℝ) < 4), abs_of_pos (by norm_num : (0 : ℝ) < 3)]
    linarith
  have add2 : ∀ a b A B : ℝ, |a| ≤ A → |b| ≤ B → |a + b| ≤ A + B := fun a b A B ha hb =>
    (abs_add_le a b).trans (add_le_add ha hb)
  have e1 := increment_le (f := fun t => (4 + 0 * sin (n * (T - t)) + (-3) * cos (n * (T - t)) + 0 * (T - t)) * x t
      + (0 + (1 / n) * sin (n * (T - t)) + 0 * cos (n * (T - t)) + 0 * (T - t)) * vx t
      + ((2 * (1 / n)) + 0 * sin (n * (T - t)) + (-2 * (1 / n)) * cos (n * (T - t)) + 0 * (T - t)) * vy t)
    (f' := fun t => (1 / n * sin (n * (T - t))) * p t + (2 * (1 / n) + -2 * (1 / n) * cos (n * (T - t))) * q t)
    (C := P + 2 * Q)
    (fun t ht => by
      refine ((((hT 4 0 (-3) 0 t).mul (h.dx t ht)).add ((hT 0 (1 / n) 0 0 t).mul (h.dvx t ht))).add
        ((hT (2 * (1 / n)) 0 (-2 * (1 / n)) 0 t).mul (h.dvy t ht))).congr_deriv ?_
      field_simp; ring)
    (fun t ht => (add2 _ _ _ _ (mul1 _ _ _ _ (cs t) (hp t ht)) (mul1 _ _ _ _ (cc t) (hq t ht))).trans
      (le_of_eq (by ring)))
  have e2 := increment_le (f := fun t => (0 + 6 * sin (n * (T - t)) + 0 * cos (n * (T - t)) + (-6 * n) * (T - t)) * x t
      + (1 + 0 * sin (n * (T - t)) + 0 * cos (n * (T - t)) + 0 * (T - t)) * y t
      + ((-2 * (1 / n)) + 0 * sin (n * (T - t)) + (2 * (1 / n)) * cos (n * (T - t)) + 0 * (T - t)) * vx t
      + (0 + (4 * (1 / n)) * sin (n * (T - t)) + 0 * cos (n * (T - t)) + (-3) * (T - t)) * vy t)
    (f' := fun t => -(2 * (1 / n) + -2 * (1 / n) * cos (n * (T - t))) * p t +
      (4 * (1 / n) * sin (n * (T - t)) + -3 * (T - t)) * q t)
    (C := 2 * P + 7 * Q)
    (fun t ht => by
      refine (((((hT 0 6 0 (-6 * n) t).mul (h.dx t ht)).add ((hT 1 0 0 0 t).mul (h.dy t ht))).add
        ((hT (-2 * (1 / n)) 0 (2 * (1 / n)) 0 t).mul (h.dvx t ht))).add
        ((hT 0 (4 * (1 / n)) 0 (-3) t).mul (h.dvy t ht))).congr_deriv ?_
      field_simp; ring)
    (fun t ht => (add2 _ _ _ _ (mul1 _ _ _ _ (cc' t) (hp t ht))
      (mul1 _ _ _ _ (c4 t) (hq t ht))).trans (le_of_eq (by ring)))
  have e3 := increment_le (f := fun t => (0 + 0 * sin (n * (T - t)) + 1 * cos (n * (T - t)) + 0 * (T - t)) * z t
      + (0 + (1 / n) * sin (n * (T - t)) + 0 * cos (n * (T - t)) + 0 * (T - t)) * vz t)
    (f' := fun t => (1 / n * sin (n * (T - t))) * r t) (C := Q)
    (fun t ht => by
      refine (((hT 0 0 1 0 t).mul (h.dz t ht)).add ((hT 0 (1 / n) 0 0 t).mul (h.dvz t ht))).congr_deriv ?_
      field_simp; ring)
    (fun t ht => (mul1 _ _ _ _ (cs t) (hr t ht)).trans (le_of_eq (by ring)))
  have tr : ∀ k c : ℝ, 0 ≤ k → |c| ≤ 1 → |k * c| ≤ k := fun k c hk hc => by
    rw [abs_mul, abs_of_nonneg hk]; exact mul_le_of_le_one_right hk hc
  have ic := fun t => abs_cos_le_one (n * (T - t))
  have is := fun t => abs_sin_le_one (n * (T - t))
  have is' : ∀ t, |-(2 * sin (n * (T - t)))| ≤ 2 := fun t => by
    rw [abs_neg]; exact tr 2 _ (by norm_num) (is t)
  have e4 := increment_le' (f := fun t => (0 + (3 * n) * sin (n * (T - t)) + 0 * cos (n * (T - t)) + 0 * (T - t)) * x t
      + (0 + 0 * sin (n * (T - t)) + 1 * cos (n * (T - t)) + 0 * (T - t)) * vx t
      + (0 + 2 * sin (n * (T - t)) + 0 * cos (n * (T - t)) + 0 * (T - t)) * vy t)
    (f' := fun t => cos (n * (T - t)) * p t + 2 * sin (n * (T - t)) * q t) (C := P + 2 * Q)
    (fun t ht => by
      refine ((((hT 0 (3 * n) 0 0 t).mul (h.dx t ht)).add ((hT 0 0 1 0 t).mul (h.dvx t ht))).add
        ((hT 0 2 0 0 t).mul (h.dvy t ht))).congr_deriv ?_
      ring)
    (fun t ht => (add2 _ _ _ _ (mul1 _ _ _ _ (ic t) (hp t ht))
      (mul1 _ _ _ _ (tr 2 _ (by norm_num) (is t)) (hq t ht))).trans (le_of_eq (by ring)))
  have e5 := increment_le' (f := fun t => ((-6 * n) + 0 * sin (n * (T - t)) + (6 * n) * cos (n * (T - t)) + 0 * (T - t)) * x t
      + (0 + (-2) * sin (n * (T - t)) + 0 * cos (n * (T - t)) + 0 * (T - t)) * vx t
      + ((-3) + 0 * sin (n * (T - t)) + 4 * cos (n * (T - t)) + 0 * (T - t)) * vy t)
    (f' := fun t => -(2 * sin (n * (T - t))) * p t + (4 * cos (n * (T - t)) + -3) * q t) (C := 2 * P + 7 * Q)
    (fun t ht => by
      refine ((((hT (-6 * n) 0 (6 * n) 0 t).mul (h.dx t ht)).add ((hT 0 (-2) 0 0 t).mul (h.dvx t ht))).add
        ((hT (-3) 0 4 0 t).mul (h.dvy t ht))).congr_deriv ?_
      ring)
    (fun t ht => (add2 _ _ _ _ (mul1 _ _ _ _ (is' t) (hp t ht))
      (mul1 _ _ _ _ (add2 _ _ _ 3 (tr 4 _ (by norm_num) (ic t)) (by norm_num)) (hq t ht))).trans
      (le_of_eq (by ring)))
  have e6 := increment_le' (f := fun t => (0 + (-n) * sin (n * (T - t)) + 0 * cos (n * (T - t)) + 0 * (T - t)) * z t
      + (0 + 0 * sin (n * (T - t)) + 1 * cos (n * (T - t)) + 0 * (T - t)) * vz t)
    (f' := fun t => cos (n * (T - t)) * r t) (C := Q)
    (fun t ht => by
      refine (((hT 0 (-n) 0 0 t).mul (h.dz t ht)).add ((hT 0 0 1 0 t).mul (h.dvz t ht))).congr_deriv ?_
      ring)
    (fun t ht => (mul1 _ _ _ _ (ic t) (hr t ht)).trans (le_of_eq (by ring)))
  have fin : ∀ a b c : ℝ, |a| ≤ c → a = b → |b| ≤ c := fun a b c h e => e ▸ h
  simp only [sub_self, sub_zero, mul_zero, sin_zero, cos_zero] at e1 e2 e3 e4 e5 e6
  intro e
  have hN : n ≠ 0 := hn.ne'
  refine ⟨fin _ _ _ e1 ?_, fin _ _ _ e2 ?_, fin _ _ _ e3 ?_, fin _ _ _ e4 ?_, fin _ _ _ e5 ?_, fin _ _ _ e6 ?_⟩ <;>
    simp only [e, Hill.phi, Mat6.mulVec, Vec6.dot] <;> field_simp <;> ring

/-- the attraction at `(a + x, y, z)`, in units of `mu/a²` and of `a`, less its linear part -/
theorem attraction_linear {u v w e : ℝ} (he : e ≤ 1 / 10) (h0 : 0 ≤ e) (hu : u ^ 2 + v ^ 2 + w ^ 2 ≤ e ^ 2) {s : ℝ}
    (hs : 0 < s) (hs2 : s ^ 2 = (1 + u) ^ 2 + v ^ 2 + w ^ 2) :
    |-((1 + u) / s ^ 3) + (1 - 2 * u)| ≤ 11 * e ^ 2 ∧ |-(v / s ^ 3) + v| ≤ 4 * e ^ 2 ∧
      |-(w / s ^ 3) + w| ≤ 4 * e ^ 2 := by
  have sq1 : ∀ x A : ℝ, 0 ≤ A → x ^ 2 ≤ A ^ 2 → |x| ≤ A := fun x A hA h => abs_le_of_sq_le_sq h hA
  have hu1 : |u| ≤ e := sq1 u e h0 (by nlinarith [sq_nonneg v, sq_nonneg w])
  have hv1 : |v| ≤ e := sq1 v e h0 (by nlinarith [sq_nonneg u, sq_nonneg w])
  have hw1 : |w| ≤ e := sq1 w e h0 (by nlinarith [sq_nonneg v, sq_nonneg u])
  obtain ⟨u1, u2⟩ := abs_le.mp hu1
  have hslo : 1 - e ≤ s := by
    refine (pow_le_pow_iff_left₀ (by linarith) hs.le two_ne_zero).mp ?_
    rw [hs2]; nlinarith [sq_nonneg v, sq_nonneg w]
  have hshi : s ≤ 1 + e := by
    refine (pow_le_pow_iff_left₀ hs.le (by linarith) two_ne_zero).mp ?_
    rw [hs2]; nlinarith
  have hs9 : 9 / 10 ≤ s := by linarith
  obtain ⟨q, hq⟩ : ∃ q, q = 1 / s ^ 3 := ⟨_, rfl⟩
  obtain ⟨E, hE⟩ : ∃ E, E = q - 1 + 3 * u := ⟨_, rfl⟩
  have hs3 : 0 < s ^ 3 := by positivity
  -- the second-order remainder of the inverse cube
  have hEs : E = (s - 1) ^ 2 * ((3 / 2 * s ^ 3 + 3 * s ^ 2 + 2 * s + 1) / s ^ 3) - 3 / 2 * (u ^ 2 + v ^ 2 + w ^ 2) := by
    have e1 : u = (s ^ 2 - 1 - (u ^ 2 + v ^ 2 + w ^ 2)) / 2 := by rw [hs2]; ring
    obtain ⟨k, hk⟩ : ∃ k, k = u ^ 2 + v ^ 2 + w ^ 2 := ⟨_, rfl⟩
    rw [← hk] at e1 ⊢
    rw [hE, hq, e1]; field_simp; ring
  have hfac : (3 / 2 * s ^ 3 + 3 * s ^ 2 + 2 * s + 1) / s ^ 3 ≤ 8.7 := by
    rw [div_le_iff₀ hs3]
    have a1 : 0 ≤ s - 9 / 10 := by linarith
    have a2 : 0 ≤ (s - 9 / 10) ^ 2 := sq_nonneg _
    have a3 : 0 ≤ (s - 9 / 10) ^ 3 := by positivity
    nlinarith
  have hfac0 : 0 ≤ (3 / 2 * s ^ 3 + 3 * s ^ 2 + 2 * s + 1) / s ^ 3 := by positivity
  have hsu : 1 + u ≤ s := by
    refine (pow_le_pow_iff_left₀ (by linarith) hs.le two_ne_zero).mp ?_
    rw [hs2]; nlinarith [sq_nonneg v, sq_nonneg w]
  have hsm : (s - 1) ^ 2 ≤ u ^ 2 + v ^ 2 + w ^ 2 := by nlinarith
  have hEb : |E| ≤ 7.2 * e ^ 2 := by
    have h1 := mul_le_mul hsm hfac hfac0 (by positivity)
    have h2 := mul_nonneg (sq_nonneg (s - 1)) hfac0
    rw [abs_le, hEs]
    constructor <;> norm_num at h1 ⊢ <;> linarith
  have hq3 : ∀ x, x / s ^ 3 = x * (1 - 3 * u + E) := fun x => by
    rw [hE, hq]; field_simp; ring
  have he2 : e * (7.2 * e ^ 2 + 3 * e) ≤ 4 * e ^ 2 := by norm_num; nlinarith [sq_nonneg e]
  have side : ∀ x, |x| ≤ e → |-(x / s ^ 3) + x| ≤ 4 * e ^ 2 := fun x hx => by
    rw [hq3, show -(x * (1 - 3 * u + E)) + x = -x * (E + -(3 * u)) by ring, abs_mul, abs_neg]
    have h3 : |-(3 * u)| ≤ 3 * e := by
      rw [abs_neg, abs_mul, abs_of_pos (by norm_num : (0 : ℝ) < 3)]; linarith
    exact le_trans (mul_le_mul hx ((abs_add_le _ _).trans (add_le_add hEb h3)) (abs_nonneg _) h0) he2
  refine ⟨?_, side v hv1, side w hw1⟩
  rw [hq3, show -((1 + u) * (1 - 3 * u + E)) + (1 - 2 * u) = 3 * u ^ 2 + -(1 + u) * E by ring]
  refine (abs_add_le _ _).trans ?_
  have b1 : |3 * u ^ 2| ≤ 3 * e ^ 2 := by
    rw [abs_of_nonneg (by positivity)]; nlinarith [sq_nonneg v, sq_nonneg w]
  have b2 : |-(1 + u) * E| ≤ 1.1 * (7.2 * e ^ 2) := by
    rw [abs_mul, abs_neg]
    refine mul_le_mul ?_ hEb (abs_nonneg _) (by norm_num)
    rw [abs_le]; constructor <;> norm_num <;> linarith
  have := sq_nonneg e
  refine (add_le_add b1 b2).trans ?_
  norm_num
  linarith

end Openspace
