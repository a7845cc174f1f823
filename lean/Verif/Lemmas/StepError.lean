import Mathlib.Analysis.Calculus.MeanValue
import Mathlib.Analysis.Calculus.Deriv.Pow
import Mathlib.Analysis.SpecialFunctions.Exponential
import Mathlib.Analysis.SpecialFunctions.ExpDeriv
import Mathlib.Analysis.Complex.Exponential

/-!
One step of the classical Runge-Kutta method for `x'' = a(t, x)`, compared with a motion under a nearby acceleration: an
explicit bound of the error, which needs no more than two derivatives of the acceleration along that motion.
-/

namespace StepError

open Set Real

variable {E : Type*} [NormedAddCommGroup E] [NormedSpace ℝ E]

/-- a function that starts at zero and whose derivative is at most `C sⁿ` -/
theorem grow {f f' : ℝ → E} {C h : ℝ} (n : ℕ) (h0 : f 0 = 0) (hf : ∀ s ∈ Icc 0 h, HasDerivAt f (f' s) s)
    (hb : ∀ s ∈ Icc 0 h, ‖f' s‖ ≤ C * s ^ n) : ∀ s ∈ Icc 0 h, ‖f s‖ ≤ C / (n + 1) * s ^ (n + 1) := by
  refine image_norm_le_of_norm_deriv_right_le_deriv_boundary (f' := f') (B' := fun s => C * s ^ n)
    (fun s hs => (hf s hs).continuousAt.continuousWithinAt)
    (fun s hs => (hf s ⟨hs.1, hs.2.le⟩).hasDerivWithinAt) (by simp [h0]) (fun s => ?_)
    (fun s hs => hb s ⟨hs.1, hs.2.le⟩)
  have := (hasDerivAt_pow (n + 1) s).const_mul (C / (n + 1))
  refine this.congr_deriv ?_
  have : (n : ℝ) + 1 ≠ 0 := by positivity
  simp only [Nat.add_sub_cancel, Nat.cast_add, Nat.cast_one]
  field_simp

variable {R V γ γ' γ'' : ℝ → E} {h M A : ℝ}

/-- Taylor's formula for the motion, its velocity and its acceleration -/
theorem taylor (hR : ∀ s ∈ Icc 0 h, HasDerivAt R (V s) s) (hV : ∀ s ∈ Icc 0 h, HasDerivAt V (γ s) s)
    (hγ : ∀ s ∈ Icc 0 h, HasDerivAt γ (γ' s) s) (hγ' : ∀ s ∈ Icc 0 h, HasDerivAt γ' (γ'' s) s)
    (hM : ∀ s ∈ Icc 0 h, ‖γ'' s‖ ≤ M) :
    ∀ s ∈ Icc 0 h, ‖γ s - γ 0 - s • γ' 0‖ ≤ M / 2 * s ^ 2 ∧
      ‖V s - V 0 - s • γ 0 - (s ^ 2 / 2) • γ' 0‖ ≤ M / 6 * s ^ 3 ∧
      ‖R s - R 0 - s • V 0 - (s ^ 2 / 2) • γ 0 - (s ^ 3 / 6) • γ' 0‖ ≤ M / 24 * s ^ 4 := by
  have lin : ∀ (c : E) (s : ℝ), HasDerivAt (fun s : ℝ => s • c) c s := fun c s => by
    simpa using (hasDerivAt_id s).smul_const c
  have quad : ∀ (c : E) (s : ℝ), HasDerivAt (fun s : ℝ => (s ^ 2 / 2) • c) (s • c) s := fun c s => by
    have := ((hasDerivAt_pow 2 s).div_const 2).smul_const c
    refine this.congr_deriv ?_
    norm_num
  have cub : ∀ (c : E) (s : ℝ), HasDerivAt (fun s : ℝ => (s ^ 3 / 6) • c) ((s ^ 2 / 2) • c) s := fun c s => by
    have := ((hasDerivAt_pow 3 s).div_const 6).smul_const c
    refine this.congr_deriv ?_
    norm_num
    congr 1; ring
  have t1 := grow (f := fun s => γ' s - γ' 0) (f' := γ'') (C := M) 0 (by simp)
    (fun s hs => (hγ' s hs).sub_const _) (fun s hs => by simpa using hM s hs)
  have t2 := grow (f := fun s => γ s - γ 0 - s • γ' 0) (f' := fun s => γ' s - γ' 0) (C := M) 1 (by simp)
    (fun s hs => ((hγ s hs).sub_const _).sub (lin _ s)) (fun s hs => by simpa using t1 s hs)
  have t3 := grow (f := fun s => V s - V 0 - s • γ 0 - (s ^ 2 / 2) • γ' 0) (f' := fun s => γ s - γ 0 - s • γ' 0)
    (C := M / 2) 2 (by simp)
    (fun s hs => (((hV s hs).sub_const _).sub (lin _ s)).sub (quad _ s)) (fun s hs => by
      have := t2 s hs; norm_num at this; exact this)
  have t4 := grow (f := fun s => R s - R 0 - s • V 0 - (s ^ 2 / 2) • γ 0 - (s ^ 3 / 6) • γ' 0)
    (f' := fun s => V s - V 0 - s • γ 0 - (s ^ 2 / 2) • γ' 0)
    (C := M / 2 / 3) 3 (by simp)
    (fun s hs => ((((hR s hs).sub_const _).sub (lin _ s)).sub (quad _ s)).sub (cub _ s)) (fun s hs => by
      have := t3 s hs; norm_num at this; exact this)
  intro s hs
  have a2 := t2 s hs
  have a3 := t3 s hs
  have a4 := t4 s hs
  norm_num at a2 a3 a4
  exact ⟨a2, by convert a3 using 1; ring, by convert a4 using 1; ring⟩

/-- the motion departs from a straight line by no more than `A s² / 2` -/
theorem straight (hR : ∀ s ∈ Icc 0 h, HasDerivAt R (V s) s) (hV : ∀ s ∈ Icc 0 h, HasDerivAt V (γ s) s)
    (hA : ∀ s ∈ Icc 0 h, ‖γ s‖ ≤ A) : ∀ s ∈ Icc 0 h, ‖R s - R 0 - s • V 0‖ ≤ A / 2 * s ^ 2 := by
  have lin : ∀ (c : E) (s : ℝ), HasDerivAt (fun s : ℝ => s • c) c s := fun c s => by
    simpa using (hasDerivAt_id s).smul_const c
  have t1 := grow (f := fun s => V s - V 0) (f' := γ) (C := A) 0 (by simp)
    (fun s hs => (hV s hs).sub_const _) (fun s hs => by simpa using hA s hs)
  have t2 := grow (f := fun s => R s - R 0 - s • V 0) (f' := fun s => V s - V 0) (C := A) 1 (by simp)
    (fun s hs => ((hR s hs).sub_const _).sub (lin _ s)) (fun s hs => by simpa using t1 s hs)
  intro s hs
  have := t2 s hs
  norm_num at this
  exact this

/-- the step, with the accelerations of its four stages written out, against the motion -/
theorem step {r v a1 a2 a3 a4 : E} {e u α1 α2 α3 α4 : ℝ} (hh : 0 ≤ h)
    (hR : ∀ s ∈ Icc 0 h, HasDerivAt R (V s) s) (hV : ∀ s ∈ Icc 0 h, HasDerivAt V (γ s) s)
    (hγ : ∀ s ∈ Icc 0 h, HasDerivAt γ (γ' s) s) (hγ' : ∀ s ∈ Icc 0 h, HasDerivAt γ' (γ'' s) s)
    (hM : ∀ s ∈ Icc 0 h, ‖γ'' s‖ ≤ M) (he : ‖r - R 0‖ ≤ e) (hu : ‖v - V 0‖ ≤ u) (h1 : ‖a1 - γ 0‖ ≤ α1)
    (h2 : ‖a2 - γ (h / 2)‖ ≤ α2) (h3 : ‖a3 - γ (h / 2)‖ ≤ α3) (h4 : ‖a4 - γ h‖ ≤ α4) :
    ‖v + (h / 6) • (a1 + (2 : ℝ) • a2 + (2 : ℝ) • a3 + a4) - V h‖ ≤
        u + h / 6 * (α1 + 2 * α2 + 2 * α3 + α4) + M / 3 * h ^ 3 ∧
      ‖r + h • v + (h ^ 2 / 6) • (a1 + a2 + a3) - R h‖ ≤
        e + h * u + h ^ 2 / 6 * (α1 + α2 + α3) + M / 12 * h ^ 4 := by
  have tm := taylor hR hV hγ hγ' hM (h / 2) ⟨by linarith, by linarith⟩
  have th := taylor hR hV hγ hγ' hM h ⟨hh, le_rfl⟩
  obtain ⟨m1, -, -⟩ := tm
  obtain ⟨n1, n2, n3⟩ := th
  constructor
  · have e1 : v + (h / 6) • (a1 + (2 : ℝ) • a2 + (2 : ℝ) • a3 + a4) - V h =
        (v - V 0) + (h / 6) • (a1 - γ 0) + (h / 3) • (a2 - γ (h / 2)) + (h / 3) • (a3 - γ (h / 2)) +
          (h / 6) • (a4 - γ h) + (2 * h / 3) • (γ (h / 2) - γ 0 - (h / 2) • γ' 0) + (h / 6) • (γ h - γ 0 - h • γ' 0) -
          (V h - V 0 - h • γ 0 - (h ^ 2 / 2) • γ' 0) := by module
    rw [e1]
    refine (norm_sub_le _ _).trans ?_
    refine (add_le_add (norm_add_le_of_le (norm_add_le_of_le (norm_add_le_of_le (norm_add_le_of_le
      (norm_add_le_of_le (norm_add_le_of_le hu
        (show ‖(h / 6) • (a1 - γ 0)‖ ≤ h / 6 * α1 from ?_))
        (show ‖(h / 3) • (a2 - γ (h / 2))‖ ≤ h / 3 * α2 from ?_))
        (show ‖(h / 3) • (a3 - γ (h / 2))‖ ≤ h / 3 * α3 from ?_))
        (show ‖(h / 6) • (a4 - γ h)‖ ≤ h / 6 * α4 from ?_))
        (show _ ≤ 2 * h / 3 * (M / 2 * (h / 2) ^ 2) from ?_))
        (show _ ≤ h / 6 * (M / 2 * h ^ 2) from ?_)) n2).trans (le_of_eq (by ring))
    all_goals
      rw [norm_smul, Real.norm_of_nonneg (by positivity)]
      exact mul_le_mul_of_nonneg_left (by assumption) (by positivity)
  · have e1 : r + h • v + (h ^ 2 / 6) • (a1 + a2 + a3) - R h =
        (r - R 0) + h • (v - V 0) + (h ^ 2 / 6) • (a1 - γ 0) + (h ^ 2 / 6) • (a2 - γ (h / 2)) +
          (h ^ 2 / 6) • (a3 - γ (h / 2)) + (h ^ 2 / 3) • (γ (h / 2) - γ 0 - (h / 2) • γ' 0) -
          (R h - R 0 - h • V 0 - (h ^ 2 / 2) • γ 0 - (h ^ 3 / 6) • γ' 0) := by module
    rw [e1]
    refine (norm_sub_le _ _).trans ?_
    refine (add_le_add (norm_add_le_of_le (norm_add_le_of_le (norm_add_le_of_le (norm_add_le_of_le
      (norm_add_le_of_le he
        (show ‖h • (v - V 0)‖ ≤ h * u from ?_))
        (show ‖(h ^ 2 / 6) • (a1 - γ 0)‖ ≤ h ^ 2 / 6 * α1 from ?_))
        (show ‖(h ^ 2 / 6) • (a2 - γ (h / 2))‖ ≤ h ^ 2 / 6 * α2 from ?_))
        (show ‖(h ^ 2 / 6) • (a3 - γ (h / 2))‖ ≤ h ^ 2 / 6 * α3 from ?_))
        (show _ ≤ h ^ 2 / 3 * (M / 2 * (h / 2) ^ 2) from ?_)) n3).trans (le_of_eq (by ring))
    all_goals
      rw [norm_smul, Real.norm_of_nonneg (by positivity)]
      exact mul_le_mul_of_nonneg_left (by assumption) (by positivity)

/-- where the stages are, against the motion -/
theorem places {r v a1 a2 : E} {e u B : ℝ} (hh : 0 ≤ h)
    (hR : ∀ s ∈ Icc 0 h, HasDerivAt R (V s) s) (hV : ∀ s ∈ Icc 0 h, HasDerivAt V (γ s) s)
    (hA : ∀ s ∈ Icc 0 h, ‖γ s‖ ≤ A) (he : ‖r - R 0‖ ≤ e) (hu : ‖v - V 0‖ ≤ u) :
    ‖r + (h / 2) • v - R (h / 2)‖ ≤ e + h / 2 * u + A / 8 * h ^ 2 ∧
    (‖a1‖ ≤ B → ‖r + (h / 2) • (v + (h / 2) • a1) - R (h / 2)‖ ≤ e + h / 2 * u + A / 8 * h ^ 2 + B / 4 * h ^ 2) ∧
    (‖a2‖ ≤ B → ‖r + h • (v + (h / 2) • a2) - R h‖ ≤ e + h * u + A / 2 * h ^ 2 + B / 2 * h ^ 2) := by
  have sm := straight hR hV hA (h / 2) ⟨by linarith, by linarith⟩
  have sh := straight hR hV hA h ⟨hh, le_rfl⟩
  refine ⟨?_, fun hB => ?_, fun hB => ?_⟩
  · have e1 : r + (h / 2) • v - R (h / 2) = (r - R 0) + (h / 2) • (v - V 0) - (R (h / 2) - R 0 - (h / 2) • V 0) := by
      module
    rw [e1]
    refine (norm_sub_le _ _).trans ((add_le_add (norm_add_le_of_le he (show _ ≤ h / 2 * u from ?_)) sm).trans
      (le_of_eq (by ring)))
    rw [norm_smul, Real.norm_of_nonneg (by positivity)]
    exact mul_le_mul_of_nonneg_left (by assumption) (by positivity)
  · have e1 : r + (h / 2) • (v + (h / 2) • a1) - R (h / 2) = (r - R 0) + (h / 2) • (v - V 0) + (h ^ 2 / 4) • a1 -
        (R (h / 2) - R 0 - (h / 2) • V 0) := by
      module
    rw [e1]
    refine (norm_sub_le _ _).trans ((add_le_add (norm_add_le_of_le (norm_add_le_of_le he (show _ ≤ h / 2 * u from ?_))
      (show _ ≤ h ^ 2 / 4 * B from ?_)) sm).trans (le_of_eq (by ring)))
    all_goals
      rw [norm_smul, Real.norm_of_nonneg (by positivity)]
      exact mul_le_mul_of_nonneg_left (by assumption) (by positivity)
  · have e1 : r + h • (v + (h / 2) • a2) - R h = (r - R 0) + h • (v - V 0) + (h ^ 2 / 2) • a2 -
        (R h - R 0 - h • V 0) := by
      module
    rw [e1]
    refine (norm_sub_le _ _).trans ((add_le_add (norm_add_le_of_le (norm_add_le_of_le he (show _ ≤ h * u from ?_))
      (show _ ≤ h ^ 2 / 2 * B from ?_)) sh).trans (le_of_eq (by ring)))
    all_goals
      rw [norm_smul, Real.norm_of_nonneg (by positivity)]
      exact mul_le_mul_of_nonneg_left (by assumption) (by positivity)

/-- the bounds of the errors in position and velocity after a time `t`, for a defect `δ` per unit of time -/
noncomputable def P (δ w t : ℝ) : ℝ := δ / w ^ 2 * (exp (w * t) - 1 - w * t)
noncomputable def Q (δ w t : ℝ) : ℝ := δ / w * (exp (w * t) - 1)

/-- the bounds survive a step -/
theorem advance {w ε A M h t δ : ℝ} (hw : 0 < w) (hh : 0 ≤ h) (ht : 0 ≤ t) (hε : 0 ≤ ε) (hA : 0 ≤ A) (hM : 0 ≤ M)
    (hδ : δ = (1 + (w * h) ^ 2 / 6) * ε + (w ^ 2 * A + M) / 3 * h ^ 2) {e u α1 α2 α3 α4 : ℝ} (he : e = P δ w t)
    (hu : u = Q δ w t) (h1 : α1 = w ^ 2 * e + ε) (h2 : α2 = w ^ 2 * (e + h / 2 * u + A / 8 * h ^ 2) + ε)
    (h3 : α3 = w ^ 2 * (e + h / 2 * u + A / 8 * h ^ 2 + (A + ε) / 4 * h ^ 2) + ε)
    (h4 : α4 = w ^ 2 * (e + h * u + A / 2 * h ^ 2 + (A + ε) / 2 * h ^ 2) + ε) :
    u + h / 6 * (α1 + 2 * α2 + 2 * α3 + α4) + M / 3 * h ^ 3 ≤ Q δ w (t + h) ∧
      e + h * u + h ^ 2 / 6 * (α1 + α2 + α3) + M / 12 * h ^ 4 ≤ P δ w (t + h) ∧
      e + h * u + A / 2 * h ^ 2 + (A + ε) / 2 * h ^ 2 ≤ P δ w (t + h) + A * h ^ 2 := by
  obtain ⟨θ, hθ⟩ : ∃ θ, θ = w * h := ⟨_, rfl⟩
  obtain ⟨x, hx⟩ : ∃ x, x = exp (w * t) := ⟨_, rfl⟩
  obtain ⟨y, hy⟩ : ∃ y, y = exp θ := ⟨_, rfl⟩
  have hwt : 0 ≤ w * t := mul_nonneg hw.le ht
  have θ0 : 0 ≤ θ := by rw [hθ]; exact mul_nonneg hw.le hh
  have x1 : 1 + w * t ≤ x := by rw [hx]; linarith [Real.add_one_le_exp (w * t)]
  have y1 : 1 + θ + θ ^ 2 / 2 + θ ^ 3 / 6 ≤ y := by
    have := Real.sum_le_exp_of_nonneg θ0 4
    norm_num [Finset.sum_range_succ, Nat.factorial] at this
    rw [hy]; linarith
  have δ0 : 0 ≤ δ := by rw [hδ]; positivity
  have exy : exp (w * (t + h)) = x * y := by rw [hx, hy, hθ, ← Real.exp_add]; ring_nf
  have eQ : Q δ w (t + h) = δ / w * (x * y - 1) := by rw [Q, exy]
  have eP : P δ w (t + h) = δ / w ^ 2 * (x * y - 1 - w * t - θ) := by rw [P, exy, hθ]; ring
  have eu : u = δ / w * (x - 1) := by rw [hu, Q, hx]
  have ee : e = δ / w ^ 2 * (x - 1 - w * t) := by rw [he, P, hx]
  have hwu : w * u = δ * (x - 1) := by rw [eu]; field_simp
  have hwe : w ^ 2 * e = δ * (x - 1 - w * t) := by rw [ee]; field_simp
  have hwe' : w ^ 2 * e ≤ δ * (x - 1) := by rw [hwe]; exact mul_le_mul_of_nonneg_left (by linarith) δ0
  have x0 : 0 ≤ x - 1 := by linarith
  have θ2 := pow_nonneg θ0 2
  have θ3 := pow_nonneg θ0 3
  have dx : 0 ≤ δ * (x - 1) := mul_nonneg δ0 x0
  rw [eQ, eP]
  have hθh : θ * h = w * h ^ 2 := by rw [hθ]; ring
  refine ⟨?_, ?_, ?_⟩
  · -- multiply by `w`
    refine le_of_mul_le_mul_left ?_ hw
    have r1 : w * (δ / w * (x * y - 1)) = δ * (x - 1) * y + δ * (y - 1) := by field_simp; ring
    have r2 : w * (u + h / 6 * (α1 + 2 * α2 + 2 * α3 + α4) + M / 3 * h ^ 3) =
        w * u + θ * (w ^ 2 * e) + θ ^ 2 / 2 * (w * u) + θ * δ := by
      rw [h1, h2, h3, h4, hδ, hθ]; ring
    rw [r1, r2, hwu]
    have r3 : θ * (w ^ 2 * e) ≤ θ * (δ * (x - 1)) := mul_le_mul_of_nonneg_left hwe' θ0
    have r4 : δ * (x - 1) * (1 + θ + θ ^ 2 / 2) ≤ δ * (x - 1) * y :=
      mul_le_mul_of_nonneg_left (by linarith) dx
    have r5 : δ * θ ≤ δ * (y - 1) := mul_le_mul_of_nonneg_left (by linarith) δ0
    linarith
  · refine le_of_mul_le_mul_left ?_ (pow_pos hw 2)
    have r1 : w ^ 2 * (δ / w ^ 2 * (x * y - 1 - w * t - θ)) = δ * (x - 1 - w * t) + δ * (x - 1) * θ +
        δ * x * (y - 1 - θ) := by field_simp; ring
    have r2 : w ^ 2 * (e + h * u + h ^ 2 / 6 * (α1 + α2 + α3) + M / 12 * h ^ 4) =
        w ^ 2 * e + θ * (w * u) + θ ^ 2 / 2 * (w ^ 2 * e) + θ ^ 3 / 6 * (w * u) +
          θ ^ 2 * (ε * (1 / 2 + θ ^ 2 / 24) + (w ^ 2 * A + M) / 12 * h ^ 2) := by
      rw [h1, h2, h3, hθ]; ring
    rw [r1, r2, hwu]
    have r3 : θ ^ 2 / 2 * (w ^ 2 * e) ≤ θ ^ 2 / 2 * (δ * (x - 1)) := mul_le_mul_of_nonneg_left hwe' (by positivity)
    have r4 : δ * x * (θ ^ 2 / 2 + θ ^ 3 / 6) ≤ δ * x * (y - 1 - θ) :=
      mul_le_mul_of_nonneg_left (by linarith) (mul_nonneg δ0 (by linarith))
    have r5 : θ ^ 2 * (ε * (1 / 2 + θ ^ 2 / 24) + (w ^ 2 * A + M) / 12 * h ^ 2) ≤ θ ^ 2 * (δ / 2) := by
      refine mul_le_mul_of_nonneg_left ?_ (by positivity)
      have c1 : 0 ≤ ε * θ ^ 2 := by positivity
      have c2 : 0 ≤ (w ^ 2 * A + M) * h ^ 2 := by positivity
      rw [hδ, ← hθ]
      linarith
    have r6 : 0 ≤ δ * θ ^ 3 := by positivity
    rw [hwe] at r3 ⊢
    linarith
  · refine le_of_mul_le_mul_left ?_ (pow_pos hw 2)
    have r1 : w ^ 2 * (δ / w ^ 2 * (x * y - 1 - w * t - θ) + A * h ^ 2) = δ * (x - 1 - w * t) + δ * (x - 1) * θ +
        δ * x * (y - 1 - θ) + w ^ 2 * A * h ^ 2 := by field_simp; ring
    have r2 : w ^ 2 * (e + h * u + A / 2 * h ^ 2 + (A + ε) / 2 * h ^ 2) =
        w ^ 2 * e + θ * (w * u) + w ^ 2 * A * h ^ 2 + θ ^ 2 * (ε / 2) := by
      rw [hθ]; ring
    rw [r1, r2, hwu, hwe]
    have r4 : δ * x * (θ ^ 2 / 2 + θ ^ 3 / 6) ≤ δ * x * (y - 1 - θ) :=
      mul_le_mul_of_nonneg_left (by linarith) (mul_nonneg δ0 (by linarith))
    have r5 : θ ^ 2 * (ε / 2) ≤ θ ^ 2 * (δ / 2) := by
      refine mul_le_mul_of_nonneg_left ?_ (by positivity)
      have c1 : 0 ≤ ε * θ ^ 2 := by positivity
      have c2 : 0 ≤ (w ^ 2 * A + M) * h ^ 2 := by positivity
      rw [hδ, ← hθ]
      linarith
    have r6 : 0 ≤ δ * (x - 1) * (θ ^ 2 / 2 + θ ^ 3 / 6) := by positivity
    have r7 : 0 ≤ δ * θ ^ 3 := by positivity
    linarith

theorem mono {δ w s t : ℝ} (hw : 0 < w) (hδ : 0 ≤ δ) (h0 : 0 ≤ s) (h : s ≤ t) : P δ w s ≤ P δ w t ∧ Q δ w s ≤ Q δ w t := by
  have h1 : w * s ≤ w * t := mul_le_mul_of_nonneg_left h hw.le
  have h2 : 0 ≤ w * s := mul_nonneg hw.le h0
  have h3 : exp (w * t) = exp (w * s) * exp (w * t - w * s) := by rw [← Real.exp_add]; ring_nf
  have h4 := Real.add_one_le_exp (w * t - w * s)
  have h5 := Real.one_le_exp h2
  refine ⟨mul_le_mul_of_nonneg_left ?_ (by positivity), mul_le_mul_of_nonneg_left ?_ (by positivity)⟩
  · nlinarith
  · have := Real.exp_le_exp.mpr h1
    linarith

end StepError
