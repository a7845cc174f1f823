import Verif.Lemmas.Laplace
import Verif.Props.Gravity
import Verif.Props.ThirdBody

/-!
# The gravitational accelerations have no sources outside the attracting bodies (C166)

Each of the four gravitational accelerations is the gradient of a potential that solves Laplace's
equation everywhere outside the body's centre (Mathlib's `HarmonicOnNhd`).
-/

namespace Openspace

open Spec InnerProductSpace

local notation "E3" => EuclideanSpace ℝ (Fin 3)

theorem pointMass_eq_harmonic (mu : ℝ) : pointMass mu = harmonic mu 1 1 0 0 0 := by
  funext x
  simp [pointMass, harmonic, legendreDeriv, legendre, horizontal]

theorem harmonicOnNhd_pointMass (mu : ℝ) : HarmonicOnNhd (pointMass mu) {0}ᶜ := by
  rw [pointMass_eq_harmonic]
  exact harmonicOnNhd_harmonic mu 1 1 0 0 0

theorem harmonicOnNhd_disturbing (mu : ℝ) (s : E3) : HarmonicOnNhd (disturbing mu s) {s}ᶜ := by
  have h1 := HarmonicOnNhd.comp_sub_const (harmonicOnNhd_pointMass mu) s
  have h2 := harmonicOnNhd_clm ((-(mu / ‖s‖ ^ 3)) • innerSL ℝ s) {s}ᶜ
  have h3 := h1.add h2
  have he : disturbing mu s = (fun x => pointMass mu (x - s)) +
      fun x => ((-(mu / ‖s‖ ^ 3)) • innerSL ℝ s) x := by
    funext x
    simp only [disturbing, pointMass, Pi.add_apply, smul_apply, innerSL_apply_apply,
      smul_eq_mul, norm_sub_rev x s]
    ring
  rw [he]
  exact h3

theorem harmonicOnNhd_sum {ι : Type*} (t : Finset ι) (f : ι → E3 → ℝ) {s : Set E3}
    (h : ∀ i ∈ t, HarmonicOnNhd (f i) s) : HarmonicOnNhd (fun x => ∑ i ∈ t, f i x) s := by
  classical
  induction t using Finset.induction_on with
  | empty => simpa using harmonicOnNhd_clm 0 s
  | insert a t ha ih =>
    have h1 := (h a (Finset.mem_insert_self a t)).add (ih fun i hi => h i (Finset.mem_insert_of_mem hi))
    have he : (fun x => ∑ i ∈ insert a t, f i x) = f a + fun x => ∑ i ∈ t, f i x := by
      funext x; simp [Finset.sum_insert ha]
    rw [he]; exact h1

theorem harmonicOnNhd_geopotential (mu R : ℝ) : HarmonicOnNhd (geopotential mu R) {0}ᶜ := by
  unfold geopotential
  exact harmonicOnNhd_sum _ _ fun n _ => harmonicOnNhd_sum _ _ fun m _ =>
    harmonicOnNhd_harmonic mu R _ _ n m

/-- a harmonic of degree at least two decays like the third power of the distance -/
theorem harmonic_decay (mu R c s : ℝ) (n m : ℕ) (hn : 2 ≤ n) (hR : 0 < R) :
    ∃ B, ∀ x : E3, R ≤ ‖x‖ → |harmonic mu R c s n m x| ≤ B / ‖x‖ ^ 3 := by
  obtain ⟨K, hK⟩ := (isCompact_Icc (a := (-1 : ℝ)) (b := 1)).exists_bound_of_continuousOn
    (f := legendreDeriv n m) (fun u _ => (hasDerivAt_legendreDeriv n m u).continuousAt.continuousWithinAt)
  refine ⟨|mu| * R ^ 2 * K * (|c| + |s|), fun x hx => ?_⟩
  have h0 : 0 < ‖x‖ := hR.trans_le hx
  have hK0 : 0 ≤ K := (norm_nonneg _).trans (hK 0 (by constructor <;> norm_num))
  have hu : |legendreDeriv n m (x 2 / ‖x‖)| ≤ K := by
    refine hK _ ?_
    have : |x 2| ≤ ‖x‖ := by simpa using PiLp.norm_apply_le x 2
    rw [Set.mem_Icc, ← _root_.abs_le, abs_div, abs_of_pos h0]
    exact (div_le_one h0).mpr this
  have hw : ‖horizontal m x‖ ≤ 1 := by
    rw [horizontal, norm_pow, norm_div]
    refine pow_le_one₀ (by positivity) ?_
    rw [Complex.norm_real, Real.norm_eq_abs, abs_of_pos h0]
    refine (div_le_one h0).mpr ?_
    rw [Complex.norm_def, Complex.normSq_apply]
    refine Real.sqrt_le_iff.mpr ⟨h0.le, ?_⟩
    have := EuclideanSpace.norm_sq_eq x
    simp only [Fin.sum_univ_three, Real.norm_eq_abs, sq_abs] at this
    rw [this]
    simp
    nlinarith [sq_nonneg (x 2)]
  have hh : |c * (horizontal m x).re + s * (horizontal m x).im| ≤ |c| + |s| := by
    have h1 := (Complex.abs_re_le_norm (horizontal m x)).trans hw
    have h2 := (Complex.abs_im_le_norm (horizontal m x)).trans hw
    calc _ ≤ |c * (horizontal m x).re| + |s * (horizontal m x).im| := abs_add_le _ _
      _ ≤ _ := by
        rw [abs_mul, abs_mul]
        nlinarith [abs_nonneg c, abs_nonneg s]
  have hp : |mu / ‖x‖ * (R / ‖x‖) ^ n| ≤ |mu| * R ^ 2 / ‖x‖ ^ 3 := by
    rw [abs_mul, abs_div, abs_of_pos h0, abs_of_nonneg (show 0 ≤ (R / ‖x‖) ^ n by positivity)]
    have h1 : (R / ‖x‖) ^ n ≤ (R / ‖x‖) ^ 2 :=
      pow_le_pow_of_le_one (by positivity) ((div_le_one h0).mpr hx) hn
    calc |mu| / ‖x‖ * (R / ‖x‖) ^ n ≤ |mu| / ‖x‖ * (R / ‖x‖) ^ 2 :=
          mul_le_mul_of_nonneg_left h1 (by positivity)
      _ = _ := by field_simp
  unfold harmonic
  rw [abs_mul, abs_mul]
  calc _ ≤ |mu| * R ^ 2 / ‖x‖ ^ 3 * K * (|c| + |s|) :=
        mul_le_mul (mul_le_mul hp hu (abs_nonneg _) (by positivity)) hh (abs_nonneg _) (by positivity)
    _ = _ := by ring

theorem decay_sum {ι : Type*} (t : Finset ι) (f : ι → E3 → ℝ) {R : ℝ}
    (h : ∀ i ∈ t, ∃ B, ∀ x : E3, R ≤ ‖x‖ → |f i x| ≤ B / ‖x‖ ^ 3) :
    ∃ B, ∀ x : E3, R ≤ ‖x‖ → |∑ i ∈ t, f i x| ≤ B / ‖x‖ ^ 3 := by
  classical
  induction t using Finset.induction_on with
  | empty => exact ⟨0, by simp⟩
  | insert a t ha ih =>
    obtain ⟨B1, h1⟩ := h a (Finset.mem_insert_self a t)
    obtain ⟨B2, h2⟩ := ih fun i hi => h i (Finset.mem_insert_of_mem hi)
    refine ⟨B1 + B2, fun x hx => ?_⟩
    rw [Finset.sum_insert ha, add_div]
    exact (abs_add_le _ _).trans (add_le_add (h1 x hx) (h2 x hx))

theorem geopotential_decay (mu : ℝ) {R : ℝ} (hR : 0 < R) :
    ∃ B, ∀ x : E3, R ≤ ‖x‖ → |geopotential mu R x| ≤ B / ‖x‖ ^ 3 := by
  unfold geopotential
  refine decay_sum _ _ fun n hn => decay_sum _ _ fun m _ => ?_
  exact harmonic_decay mu R _ _ n m (Finset.mem_Icc.mp hn).1 hR

/-- **C166**, the attraction of the Earth's centre. -/
theorem C166_earth : ∃ V : E3 → ℝ, HarmonicOnNhd V {0}ᶜ ∧
    ∀ s : GCRF, s.position ≠ ⟨0, 0, 0⟩ →
      ∃ a, s.accelerationFromEarth = .ok a ∧ HasGradientAt V a.toE s.position.toE := by
  refine ⟨_, harmonicOnNhd_pointMass Earth.MU, fun s hs => ?_⟩
  obtain ⟨a, h1, -, -, h2⟩ := C36_inverse_square s hs
  exact ⟨a, h1, h2⟩

/-- **C166**, the perturbation by the Earth's shape: one potential for all states, harmonic off the
Earth's centre, without a part of degree zero or one. -/
theorem C166_gravity : ∃ V : E3 → ℝ, HarmonicOnNhd V {0}ᶜ ∧
    (∃ B, ∀ x : E3, Earth.RADIUS ≤ ‖x‖ → |V x| ≤ B / ‖x‖ ^ 3) ∧
    ∀ (s : GCRF) (ecef : Vec3), PositionConvert.gcrfToItrf s.position s.epoch = .ok ecef →
      ¬(ecef.x = 0 ∧ ecef.y = 0) →
      ∃ a g G : Vec3, s.accelerationFromGravity = .ok a ∧ PositionConvert.itrfToGcrf g s.epoch = .ok a ∧
        HasGradientAt V G.toE (ecef.scaled (s.position.magnitude / ecef.magnitude)).toE ∧
        (g.minus G).magnitude ≤ 5.5e-9 * G.magnitude ∧
        (ecef.magnitude = s.position.magnitude → g = G) :=
  ⟨_, harmonicOnNhd_geopotential Earth.MU Earth.RADIUS,
    geopotential_decay _ (by norm_num [Earth.RADIUS]), fun s _ he hxy => C35_gravity s he hxy⟩

/-- **C166**, the perturbation by the Moon at one epoch. -/
theorem C166_moon (t : Epoch) {m : Vec3} (hm : Moon.getPosition t = .ok m) :
    ∃ V : E3 → ℝ, HarmonicOnNhd V {m.toE}ᶜ ∧
      ∀ s : GCRF, s.epoch = t → s.position ≠ m →
        ∃ a, s.accelerationFromMoon = .ok a ∧ HasGradientAt V a.toE s.position.toE := by
  refine ⟨_, harmonicOnNhd_disturbing Moon.MU m.toE, fun s ht hs => ?_⟩
  subst ht
  obtain ⟨a, h1, -, h2⟩ := C80_moon s hm hs
  exact ⟨a, h1, h2⟩

/-- **C166**, the perturbation by the Sun at one epoch. -/
theorem C166_sun (t : Epoch) :
    ∃ V : E3 → ℝ, HarmonicOnNhd V {(Sun.getPosition t).toE}ᶜ ∧
      ∀ s : GCRF, s.epoch = t → s.position ≠ Sun.getPosition t →
        ∃ a, s.accelerationFromSun = .ok a ∧ HasGradientAt V a.toE s.position.toE := by
  refine ⟨_, harmonicOnNhd_disturbing Sun.MU (Sun.getPosition t).toE, fun s ht hs => ?_⟩
  subst ht
  obtain ⟨a, h1, -, h2⟩ := C80_sun s hs
  exact ⟨a, h1, h2⟩

/-- a geosynchronous state meets the hypotheses of the parts about the Earth and the Moon -/
example : ∃ a m b, (GCRF.new ⟨59932⟩ ⟨42164, 0, 0⟩ ⟨0, 3.07, 0⟩).accelerationFromEarth = .ok a ∧
    Moon.getPosition ⟨59932⟩ = .ok m ∧
    (GCRF.new ⟨59932⟩ ⟨42164, 0, 0⟩ ⟨0, 3.07, 0⟩).accelerationFromMoon = .ok b := by
  obtain ⟨_, _, h⟩ := C166_earth
  obtain ⟨a, ha, -⟩ := h (GCRF.new ⟨59932⟩ ⟨42164, 0, 0⟩ ⟨0, 3.07, 0⟩) (by
    simp only [GCRF.new, State.new, Vec3.copy]; intro h; have := congrArg Vec3.x h; norm_num at this)
  obtain ⟨m, hm, hd, -⟩ := C30_moon ⟨59932⟩
  obtain ⟨_, _, h2⟩ := C166_moon ⟨59932⟩ hm
  obtain ⟨b, hb, -⟩ := h2 (GCRF.new ⟨59932⟩ ⟨42164, 0, 0⟩ ⟨0, 3.07, 0⟩) rfl (by
    intro h
    have hmm : (⟨42164, 0, 0⟩ : Vec3).magnitude = 42164 :=
      Vec3.magnitude_of_dot (by norm_num) (by simp only [Vec3.dot]; norm_num)
    rw [← h] at hd
    have : (GCRF.new ⟨59932⟩ ⟨42164, 0, 0⟩ ⟨0, 3.07, 0⟩).position = ⟨42164, 0, 0⟩ := rfl
    rw [this, hmm] at hd
    norm_num at hd)
  exact ⟨a, m, b, ha, hm, hb⟩

end Openspace
