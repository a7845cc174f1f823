import Verif.Lemmas.DoubleSensing
import Verif.Props.DoubleSpherical

/-! # C138: detection in double precision -/

namespace Openspace

open Real

/-- the visual magnitude of a sphere of the given albedo and radius, a distance `d` away, with the given angle between
the Sun and the sphere as the observer sees them -/
noncomputable def Spec.magnitudeOf (albedo r d sun : ℝ) : ℝ :=
  -26.74 - 2.5 * logb 10 (2 / 3 * albedo * r ^ 2 / (π * d ^ 2) * Spec.lambert sun)

/-- what is assumed of the C library -/
structure Spec.SkyAccurate (lib : F64.SkyLib) : Prop where
  trig : Spec.TrigRelative lib.toLibm
  acos : Spec.AcosAccurate lib.acos
  range : Spec.AcosRange lib.acos
  log10 : Spec.Log10Accurate lib.log10

namespace F64

theorem fdiff_value (lib : Libm) (albedo r s : ℝ) {t : Vec3} (ht : t ≠ ⟨0, 0, 0⟩) :
    fdiff lib albedo r (magnitude t) s = .ok (rnd (rnd (rnd (rnd (rnd (rnd (2 / 3) * albedo) * r) * r) /
      rnd (rnd (pi * magnitude t) * magnitude t)) * phase lib s)) := by
  simp only [fdiff, div_ok (flux_factor albedo r ht).1, ok_bind, pure_eq_ok]

theorem factor_pos {albedo r : ℝ} (ha : 0 < albedo) (hr : r ≠ 0) {t : Vec3} (ht : t ≠ ⟨0, 0, 0⟩) :
    0 < rnd (rnd (rnd (rnd (rnd (2 / 3) * albedo) * r) * r) / rnd (rnd (pi * magnitude t) * magnitude t)) := by
  have hm : 0 < t.magnitude := Vec3.magnitude_pos.mpr ht
  have h := (flux_factor albedo r ht).2
  have hx : 0 < 2 / 3 * albedo * r ^ 2 / (π * t.magnitude ^ 2) := by
    have := pi_pos
    positivity
  unfold Near at h
  rw [abs_of_pos hx] at h
  have hu := u_tiny
  have := (abs_le.mp h).1
  have : 20 * u * (2 / 3 * albedo * r ^ 2 / (π * t.magnitude ^ 2)) ≤ 1 / 2 * (2 / 3 * albedo * r ^ 2 / (π * t.magnitude ^ 2)) := by
    gcongr; linarith
  linarith

/-- the value of `visual_magnitude` -/
theorem visualMagnitude_value {lib : SkyLib} {albedo r s : ℝ} (ha : 0 < albedo) (hr : r ≠ 0) {sun t : Vec3}
    (ht : t ≠ ⟨0, 0, 0⟩) (hs : angle lib.acos sun t = .ok s) (hp : 0 < phase lib.toLibm s) :
    ∃ fd, 0 < fd ∧ fd = rnd (rnd (rnd (rnd (rnd (rnd (2 / 3) * albedo) * r) * r) /
      rnd (rnd (pi * magnitude t) * magnitude t)) * phase lib.toLibm s) ∧
      visualMagnitude lib albedo r sun t = .ok (rnd (rnd (-26.74) - rnd (2.5 * lib.log10 fd))) := by
  refine ⟨_, ?_, rfl, ?_⟩
  · exact rnd_pos (mul_pos (factor_pos ha hr ht) hp)
  · have h := rnd_pos (mul_pos (factor_pos ha hr ht) hp)
    simp only [visualMagnitude, hs, ok_bind, fdiff_value _ _ _ _ ht, log10, if_neg (not_le.mpr h), pure_eq_ok]

end F64

/-- no direction of the target makes the logarithm fail: the rounded phase function is positive even where the target is
in the direction of the Sun -/
theorem C138_defined {lib : F64.SkyLib} (h : Spec.TrigRelative lib.toLibm) (hr : Spec.AcosRange lib.acos) {albedo r : ℝ}
    (ha : 0 < albedo) (hr0 : r ≠ 0) {sun target : Vec3} (hs : sun ≠ ⟨0, 0, 0⟩) (ht : target ≠ ⟨0, 0, 0⟩) :
    ∃ m, F64.visualMagnitude lib albedo r sun target = .ok m := by
  obtain ⟨x, hx, e, -⟩ := F64.angle_before lib.acos hs ht
  obtain ⟨r0, r1⟩ := hr x hx
  obtain ⟨fd, -, -, e'⟩ := F64.visualMagnitude_value ha hr0 ht e (F64.phase_pos' h r0 r1)
  exact ⟨_, e'⟩

/-- without rounding it does fail there -/
theorem C138_exact {ι : Type} {s t : Spacecraft ι} (hs : s.sunAngle t = .ok 0) (hd : s.targetVector t ≠ ⟨0, 0, 0⟩) :
    s.visualMagnitude t = .error .valueError := by
  have hdist : 0 < s.range t := Vec3.magnitude_pos.mpr hd
  have hpi := pi_pos
  have hne : π * s.range t * s.range t ≠ 0 := by positivity
  simp [Spacecraft.visualMagnitude, hs, pyLog10, pySin, pyPi, pyDiv_ok hne]

/-- the computed magnitude of a target which is at least a quarter of a radian from the Sun -/
theorem C138_magnitude {lib : F64.SkyLib} (h : Spec.SkyAccurate lib) {albedo r : ℝ} (ha : 0 < albedo) (hr : r ≠ 0)
    {sun target : Vec3} (hs : sun ≠ ⟨0, 0, 0⟩) (ht : target ≠ ⟨0, 0, 0⟩)
    (hθ : 1 / 4 ≤ InnerProductGeometry.angle sun.toE target.toE) :
    ∃ m, F64.visualMagnitude lib albedo r sun target = .ok m ∧
      |m - Spec.magnitudeOf albedo r target.magnitude (InnerProductGeometry.angle sun.toE target.toE)| ≤
        1e-11 + 1e-15 * |Spec.magnitudeOf albedo r target.magnitude (InnerProductGeometry.angle sun.toE target.toE)| := by
  obtain ⟨s, e, p0, p1⟩ := F64.phase_of_vectors h.trig h.acos h.range hs ht
  obtain ⟨fd, f0, f1, f2⟩ := F64.visualMagnitude_value ha hr ht e p0
  refine ⟨_, f2, ?_⟩
  obtain ⟨θ, hθe⟩ : ∃ θ, θ = InnerProductGeometry.angle sun.toE target.toE := ⟨_, rfl⟩
  have hθπ : θ ≤ π := hθe ▸ InnerProductGeometry.angle_le_pi _ _
  rw [← hθe] at p1 hθ ⊢
  have hu := F64.u_pos
  have hu' := F64.u_tiny
  have hpi := pi_pos
  have l0 : 1 / 200 ≤ Spec.lambert θ := by
    have l1 := F64.lambert_ge (by norm_num) hθ hθπ
    have l2 := F64.lambert_small (a := 1 / 4) (by norm_num) (by norm_num)
    norm_num at l1 l2 ⊢
    linarith
  have np : F64.Near (F64.phase lib.toLibm s) (Spec.lambert θ) 20000 := by
    unfold F64.Near
    rw [abs_of_pos (a := Spec.lambert θ) (by linarith)]
    have : 20000 * F64.u * (1 / 200) ≤ 20000 * F64.u * Spec.lambert θ := by gcongr
    linarith
  have hm : 0 < target.magnitude := Vec3.magnitude_pos.mpr ht
  have nf := ((F64.flux_factor albedo r ht).2.mul' np (by norm_num) (by norm_num) (by norm_num) (by norm_num)).round'
    (by norm_num) (by norm_num)
  rw [← f1] at nf
  have hF : 0 < 2 / 3 * albedo * r ^ 2 / (π * target.magnitude ^ 2) * Spec.lambert θ := by
    have : 0 < Spec.lambert θ := by linarith
    positivity
  have ll := F64.log_near (nf.mono (l := 20100) (by norm_num)) hF f0 (by norm_num) (by norm_num)
  have lc := h.log10 fd f0
  rw [show (1 : ℝ) / 2 ^ 52 = 2 * F64.u by norm_num [F64.u]] at lc
  obtain ⟨L, hL⟩ : ∃ L, L = logb 10 (2 / 3 * albedo * r ^ 2 / (π * target.magnitude ^ 2) * Spec.lambert θ) := ⟨_, rfl⟩
  rw [← hL] at ll
  have key : |lib.log10 fd - L| ≤ 0.51 * 20100 * F64.u + 2 * F64.u * (|L| + 0.51 * 20100 * F64.u) := by
    have a1 := abs_sub_le (lib.log10 fd) (logb 10 fd) L
    have a2 := abs_sub_abs_le_abs_sub (logb 10 fd) L
    have a3 : 2 * F64.u * |logb 10 fd| ≤ 2 * F64.u * (|L| + 0.51 * 20100 * F64.u) := by gcongr; linarith
    linarith
  have fin := F64.scale_near (m := Spec.magnitudeOf albedo r target.magnitude θ) (by rw [Spec.magnitudeOf, hL])
    (by positivity) (by linarith) key
  have hM := abs_nonneg (Spec.magnitudeOf albedo r target.magnitude θ)
  have b1 : 5 * F64.u * |Spec.magnitudeOf albedo r target.magnitude θ| ≤
      5 * (12 / 10 ^ 17) * |Spec.magnitudeOf albedo r target.magnitude θ| := by gcongr
  norm_num at fin b1 ⊢
  linarith

/-- `detect` decides as the five exact constraints do, unless one of the quantities lies within the rounding errors of
its limit -/
theorem C138_detect {lib : F64.SkyLib} (h : Spec.SkyAccurate lib) {albedo r : ℝ} (ha : 0 < albedo) (hr : r ≠ 0)
    {limits : OpticalConstraints} (hsoft : 0.26 ≤ limits.sun_soft)
    {sun earth moon target axis : Vec3} (hs : sun ≠ ⟨0, 0, 0⟩) (he : earth ≠ ⟨0, 0, 0⟩) (hm : moon ≠ ⟨0, 0, 0⟩)
    (ht : target ≠ ⟨0, 0, 0⟩) (hz : axis ≠ ⟨0, 0, 0⟩)
    (ms : 1e-7 < |InnerProductGeometry.angle sun.toE target.toE - limits.sun_soft|)
    (me : 1e-7 < |InnerProductGeometry.angle earth.toE target.toE - limits.earth|)
    (mm : 1e-7 < |InnerProductGeometry.angle moon.toE target.toE - limits.moon|)
    (mb : 1e-7 < |InnerProductGeometry.angle axis.toE target.toE - limits.bore|)
    (mv : 1e-11 + 1e-15 * |Spec.magnitudeOf albedo r target.magnitude (InnerProductGeometry.angle sun.toE target.toE)| <
      |Spec.magnitudeOf albedo r target.magnitude (InnerProductGeometry.angle sun.toE target.toE) - limits.vismag|) :
    ∃ b, F64.detect lib limits albedo r sun earth moon target axis = .ok b ∧ (b = true ↔
      limits.sun_soft ≤ InnerProductGeometry.angle sun.toE target.toE ∧
      limits.earth ≤ InnerProductGeometry.angle earth.toE target.toE ∧
      limits.moon ≤ InnerProductGeometry.angle moon.toE target.toE ∧
      Spec.magnitudeOf albedo r target.magnitude (InnerProductGeometry.angle sun.toE target.toE) ≤ limits.vismag ∧
      InnerProductGeometry.angle axis.toE target.toE ≤ limits.bore) := by
  have low : ∀ {t x l E : ℝ}, |t - x| ≤ E → E < |x - l| → (t < l ↔ ¬ l ≤ x) := by
    intro t x l E h1 h2
    obtain ⟨a1, a2⟩ := abs_le.mp h1
    rcases lt_abs.mp h2 with h | h
    · constructor
      · intro h3; linarith
      · intro h3; exact absurd (by linarith) h3
    · constructor
      · intro _ h3; linarith
      · intro _; linarith
  have high : ∀ {t x l E : ℝ}, |t - x| ≤ E → E < |x - l| → (t > l ↔ ¬ x ≤ l) := by
    intro t x l E h1 h2
    obtain ⟨a1, a2⟩ := abs_le.mp h1
    rcases lt_abs.mp h2 with h | h
    · constructor
      · intro _ h3; linarith
      · intro _; linarith
    · constructor
      · intro h3; linarith
      · intro h3; exact absurd (by linarith) h3
  have e7 : (1 : ℝ) / 10 ^ 7 = 1e-7 := by norm_num
  obtain ⟨sa, es, ns⟩ := C111_accuracy h.acos hs ht
  obtain ⟨ea, ee, ne⟩ := C111_accuracy h.acos he ht
  obtain ⟨ma, em, nm⟩ := C111_accuracy h.acos hm ht
  obtain ⟨ba, eb, nb⟩ := C111_accuracy h.acos hz ht
  rw [e7] at ns ne nm nb
  have ls := low ns ms
  have le := low ne me
  have lm := low nm mm
  have lb := high nb mb
  simp only [F64.detect, es, ee, em, eb, ok_bind]
  by_cases c1 : sa < limits.sun_soft
  · exact ⟨false, by rw [if_pos c1]; rfl, by simp [ls.mp c1]⟩
  have c1' : limits.sun_soft ≤ InnerProductGeometry.angle sun.toE target.toE := by
    by_contra hc; exact c1 (ls.mpr hc)
  rw [if_neg c1]
  by_cases c2 : ea < limits.earth
  · exact ⟨false, by rw [if_pos c2]; rfl, by simp [le.mp c2]⟩
  have c2' : limits.earth ≤ InnerProductGeometry.angle earth.toE target.toE := by
    by_contra hc; exact c2 (le.mpr hc)
  rw [if_neg c2]
  by_cases c3 : ma < limits.moon
  · exact ⟨false, by rw [if_pos c3]; rfl, by simp [lm.mp c3]⟩
  have c3' : limits.moon ≤ InnerProductGeometry.angle moon.toE target.toE := by
    by_contra hc; exact c3 (lm.mpr hc)
  rw [if_neg c3]
  obtain ⟨vm, ev, nv⟩ := C138_magnitude h ha hr hs ht (by norm_num at hsoft ⊢; linarith)
  have lv := high nv mv
  simp only [ev, ok_bind]
  by_cases c4 : vm > limits.vismag
  · exact ⟨false, by rw [if_pos c4]; rfl, by simp [lv.mp c4]⟩
  have c4' := not_not.mp (fun hc => c4 (lv.mpr hc))
  rw [if_neg c4]
  by_cases c5 : ba > limits.bore
  · exact ⟨false, by rw [if_pos c5]; rfl, by simp [lb.mp c5]⟩
  have c5' := not_not.mp (fun hc => c5 (lb.mpr hc))
  exact ⟨true, by rw [if_neg c5]; rfl, by simp [c1', c2', c3', c4', c5']⟩

/-! ## a library which meets the assumptions -/

/-- every function correctly rounded -/
noncomputable def F64.roundedSky : F64.SkyLib where
  toLibm := F64.rounded
  acos := fun x => F64.rnd (Real.arccos x)
  log10 := fun x => F64.rnd (Real.logb 10 x)

theorem F64.roundedSky_accurate : Spec.SkyAccurate F64.roundedSky where
  trig := by
    have e : (1 : ℝ) / 2 ^ 52 = 2 * F64.u := by norm_num [F64.u]
    have hu := F64.u_pos
    constructor <;> intro x <;> rw [e]
    · have := F64.rnd_u (Real.sin x)
      have h0 : 0 ≤ F64.u * |Real.sin x| := by positivity
      exact this.trans (by linarith)
    · have := F64.rnd_u (Real.cos x)
      have h0 : 0 ≤ F64.u * |Real.cos x| := by positivity
      exact this.trans (by linarith)
  acos := F64.acos_rounded
  range := fun x _ => ⟨F64.rnd_nonneg (arccos_nonneg x), F64.rnd_mono (arccos_le_pi x)⟩
  log10 := by
    intro x _
    have e : (1 : ℝ) / 2 ^ 52 = 2 * F64.u := by norm_num [F64.u]
    have hu := F64.u_pos
    have := F64.rnd_u (Real.logb 10 x)
    have h0 : 0 ≤ F64.u * |Real.logb 10 x| := by positivity
    rw [e]
    exact this.trans (by linarith)

/-- a target in front of the Sun -/
example : ∃ m, F64.visualMagnitude F64.roundedSky 0.3 0.005 ⟨150000000, 0, 0⟩ ⟨100, 0, 0⟩ = .ok m :=
  C138_defined F64.roundedSky_accurate.trig F64.roundedSky_accurate.range (by norm_num) (by norm_num) (by simp)
    (by simp)

theorem F64.angle_axes (a b : Vec3) {c : ℝ} (h : a.dot b / (a.magnitude * b.magnitude) = c) :
    InnerProductGeometry.angle a.toE b.toE = Real.arccos c := by
  rw [InnerProductGeometry.angle, Vec3.inner_toE, Vec3.norm_toE, Vec3.norm_toE, h]

/-- a target 100 km away, opposite to the Sun and in the middle of the image, is detected -/
example : F64.detect F64.roundedSky ⟨1, 1.57, 0.17, 0.35, 15, 0.08, 0⟩ 0.3 0.005 ⟨150000000, 0, 0⟩ ⟨0, -42164, 0⟩
    ⟨0, 400000, 0⟩ ⟨-100, 0, 0⟩ ⟨-1, 0, 0⟩ = .ok true := by
  have hp1 := Real.pi_gt_d2
  have mag : ∀ x : ℝ, (⟨x, 0, 0⟩ : Vec3).magnitude = |x| := by
    intro x; simp [Vec3.magnitude, sqrtNN, Real.sqrt_mul_self_eq_abs]
  have a1 : InnerProductGeometry.angle (⟨150000000, 0, 0⟩ : Vec3).toE (⟨-100, 0, 0⟩ : Vec3).toE = π := by
    rw [F64.angle_axes (c := -1), arccos_neg_one]
    rw [mag, mag]; norm_num [Vec3.dot]
  have a2 : InnerProductGeometry.angle (⟨0, -42164, 0⟩ : Vec3).toE (⟨-100, 0, 0⟩ : Vec3).toE = π / 2 := by
    rw [F64.angle_axes (c := 0), arccos_zero]
    norm_num [Vec3.dot]
  have a3 : InnerProductGeometry.angle (⟨0, 400000, 0⟩ : Vec3).toE (⟨-100, 0, 0⟩ : Vec3).toE = π / 2 := by
    rw [F64.angle_axes (c := 0), arccos_zero]
    norm_num [Vec3.dot]
  have a4 : InnerProductGeometry.angle (⟨-1, 0, 0⟩ : Vec3).toE (⟨-100, 0, 0⟩ : Vec3).toE = 0 := by
    rw [F64.angle_axes (c := 1), arccos_one]
    rw [mag, mag]; norm_num [Vec3.dot]
  have hl : Spec.lambert π = π := by simp [Spec.lambert]
  have m1 : Spec.magnitudeOf 0.3 0.005 (⟨-100, 0, 0⟩ : Vec3).magnitude π = -26.74 - 2.5 * logb 10 (1 / (2 * 10 ^ 9)) := by
    rw [Spec.magnitudeOf, hl, mag]
    congr 3
    have := pi_pos.ne'
    field_simp
    norm_num
  have l1 : -10 ≤ logb 10 (1 / (2 * 10 ^ 9)) := by
    rw [le_logb_iff_rpow_le (by norm_num) (by norm_num), rpow_neg (by norm_num)]
    norm_num
  have l2 : logb 10 (1 / (2 * 10 ^ 9)) ≤ 0 := logb_nonpos (by norm_num) (by norm_num) (by norm_num)
  obtain ⟨L, hL⟩ : ∃ L, L = logb 10 (1 / (2 * 10 ^ 9)) := ⟨_, rfl⟩
  rw [← hL] at m1 l1 l2
  have hM : |(-26.74 - 2.5 * L : ℝ)| ≤ 27 := by rw [abs_le]; constructor <;> linarith
  have key := C138_detect F64.roundedSky_accurate (albedo := 0.3) (r := 0.005) (by norm_num) (by norm_num)
    (limits := ⟨1, 1.57, 0.17, 0.35, 15, 0.08, 0⟩) (by norm_num) (sun := ⟨150000000, 0, 0⟩) (earth := ⟨0, -42164, 0⟩)
    (moon := ⟨0, 400000, 0⟩) (target := ⟨-100, 0, 0⟩) (axis := ⟨-1, 0, 0⟩) (by simp) (by simp) (by simp) (by simp)
    (by simp) (by rw [a1]; refine lt_abs.mpr (Or.inl ?_); dsimp only; linarith)
    (by rw [a2]; refine lt_abs.mpr (Or.inl ?_); dsimp only; linarith)
    (by rw [a3]; refine lt_abs.mpr (Or.inl ?_); dsimp only; linarith)
    (by rw [a4]; norm_num [abs_of_neg])
    (by rw [a1, m1]; refine lt_abs.mpr (Or.inr ?_); dsimp only; linarith)
  obtain ⟨b, e, hb⟩ := key
  rw [a1, a2, a3, a4, m1] at hb
  rw [e, hb.mpr (by dsimp only; refine ⟨?_, ?_, ?_, ?_, ?_⟩ <;> linarith)]

end Openspace
