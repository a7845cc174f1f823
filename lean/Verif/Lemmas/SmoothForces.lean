import Verif.Props.EarthOrientation
import Verif.Props.Forces
import Verif.Props.ThirdBody
import Mathlib.Analysis.Calculus.ContDiff.Polynomial
import Mathlib.Analysis.Calculus.ContDiff.Operations
import Mathlib.Analysis.SpecialFunctions.Trigonometric.Deriv
import Mathlib.Analysis.SpecialFunctions.Trigonometric.DerivHyp
import Mathlib.Analysis.SpecialFunctions.Sqrt

/-!
# Lemmas: the forces of the library are smooth functions of time and position
-/

namespace Openspace

open Real Filter Topology Spec

variable {W : Type} [NormedAddCommGroup W] [NormedSpace ℝ W] {n : WithTop ℕ∞} {w : W}

/-- a vector whose components are of class Cⁿ at `w` -/
structure Smooth (n : WithTop ℕ∞) (X : W → Vec3) (w : W) : Prop where
  x : ContDiffAt ℝ n (fun u => (X u).x) w
  y : ContDiffAt ℝ n (fun u => (X u).y) w
  z : ContDiffAt ℝ n (fun u => (X u).z) w

/-- a matrix whose rows are of class Cⁿ at `w` -/
structure SmoothM (n : WithTop ℕ∞) (X : W → Mat3) (w : W) : Prop where
  x : Smooth n (fun u => (X u).row1) w
  y : Smooth n (fun u => (X u).row2) w
  z : Smooth n (fun u => (X u).row3) w

/-- a call which succeeds near `w`, with a result of class Cⁿ -/
def SmoothPy (n : WithTop ℕ∞) (F : W → Py Vec3) (w : W) : Prop :=
  ∃ X : W → Vec3, Smooth n X w ∧ ∀ᶠ u in 𝓝 w, F u = .ok (X u)

namespace Smooth

variable {X Y : W → Vec3}

theorem congr (h : Smooth n X w) (e : ∀ᶠ u in 𝓝 w, Y u = X u) : Smooth n Y w :=
  ⟨h.x.congr_of_eventuallyEq (e.mono fun u hu => by simp only [hu]),
   h.y.congr_of_eventuallyEq (e.mono fun u hu => by simp only [hu]),
   h.z.congr_of_eventuallyEq (e.mono fun u hu => by simp only [hu])⟩

theorem const (v : Vec3) : Smooth n (fun _ : W => v) w := ⟨contDiffAt_const, contDiffAt_const, contDiffAt_const⟩

theorem plus (hX : Smooth n X w) (hY : Smooth n Y w) : Smooth n (fun u => (X u).plus (Y u)) w :=
  ⟨hX.x.add hY.x, hX.y.add hY.y, hX.z.add hY.z⟩

theorem minus (hX : Smooth n X w) (hY : Smooth n Y w) : Smooth n (fun u => (X u).minus (Y u)) w :=
  ⟨hX.x.sub hY.x, hX.y.sub hY.y, hX.z.sub hY.z⟩

theorem scaled (hX : Smooth n X w) {k : W → ℝ} (hk : ContDiffAt ℝ n k w) :
    Smooth n (fun u => (X u).scaled (k u)) w :=
  ⟨hX.x.mul hk, hX.y.mul hk, hX.z.mul hk⟩

theorem dot (hX : Smooth n X w) (hY : Smooth n Y w) : ContDiffAt ℝ n (fun u => (X u).dot (Y u)) w :=
  ((hX.x.mul hY.x).add (hX.y.mul hY.y)).add (hX.z.mul hY.z)

theorem cross (hX : Smooth n X w) (hY : Smooth n Y w) : Smooth n (fun u => (X u).cross (Y u)) w :=
  ⟨(hX.y.mul hY.z).sub (hX.z.mul hY.y), (hX.z.mul hY.x).sub (hX.x.mul hY.z), (hX.x.mul hY.y).sub (hX.y.mul hY.x)⟩

theorem magnitude (hX : Smooth n X w) (h : X w ≠ ⟨0, 0, 0⟩) : ContDiffAt ℝ n (fun u => (X u).magnitude) w := by
  have h0 := Vec3.magnitude_pos.mpr h
  exact ContDiffAt.sqrt (hX.dot hX) (Real.sqrt_pos.mp h0).ne'

theorem mulVec (hX : Smooth n X w) {M : W → Mat3} (hM : SmoothM n M w) : Smooth n (fun u => (M u).mulVec (X u)) w :=
  ⟨hM.x.dot hX, hM.y.dot hX, hM.z.dot hX⟩

/-- nothing is lost by being away from a point -/
theorem eventually_ne (hX : Smooth n X w) {v : Vec3} (h : X w ≠ v) : ∀ᶠ u in 𝓝 w, X u ≠ v := by
  by_contra hc
  apply h
  have hc : ∃ᶠ u in 𝓝 w, X u = v := by simpa [Filter.not_eventually] using hc
  have key : ∀ {f : W → ℝ} {c : ℝ}, ContinuousAt f w → (∃ᶠ u in 𝓝 w, f u = c) → f w = c := by
    intro f c hf hfr
    by_contra hne
    exact hfr (hf.eventually_ne hne)
  exact Vec3.ext (key hX.x.continuousAt (hc.mono fun u hu => by rw [hu]))
    (key hX.y.continuousAt (hc.mono fun u hu => by rw [hu])) (key hX.z.continuousAt (hc.mono fun u hu => by rw [hu]))

end Smooth

theorem SmoothM.transpose {M : W → Mat3} (h : SmoothM n M w) : SmoothM n (fun u => (M u).transpose) w :=
  ⟨⟨h.x.x, h.y.x, h.z.x⟩, ⟨h.x.y, h.y.y, h.z.y⟩, ⟨h.x.z, h.y.z, h.z.z⟩⟩

/-! ## Earth orientation -/

section
variable {t : W → Epoch} (ht : ContDiffAt ℝ n (fun u => (t u).value) w)
include ht

theorem smooth_centuries : ContDiffAt ℝ n (fun u => (t u).julianCenturies) w := by
  simp only [Epoch.julianCenturies, Epoch.julianValue]
  fun_prop

theorem smooth_obliquity : ContDiffAt ℝ n (fun u => Earth.obliquityAt (t u)) w := by
  have h := smooth_centuries ht
  simp only [Earth.obliquityAt]
  fun_prop

theorem smooth_dpsi : ContDiffAt ℝ n (fun u => Earth.dpsiAt (t u)) w := by
  simp only [Earth.dpsiAt, Epoch.julianValue, pySin, pyRadians]
  fun_prop

theorem smooth_deps : ContDiffAt ℝ n (fun u => Earth.depsAt (t u)) w := by
  simp only [Earth.depsAt, Epoch.julianValue, pyCos, pyRadians]
  fun_prop

theorem smooth_precession : SmoothM n (fun u => Earth.precession (t u)) w := by
  have h := smooth_centuries ht
  simp only [Earth.precession, pySin, pyCos]
  refine ⟨⟨?_, ?_, ?_⟩, ⟨?_, ?_, ?_⟩, ⟨?_, ?_, ?_⟩⟩ <;> fun_prop

theorem smooth_nutation : SmoothM n (fun u => Earth.nutation (t u)) w := by
  have h1 := smooth_obliquity ht
  have h2 := smooth_dpsi ht
  have h3 := smooth_deps ht
  simp only [Earth.nutation, pySin, pyCos]
  refine ⟨⟨?_, ?_, ?_⟩, ⟨?_, ?_, ?_⟩, ⟨?_, ?_, ?_⟩⟩ <;> fun_prop

/-- within a UTC day the sidereal time is a smooth function up to whole turns -/
theorem smooth_gast (hm : ∀ k : ℤ, (t w).value - 69.184 / 86400 ≠ k) :
    ContDiffAt ℝ n (fun u => cos (gastOf (t u))) w ∧ ContDiffAt ℝ n (fun u => sin (gastOf (t u))) w := by
  have h1 := smooth_obliquity ht
  have h2 := smooth_dpsi ht
  have hsec : SECONDS_IN_DAY = 86400 := by norm_num [SECONDS_IN_DAY]
  obtain ⟨N, hN⟩ : ∃ N, N = ⌊(t w).value - 69.184 / 86400⌋ := ⟨_, rfl⟩
  have hfl : ∀ᶠ u in 𝓝 w, ⌊(t u).value - 69.184 / 86400⌋ = N := by
    have hc : ContinuousAt (fun u => (t u).value - 69.184 / 86400) w := ht.continuousAt.sub continuousAt_const
    have a1 : (N : ℝ) < (t w).value - 69.184 / 86400 :=
      lt_of_le_of_ne (by rw [hN]; exact Int.floor_le _) (fun h => hm N h.symm)
    have a2 : (t w).value - 69.184 / 86400 < N + 1 := by rw [hN]; exact Int.lt_floor_add_one _
    filter_upwards [hc.eventually (lt_mem_nhds a1), hc.eventually (gt_mem_nhds a2)] with u b1 b2
    exact Int.floor_eq_iff.mpr ⟨b1.le, b2⟩
  -- the angle without reduction to one turn
  obtain ⟨g, hg⟩ : ∃ g : W → ℝ, g = fun u => Earth.dpsiAt (t u) * cos (Earth.obliquityAt (t u)) +
      (100.4606184 + 36000.77004 * ((N + 2400000.5 - 2451545) / 36525) +
        0.000387933 * ((N + 2400000.5 - 2451545) / 36525) * ((N + 2400000.5 - 2451545) / 36525) +
        360.98564724 * ((t u).value - 69.184 / 86400 - N)) * π / 180 := ⟨_, rfl⟩
  have hgs : ContDiffAt ℝ n g w := by rw [hg]; fun_prop
  have hturn : ∀ᶠ u in 𝓝 w, ∃ k : ℤ, gastOf (t u) = g u - k * (2 * π) := by
    filter_upwards [hfl] with u hu
    refine ⟨⌊(100.4606184 + 36000.77004 * ((N + 2400000.5 - 2451545) / 36525) +
        0.000387933 * ((N + 2400000.5 - 2451545) / 36525) * ((N + 2400000.5 - 2451545) / 36525) +
        360.98564724 * ((t u).value - 69.184 / 86400 - N)) / 360⌋, ?_⟩
    have e1 : pyMod ((t u).value - 69.184 / 86400) 1 = (t u).value - 69.184 / 86400 - N := by
      simp only [pyMod, ofInt, pyFloor, div_one, hu, one_mul]
    have e2 : (t u).value - 69.184 / 86400 + 2400000.5 - ((t u).value - 69.184 / 86400 - N) = N + 2400000.5 := by ring
    simp only [gastOf, Spec.apparentSidereal, Epoch.gha, Epoch.UTC_TDT_OFFSET, hsec, e1, Epoch.julianValue,
      Epoch.MJD_ZERO, Epoch.J2000_JULIAN_DATE, Epoch.JULIAN_CENTURY, e2, hg]
    generalize 100.4606184 + 36000.77004 * (((N : ℝ) + 2400000.5 - 2451545) / 36525) +
        0.000387933 * ((N + 2400000.5 - 2451545) / 36525) * ((N + 2400000.5 - 2451545) / 36525) +
        360.98564724 * ((t u).value - 69.184 / 86400 - N) = D
    simp only [pyMod, pyRadians, ofInt, pyFloor, pyPi]
    ring
  constructor
  · refine hgs.cos.congr_of_eventuallyEq (hturn.mono fun u hu => ?_)
    obtain ⟨k, hk⟩ := hu
    simp only [hk, cos_sub_int_mul_two_pi]
  · refine hgs.sin.congr_of_eventuallyEq (hturn.mono fun u hu => ?_)
    obtain ⟨k, hk⟩ := hu
    simp only [hk, sin_sub_int_mul_two_pi]

/-- the two conversions between GCRF and ITRF -/
theorem smooth_itrf (hm : ∀ k : ℤ, (t w).value - 69.184 / 86400 ≠ k) {X : W → Vec3} (hX : Smooth n X w) :
    (∃ Y : W → Vec3, Smooth n Y w ∧ ∀ u, PositionConvert.gcrfToItrf (X u) (t u) = .ok (Y u)) ∧
    (∃ Y : W → Vec3, Smooth n Y w ∧ ∀ u, PositionConvert.itrfToGcrf (X u) (t u) = .ok (Y u)) := by
  obtain ⟨hc, hs⟩ := smooth_gast ht hm
  have hR : SmoothM n (fun u => (⟨⟨cos (gastOf (t u)), sin (gastOf (t u)), 0⟩,
      ⟨-sin (gastOf (t u)), cos (gastOf (t u)), 0⟩, ⟨0, 0, 1⟩⟩ : Mat3)) w :=
    ⟨⟨hc, hs, contDiffAt_const⟩, ⟨hs.neg, hc, contDiffAt_const⟩, ⟨contDiffAt_const, contDiffAt_const, contDiffAt_const⟩⟩
  have hN := smooth_nutation ht
  have hP := smooth_precession ht
  exact ⟨⟨_, ((hX.mulVec hP).mulVec hN).mulVec hR, fun u => by
      simp only [PositionConvert.gcrfToItrf, PositionConvert.gcrfToTod, PositionConvert.gcrfToMod, rotation_eq,
        ok_bind, pure_eq_ok]⟩,
    ⟨_, ((hX.mulVec hR.transpose).mulVec hN.transpose).mulVec hP.transpose, fun u => by
      simp only [PositionConvert.itrfToGcrf, PositionConvert.itrfToMod, PositionConvert.itrfToTod, rotation_eq,
        ok_bind, pure_eq_ok]⟩⟩

/-! ## Sun and Moon -/

theorem smooth_sun : Smooth n (fun u => Sun.getPosition (t u)) w := by
  have h := smooth_centuries ht
  simp only [Sun.getPosition, pySin, pyCos, pyRadians]
  refine ⟨?_, ?_, ?_⟩ <;> fun_prop

theorem smooth_moon : ∃ Y : W → Vec3, Smooth n Y w ∧ ∀ u, Moon.getPosition (t u) = .ok (Y u) := by
  have h := smooth_centuries ht
  have hrot : ∀ {X : W → Vec3} (c : ℝ), Smooth n X w → Smooth n (fun u => (X u).rotate ⟨1, 0, 0⟩ c) w := by
    intro X c hX
    unfold Vec3.rotate Vec3.rotU
    have hu : Smooth n (fun _ : W => (⟨1, 0, 0⟩ : Vec3).scaled (1 / Vec3.magnitude ⟨1, 0, 0⟩)) w := Smooth.const _
    exact ((hX.scaled contDiffAt_const).plus ((hu.cross hX).scaled contDiffAt_const)).plus
      (hu.scaled ((hu.dot hX).mul contDiffAt_const))
  refine ⟨fun u => match Moon.getPosition (t u) with | .ok v => v | .error _ => ⟨0, 0, 0⟩, ?_, fun u => ?_⟩
  · simp only [Moon.getPosition, Vec3.rotationAboutAxis_ok _ x_ne]
    refine hrot _ ?_
    simp only [pySin, pyCos, pyRadians]
    refine ⟨?_, ?_, ?_⟩ <;> fun_prop
  · obtain ⟨m, hm, -⟩ := C30_moon (t u)
    simp only [hm]

end

/-! ## gravity field -/

theorem smooth_legendre (k m : ℕ) {f : W → ℝ} (hf : ContDiffAt ℝ n f w) :
    ContDiffAt ℝ n (fun u => legendreDeriv k m (f u)) w := by
  unfold legendreDeriv
  generalize Polynomial.derivative^[m] (legendre k) = q
  have h : ContDiff ℝ n (fun x : ℝ => q.eval x) := by
    simpa [Polynomial.coe_aeval_eq_eval] using Polynomial.contDiff_aeval (𝕜 := ℝ) q n
  exact h.contDiffAt.comp w hf

theorem smooth_cpow (m : ℕ) {a b : W → ℝ} (ha : ContDiffAt ℝ n a w) (hb : ContDiffAt ℝ n b w) :
    ContDiffAt ℝ n (fun u => cpow m (a u) (b u)) w ∧ ContDiffAt ℝ n (fun u => spow m (a u) (b u)) w := by
  induction m with
  | zero => simp only [cpow, spow, pow_zero]; exact ⟨contDiffAt_const, contDiffAt_const⟩
  | succ m ih =>
    simp only [cpow_succ, spow_succ]
    exact ⟨(ih.1.mul ha).sub (ih.2.mul hb), (ih.1.mul hb).add (ih.2.mul ha)⟩

theorem smooth_gravityItrf {Y : W → Vec3} {d : W → ℝ} (hY : Smooth n Y w) (hd : ContDiffAt ℝ n d w) (h0 : 0 < d w)
    (hxy : ¬((Y w).x = 0 ∧ (Y w).y = 0)) : SmoothPy n (fun u => gravityItrf (Y u) (d u)) w := by
  have hpos : 0 < (Y w).x * (Y w).x + (Y w).y * (Y w).y := by
    rcases not_and_or.mp hxy with h | h
    · nlinarith [mul_self_pos.mpr h, mul_self_nonneg (Y w).y]
    · nlinarith [mul_self_pos.mpr h, mul_self_nonneg (Y w).x]
  have hne : Y w ≠ ⟨0, 0, 0⟩ := fun h => hxy (by rw [h]; exact ⟨rfl, rfl⟩)
  have hrho : ContDiffAt ℝ n (fun u => √((Y u).x * (Y u).x + (Y u).y * (Y u).y)) w :=
    ((hY.x.mul hY.x).add (hY.y.mul hY.y)).sqrt hpos.ne'
  have hmag := hY.magnitude hne
  have hposE : ∀ᶠ u in 𝓝 w, 0 < (Y u).x * (Y u).x + (Y u).y * (Y u).y :=
    ((hY.x.mul hY.x).add (hY.y.mul hY.y)).continuousAt.eventually (lt_mem_nhds hpos)
  have hdE : ∀ᶠ u in 𝓝 w, 0 < d u := hd.continuousAt.eventually (lt_mem_nhds h0)
  have hm0 : (Y w).magnitude ≠ 0 := (Vec3.magnitude_pos.mpr hne).ne'
  have hr0 : √((Y w).x * (Y w).x + (Y w).y * (Y w).y) ≠ 0 := (Real.sqrt_pos.mpr hpos).ne'
  obtain ⟨dec, hdec⟩ : ∃ f : W → ℝ, f = fun u => (SphericalPosition.fromCartesian (Y u)).declination := ⟨_, rfl⟩
  obtain ⟨ra, hra⟩ : ∃ f : W → ℝ, f = fun u => (SphericalPosition.fromCartesian (Y u)).right_ascension := ⟨_, rfl⟩
  have magE : ∀ᶠ u in 𝓝 w, (Y u).magnitude ≠ 0 := hmag.continuousAt.eventually_ne hm0
  have cd : ContDiffAt ℝ n (fun u => cos (dec u)) w := by
    refine (hrho.div hmag hm0).congr_of_eventuallyEq (magE.mono fun u hu => ?_)
    simp only [hdec, Pi.div_apply]
    rw [eq_div_iff hu, mul_comm]; exact mag_mul_cos_dec _
  have sd : ContDiffAt ℝ n (fun u => sin (dec u)) w := by
    refine (hY.z.div hmag hm0).congr_of_eventuallyEq (magE.mono fun u hu => ?_)
    simp only [hdec, Pi.div_apply]
    rw [eq_div_iff hu, mul_comm]; exact mag_mul_sin_dec _
  have cr : ContDiffAt ℝ n (fun u => cos (ra u)) w := by
    refine (hY.x.div hrho hr0).congr_of_eventuallyEq (hposE.mono fun u hu => ?_)
    simp only [hra, Pi.div_apply]
    rw [eq_div_iff (Real.sqrt_pos.mpr hu).ne', mul_comm]; exact rho_mul_cos_ra _
  have sr : ContDiffAt ℝ n (fun u => sin (ra u)) w := by
    refine (hY.y.div hrho hr0).congr_of_eventuallyEq (hposE.mono fun u hu => ?_)
    simp only [hra, Pi.div_apply]
    rw [eq_div_iff (Real.sqrt_pos.mpr hu).ne', mul_comm]; exact rho_mul_sin_ra _
  have hC : cos (dec w) ≠ 0 := fun h => by
    have := mag_mul_cos_dec (Y w)
    rw [hdec] at h
    simp only at h
    rw [h, mul_zero] at this
    exact hr0 this.symm
  have td : ContDiffAt ℝ n (fun u => tan (dec u)) w := by
    simp only [tan_eq_sin_div_cos]; exact sd.div cd hC
  have cm : ∀ m : ℕ, ContDiffAt ℝ n (fun u => cos (m * ra u)) w ∧ ContDiffAt ℝ n (fun u => sin (m * ra u)) w := by
    intro m
    have h := smooth_cpow m cr sr
    have e : ∀ l : ℝ, cpow m (cos l) (sin l) = cos (m * l) ∧ spow m (cos l) (sin l) = sin (m * l) := fun l => by
      simpa using cpow_polar m 1 l
    simpa only [fun l => (e l).1, fun l => (e l).2] using h
  have hq : ContDiffAt ℝ n (fun u => Earth.RADIUS / d u) w := contDiffAt_const.div hd h0.ne'
  have al : ∀ k m : ℕ, ContDiffAt ℝ n (fun u => assocLegendre k m (dec u)) w := fun k m =>
    (cd.pow m).mul (smooth_legendre k m sd)
  have tr : ∀ k m : ℕ, ContDiffAt ℝ n (fun u => (gterm (ra u) (dec u) (Earth.RADIUS / d u) k m).r) w ∧
      ContDiffAt ℝ n (fun u => (gterm (ra u) (dec u) (Earth.RADIUS / d u) k m).phi) w ∧
      ContDiffAt ℝ n (fun u => (gterm (ra u) (dec u) (Earth.RADIUS / d u) k m).lamb) w := by
    intro k m
    have h1 := (cm m).1
    have h2 := (cm m).2
    have h3 := al k m
    have h4 := al k (m + 1)
    have h5 := hq.pow k
    simp only [gterm]
    exact ⟨((h5.mul contDiffAt_const).mul h3).mul ((contDiffAt_const.mul h1).add (contDiffAt_const.mul h2)),
      (h5.mul (h4.sub ((contDiffAt_const.mul td).mul h3))).mul
        ((contDiffAt_const.mul h1).add (contDiffAt_const.mul h2)),
      ((h5.mul contDiffAt_const).mul h3).mul ((contDiffAt_const.mul h1).sub (contDiffAt_const.mul h2))⟩
  have gs : ∀ f : W → ℕ → ℕ → ℝ, (∀ k m, ContDiffAt ℝ n (fun u => f u k m) w) →
      ContDiffAt ℝ n (fun u => gsum (f u)) w := fun f hf => by
    simp only [gsum]
    exact ContDiffAt.sum fun k _ => ContDiffAt.sum fun m _ => hf k m
  have hk : ContDiffAt ℝ n (fun u => (Y u).magnitude / d u) w := hmag.div hd h0.ne'
  have hk0 : (Y w).magnitude / d w ≠ 0 := div_ne_zero hm0 h0.ne'
  have hmu : ContDiffAt ℝ n (fun u => Earth.MU / d u ^ 2) w := contDiffAt_const.div (hd.pow 2) (pow_pos h0 2).ne'
  have g1 := hmu.neg.mul (gs (fun u k m => (gterm (ra u) (dec u) (Earth.RADIUS / d u) k m).r) fun k m => (tr k m).1)
  have g2 := hmu.mul (gs (fun u k m => (gterm (ra u) (dec u) (Earth.RADIUS / d u) k m).phi) fun k m => (tr k m).2.1)
  have g3 := (hmu.div cd hC).mul
    (gs (fun u k m => (gterm (ra u) (dec u) (Earth.RADIUS / d u) k m).lamb) fun k m => (tr k m).2.2)
  refine ⟨_, ?_, (hposE.and hdE).mono fun u hu => gravityItrf_eq (Y u) hu.2 hu.1⟩
  rw [hdec] at cd sd
  rw [hra] at cr sr
  rw [hdec, hra] at g1 g2 g3
  unfold fieldVec
  exact ⟨(hk.mul ((g1.mul (cd.mul cr)).sub (g2.mul (sd.mul cr)))).sub (((hk.inv hk0).mul g3).mul sr),
    (hk.mul ((g1.mul (cd.mul sr)).sub (g2.mul (sd.mul sr)))).add (((hk.inv hk0).mul g3).mul cr),
    hk.mul ((g1.mul sd).add (g2.mul cd))⟩

/-! ## the equations of motion -/

theorem smooth_thirdBody {S P : W → Vec3} (hS : Smooth n S w) (hP : Smooth n P w) (mu : ℝ)
    (h1 : S w ≠ ⟨0, 0, 0⟩) (h2 : (S w).minus (P w) ≠ ⟨0, 0, 0⟩) :
    SmoothPy n (fun u => GCRF.thirdBody (S u) (P u) mu) w := by
  have hD := hS.minus hP
  have m1 := hS.magnitude h1
  have m2 := hD.magnitude h2
  have p1 := (Vec3.magnitude_pos.mpr h1).ne'
  have p2 := (Vec3.magnitude_pos.mpr h2).ne'
  have k1 : ContDiffAt ℝ n (fun u => 1 / (((S u).minus (P u)).magnitude * ((S u).minus (P u)).magnitude *
      ((S u).minus (P u)).magnitude)) w := contDiffAt_const.div ((m2.mul m2).mul m2) (mul_ne_zero (mul_ne_zero p2 p2) p2)
  have k2 : ContDiffAt ℝ n (fun u => 1 / ((S u).magnitude * (S u).magnitude * (S u).magnitude)) w :=
    contDiffAt_const.div ((m1.mul m1).mul m1) (mul_ne_zero (mul_ne_zero p1 p1) p1)
  refine ⟨_, ((hD.scaled k1).minus (hS.scaled k2)).scaled (contDiffAt_const (c := mu)), ?_⟩
  filter_upwards [hS.eventually_ne h1, hD.eventually_ne h2] with u q1 q2
  have q1 := (Vec3.magnitude_pos.mpr q1).ne'
  have q2 := (Vec3.magnitude_pos.mpr q2).ne'
  simp only [GCRF.thirdBody, pyDiv_ok (mul_ne_zero (mul_ne_zero q2 q2) q2),
    pyDiv_ok (mul_ne_zero (mul_ne_zero q1 q1) q1), ok_bind, pure_eq_ok]

/-- velocity and acceleration at a state that varies smoothly, off the polar axis, at most 350 000 km from the
Earth and not at the midnight of UTC -/
theorem smooth_derivative {t : W → Epoch} {R V T : W → Vec3} (ht : ContDiffAt ℝ n (fun u => (t u).value) w)
    (hR : Smooth n R w) (hV : Smooth n V w) (hT : Smooth n T w)
    (hm : ∀ k : ℤ, (t w).value - 69.184 / 86400 ≠ k) (hhi : (R w).magnitude ≤ 350000)
    (hax : ∀ z, PositionConvert.gcrfToItrf (R w) (t w) ≠ .ok ⟨0, 0, z⟩) :
    ∃ A : W → Vec3, Smooth n A w ∧ ∀ᶠ u in 𝓝 w,
      ({ GCRF.new (t u) (R u) (V u) with thrust := T u } : GCRF).derivative = .ok (V u, A u) := by
  obtain ⟨⟨Y, hY, eY⟩, -⟩ := smooth_itrf ht hm hR
  have h0 : R w ≠ ⟨0, 0, 0⟩ := by
    intro h
    refine hax (Y w).z ?_
    have h1 := (gcrfToItrf_magnitude (t w) (eY w)).2
    rw [h, Vec3.magnitude_eq_zero.mpr rfl, mul_zero] at h1
    have h2 := Vec3.magnitude_eq_zero.mp (le_antisymm h1 (Y w).magnitude_nonneg)
    rw [eY w, h2]
  have m0 := (Vec3.magnitude_pos.mpr h0).ne'
  have hmag := hR.magnitude h0
  have ne0 := hR.eventually_ne h0
  -- central attraction
  have aE : Smooth n (fun u => (R u).scaled (-Earth.MU / (R u).magnitude ^ 3)) w :=
    hR.scaled (contDiffAt_const.div (hmag.pow 3) (pow_ne_zero 3 m0))
  -- Moon
  obtain ⟨M, hM, eM⟩ := smooth_moon ht
  have hMw : 350000 < (M w).magnitude := by
    obtain ⟨m, h1, h2, -⟩ := C30_moon (t w)
    rw [eM w] at h1; cases h1; linarith
  obtain ⟨aM, hM', eM'⟩ := smooth_thirdBody hM hR Moon.MU (Vec3.magnitude_pos.mp (by linarith))
    (Vec3.magnitude_pos.mp (by linarith [magnitude_minus_ge (M w) (R w)]))
  -- Sun
  have hS := smooth_sun ht
  have hSw : 350000 < (Sun.getPosition (t w)).magnitude := by
    have := (C30_sun (t w)).1; norm_num at this ⊢; linarith
  have hSR : (Sun.getPosition (t w)).minus (R w) ≠ ⟨0, 0, 0⟩ :=
    Vec3.magnitude_pos.mp (by linarith [magnitude_minus_ge (Sun.getPosition (t w)) (R w)])
  obtain ⟨aS, hS', eS'⟩ := smooth_thirdBody hS hR Sun.MU (Vec3.magnitude_pos.mp (by linarith)) hSR
  have nS := (hS.minus hR).eventually_ne hSR
  -- gravity
  obtain ⟨G, hG, eG⟩ := smooth_gravityItrf hY hmag (Vec3.magnitude_pos.mpr h0) (fun h => hax (Y w).z (by
    rw [eY w]; exact congrArg _ (Vec3.ext h.1 h.2 rfl)))
  obtain ⟨-, ⟨aG, hG', eG'⟩⟩ := smooth_itrf ht hm hG
  refine ⟨_, ((((hT.plus aE).plus hM').plus hS').plus (Smooth.const ⟨0, 0, 0⟩)).plus hG', ?_⟩
  filter_upwards [ne0, eM', eS', nS, eG] with u q1 q2 q3 q4 q5
  obtain ⟨s, hs⟩ : ∃ s : GCRF, s = { GCRF.new (t u) (R u) (V u) with thrust := T u } := ⟨_, rfl⟩
  have ep : s.position = R u := by rw [hs]; rfl
  have ee : s.epoch = t u := by rw [hs]; rfl
  have f1 : s.accelerationFromEarth = .ok ((R u).scaled (-Earth.MU / (R u).magnitude ^ 3)) := by
    rw [← ep]; exact accelerationFromEarth_ok (by rw [ep]; exact q1)
  have f2 : s.accelerationFromMoon = .ok (aM u) := by
    simp only [GCRF.accelerationFromMoon, ee, ep, eM u, ok_bind, q2]
  have f3 : s.accelerationFromSun = .ok (aS u) := by
    simp only [GCRF.accelerationFromSun, ee, ep, q3]
  have f4 : s.accelerationFromSrp = .ok ⟨0, 0, 0⟩ := by
    obtain ⟨-, h⟩ := srp_eq s (by
      rw [ep, ee]; intro h; apply q4; rw [h]; ext <;> simp [Vec3.minus])
    have hz : s.srp_scalar = 0 := by rw [hs]; rfl
    rw [h, hz]
    simp [Vec3.scaled]
  have f5 : s.accelerationFromGravity = .ok (aG u) := by
    simp only [GCRF.accelerationFromGravity, ee, ep, eY u, ok_bind, q5, eG' u]
  have f6 : s.accelerationFromThrust = T u := by rw [hs]; rfl
  have f7 : s.use_perturbations = true := by rw [hs]; rfl
  have f8 : s.velocity.copy = V u := by rw [hs]; rfl
  rw [← hs]
  simp only [GCRF.derivative, f1, f2, f3, f4, f5, f6, f7, f8, ok_bind, if_true, pure_eq_ok]

end Openspace
