import Verif.Lemmas.PerturbationBound
import Verif.Lemmas.Drift
import Verif.Props.Days
import Verif.Props.OrbitThrough
import Verif.Props.GaussRecovers

/-!
# C169 and C170: how large the perturbations are, and how well elements predict a perturbed motion
-/

namespace Openspace

open Real Filter Topology
open scoped ContDiff

/-- a bound of the perturbing accelerations at a distance between `lo` and `hi` km from the centre of the Earth, in
km/s²: the shape of the Earth, the Moon, and the Sun -/
noncomputable def Spec.perturbation (lo hi : ℝ) : ℝ :=
  5.7e-3 * (Earth.RADIUS / lo) ^ 2 * (Earth.MU / lo ^ 2) + 2 * Moon.MU * hi / (356000 - hi) ^ 3 + 8.5e-14 * hi

/-! ## C169 -/

/-- the tidal acceleration by a third body -/
theorem thirdBody_tidal {s p : Vec3} {mu ρ : ℝ} (hmu : 0 ≤ mu) (hρ : 0 < ρ) (h : ρ ≤ s.magnitude - p.magnitude) :
    ∃ a, GCRF.thirdBody s p mu = .ok a ∧ a.magnitude ≤ mu * (2 * p.magnitude / ρ ^ 3) := by
  have h1 := magnitude_minus_ge s p
  have h2 := p.magnitude_nonneg
  refine ⟨_, F64.thirdBody_exact mu (by linarith) (by linarith), ?_⟩
  rw [Vec3.magnitude_scaled_abs, abs_of_nonneg hmu]
  refine mul_le_mul_of_nonneg_left ?_ hmu
  have h3 := F64.field_lipschitz_sharp (a := s.minus p) (b := s) hρ (by linarith) (by linarith)
  have e : ((s.minus p).minus s).magnitude = p.magnitude := by
    rw [show (s.minus p).minus s = p.scaled (-1) by ext <;> simp [Vec3.minus, Vec3.scaled], Vec3.magnitude_scaled_abs]
    simp
  rwa [e] at h3

theorem moon_tidal (s : GCRF) (h : s.position.magnitude ≤ 300000) :
    ∃ a, s.accelerationFromMoon = .ok a ∧
      a.magnitude ≤ 2 * Moon.MU * s.position.magnitude / (356000 - s.position.magnitude) ^ 3 := by
  obtain ⟨m, hm, h1, -⟩ := C30_moon s.epoch
  obtain ⟨a, ha, hb⟩ := thirdBody_tidal (s := m) (p := s.position) (mu := Moon.MU)
    (ρ := 356000 - s.position.magnitude) (by norm_num [Moon.MU]) (by linarith) (by linarith)
  refine ⟨a, by simp only [GCRF.accelerationFromMoon, hm, ok_bind, ha], hb.trans (le_of_eq ?_)⟩
  ring

theorem sun_tidal (s : GCRF) (h : s.position.magnitude ≤ 300000) :
    ∃ a, s.accelerationFromSun = .ok a ∧ a.magnitude ≤ 8.5e-14 * s.position.magnitude := by
  have h1 := (C30_sun s.epoch).1
  norm_num at h1
  obtain ⟨a, ha, hb⟩ := thirdBody_tidal (s := Sun.getPosition s.epoch) (p := s.position) (mu := Sun.MU)
    (ρ := 146700000) (by norm_num [Sun.MU]) (by norm_num) (by linarith)
  refine ⟨a, ha, hb.trans ?_⟩
  have h2 := s.position.magnitude_nonneg
  norm_num [Sun.MU]
  linarith

theorem srp_size (s : GCRF) (h : s.position.magnitude ≤ 300000) :
    ∃ a, s.accelerationFromSrp = .ok a ∧ a.magnitude = 4.56e-9 * |s.srp_scalar| := by
  have h1 := (C30_sun s.epoch).1
  norm_num at h1
  have hp : s.position ≠ Sun.getPosition s.epoch := by intro e; rw [← e] at h1; linarith
  obtain ⟨h2, h3⟩ := srp_eq s hp
  refine ⟨_, h3, ?_⟩
  rw [Vec3.magnitude_scaled_abs, Vec3.magnitude_scaled_abs,
    abs_of_pos (by positivity : 0 < 1 / s.sunVector.magnitude), one_div, inv_mul_cancel₀ h2.ne', abs_div, abs_mul, abs_neg]
  norm_num [Sun.P]; ring

theorem gravity_square (s : GCRF) (h : 5000 ≤ s.position.magnitude)
    (hax : ∀ z, PositionConvert.gcrfToItrf s.position s.epoch ≠ .ok ⟨0, 0, z⟩) :
    ∃ a, s.accelerationFromGravity = .ok a ∧ a.magnitude ≤
      5.7e-3 * (Earth.RADIUS / s.position.magnitude) ^ 2 * (Earth.MU / s.position.magnitude ^ 2) := by
  obtain ⟨q, hq⟩ := gcrfToItrf_ok s.position s.epoch
  obtain ⟨h1, h2⟩ := gcrfToItrf_magnitude s.epoch hq
  have hxy : 0 < q.x * q.x + q.y * q.y := by
    by_contra hc
    have hx : q.x = 0 := by nlinarith [mul_self_nonneg q.x, mul_self_nonneg q.y]
    have hy : q.y = 0 := by nlinarith [mul_self_nonneg q.x, mul_self_nonneg q.y]
    exact hax q.z (by rw [hq]; congr 1; exact Vec3.ext hx hy rfl)
  obtain ⟨g, hg, hgb⟩ := gravityItrf_square q h hxy h1 h2
  obtain ⟨a, ha⟩ := itrfToGcrf_ok g s.epoch
  refine ⟨a, by simp only [GCRF.accelerationFromGravity, hq, ok_bind, hg, ha], ?_⟩
  obtain ⟨X, hX⟩ : ∃ X, X = (Earth.RADIUS / s.position.magnitude) ^ 2 * (Earth.MU / s.position.magnitude ^ 2) := ⟨_, rfl⟩
  have hX0 : 0 ≤ X := by
    rw [hX]; exact mul_nonneg (sq_nonneg _) (div_nonneg (by norm_num [Earth.MU]) (by positivity))
  have h3 := itrfToGcrf_magnitude_le _ ha
  rw [mul_assoc, ← hX] at hgb ⊢
  norm_num at h3 hgb ⊢
  linarith

/-- wherever the acceleration of a state is defined, from 5000 to 300 000 km from the centre of the Earth, it differs from
central attraction and thrust by no more than `Spec.perturbation` at its distance, and the radiation pressure -/
theorem C169_perturbation (s : GCRF) (hlo : 5000 ≤ s.position.magnitude) (hhi : s.position.magnitude ≤ 300000)
    (hax : ∀ z, PositionConvert.gcrfToItrf s.position s.epoch ≠ .ok ⟨0, 0, z⟩) :
    ∃ a, s.derivative = .ok (s.velocity, a) ∧
      ((a.minus s.thrust).minus (s.position.scaled (-Earth.MU / s.position.magnitude ^ 3))).magnitude ≤
        Spec.perturbation s.position.magnitude s.position.magnitude + 4.56e-9 * |s.srp_scalar| := by
  have hne : s.position ≠ ⟨0, 0, 0⟩ := Vec3.magnitude_pos.mp (by linarith)
  have he := accelerationFromEarth_ok hne
  obtain ⟨am, hm, bm⟩ := moon_tidal s hhi
  obtain ⟨as, hs, bs⟩ := sun_tidal s hhi
  obtain ⟨ap, hp, bp⟩ := srp_size s hhi
  obtain ⟨ag, hg, bg⟩ := gravity_square s hlo hax
  have hsr : 0 ≤ |s.srp_scalar| := abs_nonneg _
  obtain ⟨ae, hae⟩ : ∃ ae, ae = s.position.scaled (-Earth.MU / s.position.magnitude ^ 3) := ⟨_, rfl⟩
  rw [← hae] at he ⊢
  rw [Spec.perturbation]
  have ht : s.accelerationFromThrust = s.thrust := rfl
  cases hu : s.use_perturbations
  · refine ⟨s.thrust.plus ae, by simp [GCRF.derivative, he, hu, Vec3.copy, pure_eq_ok, ht], ?_⟩
    have e : ((s.thrust.plus ae).minus s.thrust).minus ae = ⟨0, 0, 0⟩ := by
      ext <;> simp only [Vec3.plus, Vec3.minus] <;> ring
    rw [e, Vec3.magnitude_eq_zero.mpr rfl]
    have c1 := ag.magnitude_nonneg
    have c2 := am.magnitude_nonneg
    have c3 := as.magnitude_nonneg
    have c4 := ap.magnitude_nonneg
    rw [← bp]
    linarith
  · refine ⟨((((s.thrust.plus ae).plus am).plus as).plus ap).plus ag, by
      simp [GCRF.derivative, he, hm, hs, hp, hg, hu, Vec3.copy, pure_eq_ok, ht], ?_⟩
    have e : ((((((s.thrust.plus ae).plus am).plus as).plus ap).plus ag).minus s.thrust).minus ae =
        ((am.plus as).plus ap).plus ag := by
      ext <;> simp only [Vec3.plus, Vec3.minus] <;> ring
    rw [e]
    have b2 := Vec3.magnitude_plus_le am as
    have b3 := Vec3.magnitude_plus_le (am.plus as) ap
    have b4 := Vec3.magnitude_plus_le ((am.plus as).plus ap) ag
    rw [← bp]
    linarith

theorem perturbation_mono {lo r hi : ℝ} (h0 : 0 < lo) (h1 : lo ≤ r) (h2 : r ≤ hi) (h3 : hi ≤ 300000) :
    Spec.perturbation r r ≤ Spec.perturbation lo hi := by
  have e1 : (0 : ℝ) < Earth.RADIUS := by norm_num [Earth.RADIUS]
  have e2 : (0 : ℝ) < Earth.MU := by norm_num [Earth.MU]
  have e3 : (0 : ℝ) < Moon.MU := by norm_num [Moon.MU]
  rw [Spec.perturbation, Spec.perturbation]
  have h4 : 0 < r := by linarith
  have h5 : 0 < hi := by linarith
  have a1 : 5.7e-3 * (Earth.RADIUS / r) ^ 2 * (Earth.MU / r ^ 2) ≤
      5.7e-3 * (Earth.RADIUS / lo) ^ 2 * (Earth.MU / lo ^ 2) := by gcongr
  have a2 : 2 * Moon.MU * r / (356000 - r) ^ 3 ≤ 2 * Moon.MU * hi / (356000 - hi) ^ 3 := by
    have : 0 < 356000 - hi := by linarith
    gcongr
  linarith

/-! ## C170 -/

namespace Perturbed

/-- also at a midnight, the rate of change after it is what `derivative()` returns -/
theorem right (p : RK4) (hoff : p.m_dot = 0) {y : ℝ → Spec.Phase} {a b : ℝ} (hy : p.Flight y a b) {s : ℝ} (h1 : a < s)
    (h2 : s < b) {r v : Vec3} (hrv : y s = Spec.phase r v) (hr : r.magnitude ≤ 350000)
    (hax : ∀ z, PositionConvert.gcrfToItrf r (p.state.epoch.plusDays (s / 86400)) ≠ .ok ⟨0, 0, z⟩) :
    ∃ d, (GCRF.new (p.state.epoch.plusDays (s / 86400)) r v).derivative = .ok d ∧
      HasDerivWithinAt y (Spec.phase d.1 d.2) (Set.Ici s) s := by
  obtain ⟨f, hf⟩ := exists_represents p
  have thr : ∀ x T, p.thrustVector x = .ok T → T = ⟨0, 0, 0⟩ := fun x T hT => by
    rw [C43_off p x hoff] at hT; cases hT; rfl
  by_cases hmid : ∀ k : ℤ, p.state.epoch.value + s / 86400 - 69.184 / 86400 ≠ k
  · obtain ⟨r', v', T, d, b1, b2, b3, b4⟩ := hy.motion s h1 h2 hmid
    have e1 : Spec.phase r v = Spec.phase r' v' := hrv.symm.trans b1
    have e2 : r = r' := by rw [← ofFun_toFun r, ← ofFun_toFun r']; exact congrArg (fun z => ofFun z.1) e1
    have e3 : v = v' := by rw [← ofFun_toFun v, ← ofFun_toFun v']; exact congrArg (fun z => ofFun z.2) e1
    rw [thr s T b2, ← e2, ← e3] at b3
    exact ⟨d, b3, b4.hasDerivWithinAt⟩
  · push Not at hmid
    obtain ⟨k, hk⟩ := hmid
    obtain ⟨g, sg, eg⟩ := Routes.force_day p f hf hoff s r v k hr hax
    rw [← hrv] at sg eg
    have cy := hy.cont s h1 h2
    have ty : Tendsto (fun x => (x, y x)) (𝓝 s) (𝓝 ((s, y s) : ℝ × Spec.Phase)) := continuousAt_id.prodMk cy
    have hline : ContinuousAt (fun s : ℝ => p.state.epoch.value + s / 86400 - 69.184 / 86400) s := by fun_prop
    have hday : ∀ᶠ x in 𝓝 s, s ≤ x → x < s + 86400 ∧ Spec.utcDay (p.state.epoch.plusDays (x / 86400)) = k := by
      have h3 := Routes.floor_near (p.state.epoch.value + s / 86400 - 69.184 / 86400) (by rw [hk, Int.floor_intCast])
      filter_upwards [hline.eventually h3, gt_mem_nhds (show s < s + 86400 by linarith)] with x hx hx'
      rw [hk, Int.floor_intCast] at hx
      intro h
      exact ⟨hx', hx.2 (by linarith)⟩
    have here := (eg.self_of_nhds) (hday.self_of_nhds le_rfl).2
    obtain ⟨⟨T, d, c1, c2, c3⟩, c4⟩ := here
    simp only at c1 c2 c3 c4
    rw [thr s T c1, hrv] at c3
    refine ⟨d, c3, ?_⟩
    rw [← c2, c4]
    have ode : ∀ᶠ x in 𝓝[>] s, HasDerivAt y (g (x, y x)) x := by
      rw [eventually_nhdsWithin_iff]
      filter_upwards [hday, ty.eventually eg, Ioo_mem_nhds h1 h2] with x d1 d2 d3 d4
      have d4' : s < x := d4
      obtain ⟨d5, d6⟩ := d1 d4'.le
      have d7 := (d2 d6).2
      rw [← d7]
      obtain ⟨r', v', T', d', b1, b2, b3, b4⟩ := hy.motion x d3.1 d3.2 (fun j hj => by
        rw [Spec.utcDay, Int.floor_eq_iff] at d6
        simp only [Epoch.plusDays] at d6
        have e : (x - s) / 86400 = ((j - k : ℤ) : ℝ) := by push_cast; rw [← hj, ← hk]; ring
        have e1 : (0 : ℝ) < ((j - k : ℤ) : ℝ) := by rw [← e]; apply div_pos <;> linarith
        have e2 : ((j - k : ℤ) : ℝ) < ((1 : ℤ) : ℝ) := by rw [← e, Int.cast_one]; linarith
        have e3 : 0 < j - k := by exact_mod_cast e1
        have e4 : j - k < 1 := by exact_mod_cast e2
        omega)
      rw [b1, hf x r' v' T' d' b2 b3]
      exact b4
    refine hasDerivWithinAt_Ici_of_tendsto_deriv (s := {x | s < x ∧ HasDerivAt y (g (x, y x)) x})
      (fun x hx => hx.2.differentiableAt.differentiableWithinAt) cy.continuousWithinAt ?_ ?_
    · filter_upwards [ode, self_mem_nhdsWithin] with x hx hx'
      exact ⟨hx', hx⟩
    · have lim : Tendsto (fun x => g (x, y x)) (𝓝[>] s) (𝓝 (g (s, y s))) :=
        (sg.continuousAt.tendsto.comp ty).mono_left nhdsWithin_le_nhds
      refine lim.congr' ?_
      filter_upwards [ode] with x hx
      exact hx.deriv.symm

/-- the two halves of phase space, with the Euclidean norm -/
noncomputable def pos (x : Spec.Phase) : EuclideanSpace ℝ (Fin 3) := WithLp.toLp 2 x.1
noncomputable def vel (x : Spec.Phase) : EuclideanSpace ℝ (Fin 3) := WithLp.toLp 2 x.2

theorem pos_phase (r v : Vec3) : pos (Spec.phase r v) = r.toE := rfl
theorem vel_phase (r v : Vec3) : vel (Spec.phase r v) = v.toE := rfl

theorem pos_deriv {y : ℝ → Spec.Phase} {y' : Spec.Phase} {S : Set ℝ} {s : ℝ} (h : HasDerivWithinAt y y' S s) :
    HasDerivWithinAt (fun s => pos (y s)) (pos y') S s := by
  have := ((EuclideanSpace.equiv (Fin 3) ℝ).symm.toContinuousLinearMap.comp
    (ContinuousLinearMap.fst ℝ (Fin 3 → ℝ) (Fin 3 → ℝ))).hasFDerivAt.comp_hasDerivWithinAt s h
  exact this

theorem vel_deriv {y : ℝ → Spec.Phase} {y' : Spec.Phase} {S : Set ℝ} {s : ℝ} (h : HasDerivWithinAt y y' S s) :
    HasDerivWithinAt (fun s => vel (y s)) (vel y') S s := by
  have := ((EuclideanSpace.equiv (Fin 3) ℝ).symm.toContinuousLinearMap.comp
    (ContinuousLinearMap.snd ℝ (Fin 3 → ℝ) (Fin 3 → ℝ))).hasFDerivAt.comp_hasDerivWithinAt s h
  exact this

theorem pos_cont : Continuous pos := by
  have := ((EuclideanSpace.equiv (Fin 3) ℝ).symm.toContinuousLinearMap.comp
    (ContinuousLinearMap.fst ℝ (Fin 3 → ℝ) (Fin 3 → ℝ))).continuous
  exact this

theorem vel_cont : Continuous vel := by
  have := ((EuclideanSpace.equiv (Fin 3) ℝ).symm.toContinuousLinearMap.comp
    (ContinuousLinearMap.snd ℝ (Fin 3 → ℝ) (Fin 3 → ℝ))).continuous
  exact this

/-- the attraction of the Earth's centre at two points outside a sphere -/
theorem attraction_sharp {a b : Vec3} {R : ℝ} (hR : 0 < R) (ha : R ≤ a.magnitude) (hb : R ≤ b.magnitude) :
    ((a.scaled (-Earth.MU / a.magnitude ^ 3)).minus (b.scaled (-Earth.MU / b.magnitude ^ 3))).magnitude ≤
      2 * Earth.MU / R ^ 3 * (a.minus b).magnitude := by
  have e : ∀ v : Vec3, v.scaled (-Earth.MU / v.magnitude ^ 3) = (F64.field v).scaled (-Earth.MU) := by
    intro v
    ext <;> simp only [F64.field, Vec3.scaled] <;> ring
  have hM : 0 < Earth.MU := by norm_num [Earth.MU]
  rw [e, e, F64.scaled_minus, abs_neg, abs_of_pos hM]
  have := mul_le_mul_of_nonneg_left (F64.field_lipschitz_sharp hR ha hb) hM.le
  refine this.trans (le_of_eq ?_)
  ring

theorem minus_swap (a b : Vec3) : (a.minus b).magnitude = (b.minus a).magnitude := by
  rw [Vec3.magnitude, Vec3.magnitude]
  congr 1
  simp only [Vec3.minus]
  ring

/-- the maximum norm of phase space bounds positions and velocities -/
theorem of_phase {r v r' v' : Vec3} {δ : ℝ} (h : ‖Spec.phase r v - Spec.phase r' v'‖ ≤ δ) :
    (r.minus r').magnitude ≤ 2 * δ ∧ (v.minus v').magnitude ≤ 2 * δ := by
  rw [Prod.norm_def, max_le_iff] at h
  have h1 := fun i => (norm_le_pi_norm (Spec.phase r v - Spec.phase r' v').1 i).trans h.1
  have h2 := fun i => (norm_le_pi_norm (Spec.phase r v - Spec.phase r' v').2 i).trans h.2
  have key : ∀ e : Vec3, |e.x| ≤ δ → |e.y| ≤ δ → |e.z| ≤ δ → e.magnitude ≤ 2 * δ := fun e a1 a2 a3 => by
    refine Real.sqrt_le_iff.mpr ⟨by linarith [abs_nonneg e.x], ?_⟩
    rw [abs_le] at a1 a2 a3
    nlinarith
  exact ⟨key (r.minus r') (h1 0) (h1 1) (h1 2), key (v.minus v') (h2 0) (h2 1) (h2 2)⟩

end Perturbed

/-- a motion of the library drifts away from the two-body motion with the same start no faster than a constant
acceleration of the size of the perturbations, and the growth of the distance itself, would explain -/
theorem perturbed_drift (p : RK4) (hoff : p.m_dot = 0) (y : ℝ → Spec.Phase) (a b T lo hi : ℝ) (hy : p.Flight y a b)
    (hTb : T < b) (hlo : 5000 ≤ lo) (hhi : hi ≤ 300000)
    (hr : ∀ s ∈ Set.Icc 0 T, ∀ r v, y s = Spec.phase r v → lo ≤ r.magnitude ∧ r.magnitude ≤ hi ∧
      ∀ z, PositionConvert.gcrfToItrf r (p.state.epoch.plusDays (s / 86400)) ≠ .ok ⟨0, 0, z⟩)
    (k : ℝ → State) (hk : Spec.TwoBody Earth.MU Set.univ (fun t => (k t).position.toE) (fun t => (k t).velocity.toE))
    (hk1 : (k 0).position = p.state.position) (hk2 : (k 0).velocity = p.state.velocity)
    (hk3 : ∀ s ∈ Set.Icc 0 T, lo ≤ (k s).position.magnitude) (w ε : ℝ) (hw : w = √(2 * Earth.MU / lo ^ 3))
    (hε : ε = Spec.perturbation lo hi) :
    ∀ s ∈ Set.Icc 0 T, ∀ r v, y s = Spec.phase r v →
      (v.minus (k s).velocity).magnitude ≤ ε / w * (exp (w * s) - 1) ∧
      (r.minus (k s).position).magnitude ≤ ε / w ^ 2 * (exp (w * s) - 1 - w * s) := by
  have hM : 0 < Earth.MU := by norm_num [Earth.MU]
  have hlo0 : 0 < lo := by linarith
  have hw0 : 0 < w := by rw [hw]; positivity
  have hw2 : w ^ 2 = 2 * Earth.MU / lo ^ 3 := by rw [hw]; exact Real.sq_sqrt (by positivity)
  have split : ∀ s, ∃ r v, y s = Spec.phase r v := fun s =>
    ⟨ofFun (y s).1, ofFun (y s).2, by simp only [Spec.phase, toFun_ofFun]⟩
  have in_ab : ∀ s ∈ Set.Icc 0 T, a < s ∧ s < b := fun s hs => ⟨by linarith [hy.before, hs.1], by linarith [hs.2]⟩
  have key : ∀ s ∈ Set.Ico 0 T, ∃ c, HasDerivWithinAt (fun s => Perturbed.pos (y s) - (k s).position.toE)
      (Perturbed.vel (y s) - (k s).velocity.toE) (Set.Ici s) s ∧
      HasDerivWithinAt (fun s => Perturbed.vel (y s) - (k s).velocity.toE) c (Set.Ici s) s ∧
      ‖c‖ ≤ w ^ 2 * ‖Perturbed.pos (y s) - (k s).position.toE‖ + ε := by
    intro s hs
    have hs' : s ∈ Set.Icc 0 T := ⟨hs.1, hs.2.le⟩
    obtain ⟨r, v, hrv⟩ := split s
    obtain ⟨g1, g2, g3⟩ := hr s hs' r v hrv
    obtain ⟨d, hd, hder⟩ := Perturbed.right p hoff hy (in_ab s hs').1 (in_ab s hs').2 hrv (by linarith) g3
    obtain ⟨acc, hacc, hbound⟩ := C169_perturbation (GCRF.new (p.state.epoch.plusDays (s / 86400)) r v)
      (show 5000 ≤ r.magnitude by linarith) (show r.magnitude ≤ 300000 by linarith) g3
    cases hd.symm.trans hacc
    have hbound' : ((acc.minus ⟨0, 0, 0⟩).minus (r.scaled (-Earth.MU / r.magnitude ^ 3))).magnitude ≤
        Spec.perturbation r.magnitude r.magnitude + 4.56e-9 * |(0 : ℝ)| := hbound
    rw [abs_zero, mul_zero, add_zero, show acc.minus ⟨0, 0, 0⟩ = acc by ext <;> simp [Vec3.minus]] at hbound'
    have hb2 := hbound'.trans (perturbation_mono hlo0 g1 g2 hhi)
    have hv := Perturbed.pos_deriv hder
    have ha := Perturbed.vel_deriv hder
    have kv := (hk.velocity s trivial).hasDerivWithinAt (s := Set.Ici s)
    have ka := (hk.attraction s trivial).hasDerivWithinAt (s := Set.Ici s)
    refine ⟨_, ?_, ha.sub ka, ?_⟩
    · have := hv.sub kv
      rw [Perturbed.pos_phase] at this
      rw [hrv, Perturbed.vel_phase]
      exact this
    · rw [Perturbed.vel_phase, hrv, Perturbed.pos_phase, hw2]
      have e1 : -(Earth.MU / ‖(k s).position.toE‖ ^ 3) • (k s).position.toE =
          ((k s).position.scaled (-Earth.MU / (k s).position.magnitude ^ 3)).toE := by
        rw [Vec3.norm_toE, toE_scaled]; congr 1; ring
      rw [e1, ← toE_minus, ← toE_minus, Vec3.norm_toE, Vec3.norm_toE]
      have t1 := Perturbed.attraction_sharp hlo0 g1 (hk3 s hs')
      have t2 := Vec3.magnitude_plus_le (acc.minus (r.scaled (-Earth.MU / r.magnitude ^ 3)))
        ((r.scaled (-Earth.MU / r.magnitude ^ 3)).minus ((k s).position.scaled (-Earth.MU / (k s).position.magnitude ^ 3)))
      rw [show (acc.minus (r.scaled (-Earth.MU / r.magnitude ^ 3))).plus
        ((r.scaled (-Earth.MU / r.magnitude ^ 3)).minus ((k s).position.scaled (-Earth.MU / (k s).position.magnitude ^ 3))) =
        acc.minus ((k s).position.scaled (-Earth.MU / (k s).position.magnitude ^ 3)) by
          ext <;> simp [Vec3.plus, Vec3.minus]] at t2
      rw [hε]
      linarith
  have cy : ∀ s ∈ Set.Icc 0 T, ContinuousAt y s := fun s hs => hy.cont s (in_ab s hs).1 (in_ab s hs).2
  intro s₀ hs₀ r₀ v₀ hrv₀
  have fin := drift (E := EuclideanSpace ℝ (Fin 3)) (x := fun s => Perturbed.pos (y s) - (k s).position.toE)
    (u := fun s => Perturbed.vel (y s) - (k s).velocity.toE) (T := T) (w := w) (ε := ε)
    (c := fun s => if h : s ∈ Set.Ico 0 T then (key s h).choose else 0) hw0
    (by
      rw [hε, Spec.perturbation]
      obtain ⟨g1, g2, -⟩ := hr s₀ hs₀ r₀ v₀ hrv₀
      have h1 : 0 < hi := by linarith
      have h2 : 0 < 356000 - hi := by linarith
      have h3 : 0 < Moon.MU := by norm_num [Moon.MU]
      positivity)
    (fun s hs => ((Perturbed.pos_cont.continuousAt.comp (cy s hs)).sub
      (hk.velocity s trivial).continuousAt).continuousWithinAt)
    (fun s hs => ((Perturbed.vel_cont.continuousAt.comp (cy s hs)).sub
      (hk.attraction s trivial).continuousAt).continuousWithinAt)
    (fun s hs => (key s hs).choose_spec.1)
    (fun s hs => by
      simp only [hs, dif_pos]
      exact (key s hs).choose_spec.2.1)
    (by simp only [hy.start, Perturbed.pos_phase, hk1, sub_self])
    (by simp only [hy.start, Perturbed.vel_phase, hk2, sub_self])
    (fun s hs => by
      simp only [hs, dif_pos]
      exact (key s hs).choose_spec.2.2)
  have := fin s₀ hs₀
  simp only [hrv₀, Perturbed.pos_phase, Perturbed.vel_phase, ← toE_minus, Vec3.norm_toE] at this
  exact this

/-- **C170**: along a motion under the library's full force law without thrust that, from the epoch of the state to `T`
seconds later, stays between `lo ≥ 5000` and `hi ≤ 300000` km from the centre of the Earth and off the Earth's axis: take
the elements `from_ijk` returns for the state, whose perigee must not be below `lo`, and advance their mean anomaly by
`sqrt(mu / a³)` times the time. What `to_ijk` then returns differs from the perturbed motion by at most
`ε/w² (e^(ws) - 1 - ws)` in position and `ε/w (e^(ws) - 1)` in velocity, besides the tolerance of the solver of Kepler's
equation, where `ε` bounds the perturbations and `w² = 2 mu / lo³`. -/
theorem C170_prediction (p : RK4) (hoff : p.m_dot = 0) (y : ℝ → Spec.Phase) (a b T lo hi : ℝ) (hy : p.Flight y a b)
    (hT : 0 ≤ T) (hTb : T < b) (hlo : 5000 ≤ lo) (hhi : hi ≤ 300000)
    (hr : ∀ s ∈ Set.Icc 0 T, ∀ r v, y s = Spec.phase r v → lo ≤ r.magnitude ∧ r.magnitude ≤ hi ∧
      ∀ z, PositionConvert.gcrfToItrf r (p.state.epoch.plusDays (s / 86400)) ≠ .ok ⟨0, 0, z⟩)
    (hb : p.state.velocity.magnitude ^ 2 / 2 < Earth.MU / p.state.position.magnitude)
    (hp : (p.state.position.cross p.state.velocity).x ≠ 0 ∨ (p.state.position.cross p.state.velocity).y ≠ 0)
    (w ε : ℝ) (hw : w = √(2 * Earth.MU / lo ^ 3)) (hε : ε = Spec.perturbation lo hi) :
    ∃ el0, ClassicalElements.fromIjk p.state.toState = .ok el0 ∧
      (lo ≤ el0.semimajor_axis * (1 - el0.eccentricity) → ∀ s ∈ Set.Icc 0 T, ∀ r v, y s = Spec.phase r v →
        ∀ (k : ℤ) (m : ℝ), m = el0.mean_anomaly + √(Earth.MU / el0.semimajor_axis ^ 3) * s + 2 * π * k →
        -(2 * π) ≤ m → m ≤ 2 * π →
        ∃ s' N, (∀ fuel, N ≤ fuel → ({el0 with mean_anomaly := m} : ClassicalElements).toIjk fuel = .ok s') ∧
          (s'.position.minus r).magnitude ≤ ε / w ^ 2 * (exp (w * s) - 1 - w * s) +
            el0.semimajor_axis * (5e-25 / (1 - el0.eccentricity)) ∧
          (s'.velocity.minus v).magnitude ≤ ε / w * (exp (w * s) - 1) +
            √(Earth.MU / el0.semimajor_axis) * (5e-25 / (1 - el0.eccentricity) ^ 3)) := by
  have hh : p.state.position.cross p.state.velocity ≠ ⟨0, 0, 0⟩ := by
    intro h; rw [h] at hp; simp at hp
  obtain ⟨k0, hk0, e1, e2⟩ := exists_motion p.state.toState hh hb 0
  obtain ⟨k, hk⟩ : ∃ k : ℝ → State, k = fun t =>
    { p.state.toState with position := (k0 t).position, velocity := (k0 t).velocity } := ⟨_, rfl⟩
  have hkm : Spec.TwoBody Earth.MU Set.univ (fun t => (k t).position.toE) (fun t => (k t).velocity.toE) := by
    rw [hk]; exact hk0
  have hk00 : k 0 = p.state.toState := by
    rw [hk]
    simp only [e1, e2]
  obtain ⟨el0, h0, hpred⟩ := C125_prediction k Set.univ Set.ordConnected_univ hkm 0 trivial (by rw [hk00]; exact hb)
    (by rw [hk00]; exact hp)
  refine ⟨el0, by rw [← hk00]; exact h0, fun hper s hs r v hrv j m hm m1 m2 => ?_⟩
  obtain ⟨s', N, hN, d1, d2⟩ := hpred s trivial j m (by rw [sub_zero]; exact hm) m1 m2
  obtain ⟨d3, d4⟩ := perturbed_drift p hoff y a b T lo hi hy hTb hlo hhi hr k hkm (by rw [hk00]) (by rw [hk00])
    (fun t _ => by
      obtain ⟨ha, he, he', E, _, _, hpos, _⟩ := motion_of_elements Set.ordConnected_univ hkm (t := t) trivial
        (t0 := 0) trivial (by rw [hk00]; exact hp) (by rw [hk00]; exact hb) h0
      rw [hpos, Gauss.orbitPos_mag ha he he']
      refine hper.trans (mul_le_mul_of_nonneg_left ?_ ha.le)
      nlinarith [Real.cos_le_one E]) w ε hw hε s hs r v hrv
  refine ⟨s', N, hN, ?_, ?_⟩
  · have t := Vec3.magnitude_plus_le (s'.position.minus (k s).position) ((k s).position.minus r)
    rw [show (s'.position.minus (k s).position).plus ((k s).position.minus r) = s'.position.minus r by
      ext <;> simp [Vec3.plus, Vec3.minus], Perturbed.minus_swap (k s).position] at t
    linarith
  · have t := Vec3.magnitude_plus_le (s'.velocity.minus (k s).velocity) ((k s).velocity.minus v)
    rw [show (s'.velocity.minus (k s).velocity).plus ((k s).velocity.minus v) = s'.velocity.minus v by
      ext <;> simp [Vec3.plus, Vec3.minus], Perturbed.minus_swap (k s).velocity] at t
    linarith

/-- **C170**, for the propagator: without solar radiation pressure or thrust, the states that `N` steps of `T / N` seconds
end in are, for every large enough `N`, within the same bounds of the state that `to_ijk` returns for the advanced mean
anomaly, up to any tolerance `η`. -/
theorem C170_propagation (p : RK4) (hsrp : p.state.srp_scalar = 0) (hpert : p.state.use_perturbations = true)
    (hoff : p.m_dot = 0) (y : ℝ → Spec.Phase) (a b T lo hi : ℝ) (hy : p.Flight y a b)
    (hT : 0 ≤ T) (hTb : T < b) (hlo : 5000 ≤ lo) (hhi : hi ≤ 300000)
    (hr : ∀ s ∈ Set.Icc 0 T, ∀ r v, y s = Spec.phase r v → lo ≤ r.magnitude ∧ r.magnitude ≤ hi ∧
      ∀ z, PositionConvert.gcrfToItrf r (p.state.epoch.plusDays (s / 86400)) ≠ .ok ⟨0, 0, z⟩)
    (hb : p.state.velocity.magnitude ^ 2 / 2 < Earth.MU / p.state.position.magnitude)
    (hp : (p.state.position.cross p.state.velocity).x ≠ 0 ∨ (p.state.position.cross p.state.velocity).y ≠ 0)
    (w ε : ℝ) (hw : w = √(2 * Earth.MU / lo ^ 3)) (hε : ε = Spec.perturbation lo hi) :
    ∃ el0, ClassicalElements.fromIjk p.state.toState = .ok el0 ∧
      (lo ≤ el0.semimajor_axis * (1 - el0.eccentricity) →
        ∀ (k : ℤ) (m : ℝ), m = el0.mean_anomaly + √(Earth.MU / el0.semimajor_axis ^ 3) * T + 2 * π * k →
        -(2 * π) ≤ m → m ≤ 2 * π →
        ∃ s' F, (∀ fuel, F ≤ fuel → ({el0 with mean_anomaly := m} : ClassicalElements).toIjk fuel = .ok s') ∧
          ∀ η > 0, ∃ N0, 0 < N0 ∧ ∀ N : ℕ, N0 ≤ N → ∃ q,
            PyM.repeatN N RK4.step { p with step_size := T / N } = (.ok (), q) ∧
            q.state.epoch = p.state.epoch.plusDays (T / 86400) ∧
            (s'.position.minus q.state.position).magnitude ≤ ε / w ^ 2 * (exp (w * T) - 1 - w * T) +
              el0.semimajor_axis * (5e-25 / (1 - el0.eccentricity)) + η ∧
            (s'.velocity.minus q.state.velocity).magnitude ≤ ε / w * (exp (w * T) - 1) +
              √(Earth.MU / el0.semimajor_axis) * (5e-25 / (1 - el0.eccentricity) ^ 3) + η) := by
  obtain ⟨el0, h0, hpred⟩ := C170_prediction p hoff y a b T lo hi hy hT hTb hlo hhi hr hb hp w ε hw hε
  refine ⟨el0, h0, fun hper k m hm m1 m2 => ?_⟩
  obtain ⟨r, v, hrv⟩ : ∃ r v, y T = Spec.phase r v :=
    ⟨ofFun (y T).1, ofFun (y T).2, by simp only [Spec.phase, toFun_ofFun]⟩
  obtain ⟨s', F, hF, d1, d2⟩ := hpred hper T ⟨hT, le_rfl⟩ r v hrv k m hm m1 m2
  refine ⟨s', F, hF, fun η hη => ?_⟩
  obtain ⟨C, N1, hN1, hconv⟩ := C168_convergence p hsrp hpert hoff y a b T hy (by linarith [hy.before]) hTb
    (fun s hs r v hrv => by
      rw [Set.uIcc_of_le hT] at hs
      obtain ⟨g1, g2, g3⟩ := hr s hs r v hrv
      exact ⟨by linarith, g3⟩)
  obtain ⟨D, hD⟩ : ∃ D : ℤ, D = |Spec.utcDay (p.state.epoch.plusDays (T / 86400)) - Spec.utcDay p.state.epoch| := ⟨_, rfl⟩
  have lim : Tendsto (fun N : ℕ => C * (|T / N| ^ 4 + D * |T / N|)) atTop (𝓝 (C * (|(0 : ℝ)| ^ 4 + D * |(0 : ℝ)|))) := by
    have h1 : Tendsto (fun N : ℕ => |T / (N : ℝ)|) atTop (𝓝 |0|) := (tendsto_const_div_atTop_nhds_zero_nat T).abs
    exact ((h1.pow 4).add (h1.const_mul _)).const_mul _
  have small : ∀ᶠ N : ℕ in atTop, C * (|T / N| ^ 4 + D * |T / N|) < η / 2 :=
    lim.eventually (gt_mem_nhds (by simp; linarith))
  obtain ⟨N2, hN2⟩ := eventually_atTop.mp small
  refine ⟨max N1 N2, lt_max_of_lt_left hN1, fun N hN => ?_⟩
  have hNpos : (0 : ℝ) < N := by exact_mod_cast (by omega : 0 < N)
  obtain ⟨q, q1, q2, q3⟩ := hconv N ((le_max_left _ _).trans hN) N le_rfl
  have e : N * (T / N) = T := by field_simp
  rw [e] at q2 q3
  rw [q2, hrv] at q3
  have q4 := hN2 N ((le_max_right _ _).trans hN)
  rw [hD] at q4
  obtain ⟨q5, q6⟩ := Perturbed.of_phase (q3.trans (by exact_mod_cast q4.le))
  refine ⟨q, q1, q2, ?_, ?_⟩
  · have t := Vec3.magnitude_plus_le (s'.position.minus r) (r.minus q.state.position)
    rw [show (s'.position.minus r).plus (r.minus q.state.position) = s'.position.minus q.state.position by
      ext <;> simp [Vec3.plus, Vec3.minus], Perturbed.minus_swap r] at t
    linarith
  · have t := Vec3.magnitude_plus_le (s'.velocity.minus v) (v.minus q.state.velocity)
    rw [show (s'.velocity.minus v).plus (v.minus q.state.velocity) = s'.velocity.minus q.state.velocity by
      ext <;> simp [Vec3.plus, Vec3.minus], Perturbed.minus_swap v] at t
    linarith

/-! ## a geosynchronous orbit inclined by about eleven degrees, starting at a midnight -/

noncomputable def geoTilted : RK4 := RK4.new (GCRF.new ⟨59932 + 69.184 / 86400⟩ ⟨42164, 0, 0⟩ ⟨0, 3, 0.6⟩)

theorem geoTilted_flight : ∃ (y : ℝ → Spec.Phase) (a b T : ℝ), 0 < T ∧ T ≤ 3600 ∧ geoTilted.Flight y a b ∧ T < b ∧
    ∀ s ∈ Set.Icc 0 T, ∀ r v, y s = Spec.phase r v → 40000 ≤ r.magnitude ∧ r.magnitude ≤ 43000 ∧
      ∀ z, PositionConvert.gcrfToItrf r (geoTilted.state.epoch.plusDays (s / 86400)) ≠ .ok ⟨0, 0, z⟩ := by
  have hnear := geoNoon_near (r := geoTilted.state.position) (t := geoTilted.state.epoch)
    (by show |(42164 : ℝ) - 42164| < 100; norm_num) (by show |(0 : ℝ)| < 100; norm_num)
    (by show |(0 : ℝ)| < 100; norm_num) (by
      have := geoMidnight_centuries (s := 0) (by norm_num)
      rwa [plusDays_zero] at this)
  obtain ⟨y, l, u, hy⟩ := C168_exists geoTilted rfl hnear.1 hnear.2
  obtain ⟨e, he, hball⟩ := Metric.continuousAt_iff.mp (hy.cont 0 hy.before hy.after) 100 (by norm_num)
  obtain ⟨S, hS⟩ : ∃ S, S = min (min (e / 2) (u / 2)) 3600 := ⟨_, rfl⟩
  have hu := hy.after
  have S0 : 0 < S := by rw [hS]; exact lt_min (lt_min (by linarith) (by linarith)) (by norm_num)
  have S1 : S ≤ e / 2 := by rw [hS]; exact (min_le_left _ _).trans (min_le_left _ _)
  have S2 : S ≤ u / 2 := by rw [hS]; exact (min_le_left _ _).trans (min_le_right _ _)
  have S3 : S ≤ 3600 := by rw [hS]; exact min_le_right _ _
  refine ⟨y, l, u, S, S0, S3, hy, by linarith, fun s hs r v hrv => ?_⟩
  have hsS : |s| ≤ S := by rw [abs_of_nonneg hs.1]; exact hs.2
  have hn := hball (x := s) (by rw [Real.dist_eq, sub_zero]; linarith)
  rw [hrv, hy.start, Prod.dist_eq, max_lt_iff] at hn
  have h3 := fun i => (dist_le_pi_dist (Spec.phase r v).1
    (Spec.phase geoTilted.state.position geoTilted.state.velocity).1 i).trans_lt hn.1
  have hx : |r.x - 42164| < 100 := h3 0
  have hy' : |r.y| < 100 := by
    have := h3 1
    rw [Real.dist_eq] at this
    have e0 : (Spec.phase geoTilted.state.position geoTilted.state.velocity).1 1 = 0 := rfl
    rw [e0, sub_zero] at this
    exact this
  have hz : |r.z| < 100 := by
    have := h3 2
    rw [Real.dist_eq] at this
    have e0 : (Spec.phase geoTilted.state.position geoTilted.state.velocity).1 2 = 0 := rfl
    rw [e0, sub_zero] at this
    exact this
  have near := geoNoon_near hx hy' hz (geoMidnight_centuries (s := s) (hsS.trans S3))
  rw [abs_lt] at hx hy' hz
  have m2 := Vec3.magnitude_sq r
  have m0 := r.magnitude_nonneg
  refine ⟨?_, ?_, near.2⟩
  · refine le_of_sq_le_sq ?_ m0
    nlinarith [sq_nonneg r.y, sq_nonneg r.z]
  · refine le_of_sq_le_sq ?_ (by norm_num)
    nlinarith [sq_nonneg r.y, sq_nonneg r.z]

theorem geoTilted_elements {el : ClassicalElements} (h : ClassicalElements.fromIjk geoTilted.state.toState = .ok el) :
    41000 ≤ el.semimajor_axis * (1 - el.eccentricity) ∧ el.semimajor_axis ≤ 41800 ∧ el.eccentricity ≤ 1 / 2 ∧
      el.semimajor_axis * (1 + el.eccentricity) ≤ 42400 := by
  have hr : geoTilted.state.position.magnitude = 42164 := by
    apply Vec3.magnitude_of_dot (by norm_num)
    show (42164 : ℝ) * 42164 + 0 * 0 + 0 * 0 = 42164 ^ 2
    norm_num
  have hv : geoTilted.state.velocity.magnitude ^ 2 = 9.36 := by
    rw [Vec3.magnitude_sq]
    show (0 : ℝ) * 0 + 3 * 3 + 0.6 * 0.6 = 9.36
    norm_num
  have hd : geoTilted.state.position.dot geoTilted.state.velocity = 0 := by
    show (42164 : ℝ) * 0 + 0 * 3 + 0 * 0.6 = 0
    norm_num
  obtain ⟨el', E, -, -, h', -, a0, e0, e1, en, em, ed, -⟩ := fromIjk_bound geoTilted.state.toState
    (fun h => by
      have : (42164 : ℝ) = 0 := congrArg Vec3.x h
      norm_num at this)
    (fun h => by
      have : (0 : ℝ) * 0 - 42164 * 0.6 = 0 := congrArg Vec3.y h
      norm_num at this)
    (by rw [hr, hv]; norm_num [Earth.MU])
  cases h.symm.trans h'
  rw [hr] at em
  rw [hr, hv] at en
  rw [hd] at ed
  have es : el.eccentricity * sin E = 0 := by
    have : √(Earth.MU * el.semimajor_axis) ≠ 0 := by
      have : 0 < Earth.MU := by norm_num [Earth.MU]
      positivity
    exact (mul_eq_zero.mp ed.symm).resolve_left this
  have ha : (9.36 * 42164 - 2 * Earth.MU) * el.semimajor_axis = -(Earth.MU * 42164) := by
    field_simp at en
    linarith
  norm_num [Earth.MU] at ha
  have b1 : 41700 ≤ el.semimajor_axis := by linarith
  have b2 : el.semimajor_axis ≤ 41800 := by linarith
  have esq : (el.eccentricity * cos E) ^ 2 = el.eccentricity ^ 2 := by
    have := sin_sq_add_cos_sq E
    have e2 : (el.eccentricity * sin E) ^ 2 = 0 := by rw [es]; norm_num
    nlinarith
  have eae : (el.semimajor_axis * el.eccentricity) ^ 2 ≤ 500 ^ 2 := by
    have : el.semimajor_axis * (el.eccentricity * cos E) = el.semimajor_axis - 42164 := by linarith
    rw [mul_pow, ← esq, ← mul_pow, this]
    nlinarith
  have := le_of_sq_le_sq eae (by norm_num)
  exact ⟨by nlinarith, b2, by nlinarith, by nlinarith⟩

theorem geoTilted_bound : geoTilted.state.velocity.magnitude ^ 2 / 2 < Earth.MU / geoTilted.state.position.magnitude ∧
    (geoTilted.state.position.cross geoTilted.state.velocity).y ≠ 0 := by
  have hr : geoTilted.state.position.magnitude = 42164 := by
    apply Vec3.magnitude_of_dot (by norm_num)
    show (42164 : ℝ) * 42164 + 0 * 0 + 0 * 0 = 42164 ^ 2
    norm_num
  have hv : geoTilted.state.velocity.magnitude ^ 2 = 9.36 := by
    rw [Vec3.magnitude_sq]
    show (0 : ℝ) * 0 + 3 * 3 + 0.6 * 0.6 = 9.36
    norm_num
  refine ⟨by rw [hr, hv]; norm_num [Earth.MU], ?_⟩
  show (0 : ℝ) * 0 - 42164 * 0.6 ≠ 0
  norm_num

/-- the perturbations there are below 6e-8 km/s², where the Earth's centre attracts with 2.2e-4 km/s² -/
example : ∃ a, geoTilted.state.derivative = .ok (geoTilted.state.velocity, a) ∧
    (a.minus (geoTilted.state.position.scaled (-Earth.MU / 42164 ^ 3))).magnitude ≤ 6e-8 := by
  have hr : geoTilted.state.position.magnitude = 42164 := by
    apply Vec3.magnitude_of_dot (by norm_num)
    show (42164 : ℝ) * 42164 + 0 * 0 + 0 * 0 = 42164 ^ 2
    norm_num
  have hnear := geoNoon_near (r := geoTilted.state.position) (t := geoTilted.state.epoch)
    (by show |(42164 : ℝ) - 42164| < 100; norm_num) (by show |(0 : ℝ)| < 100; norm_num)
    (by show |(0 : ℝ)| < 100; norm_num) (by
      have := geoMidnight_centuries (s := 0) (by norm_num)
      rwa [plusDays_zero] at this)
  obtain ⟨a, h1, h2⟩ := C169_perturbation geoTilted.state (by rw [hr]; norm_num) (by rw [hr]; norm_num) hnear.2
  refine ⟨a, h1, ?_⟩
  rw [hr] at h2
  have h3 : ((a.minus ⟨0, 0, 0⟩).minus (geoTilted.state.position.scaled (-Earth.MU / 42164 ^ 3))).magnitude ≤
    Spec.perturbation 42164 42164 + 4.56e-9 * |(0 : ℝ)| := h2
  rw [show a.minus ⟨0, 0, 0⟩ = a by ext <;> simp [Vec3.minus]] at h3
  refine h3.trans ?_
  norm_num [Spec.perturbation, Earth.MU, Earth.RADIUS, Moon.MU]

/-- while the motion is near its start, in the first hour, elements predict its position within `7e-8 s²` km -/
example : ∃ (y : ℝ → Spec.Phase) (a b T : ℝ) (el0 : ClassicalElements), 0 < T ∧ T < b ∧ geoTilted.Flight y a b ∧
    ClassicalElements.fromIjk geoTilted.state.toState = .ok el0 ∧
    ∀ s ∈ Set.Icc 0 T, ∀ r v, y s = Spec.phase r v → ∀ (k : ℤ) (m : ℝ),
      m = el0.mean_anomaly + √(Earth.MU / el0.semimajor_axis ^ 3) * s + 2 * π * k → -(2 * π) ≤ m → m ≤ 2 * π →
      ∃ s' N, (∀ fuel, N ≤ fuel → ({el0 with mean_anomaly := m} : ClassicalElements).toIjk fuel = .ok s') ∧
        (s'.position.minus r).magnitude ≤ 7e-8 * s ^ 2 + 1e-19 := by
  obtain ⟨y, a, b, T, hT, hT1, hy, hTb, hr⟩ := geoTilted_flight
  obtain ⟨w, hw⟩ : ∃ w, w = √(2 * Earth.MU / 40000 ^ 3) := ⟨_, rfl⟩
  obtain ⟨ε, hε⟩ : ∃ ε, ε = Spec.perturbation 40000 43000 := ⟨_, rfl⟩
  obtain ⟨el0, h0, h⟩ := C170_prediction geoTilted rfl y a b T 40000 43000 hy hT.le hTb (by norm_num) (by norm_num) hr
    geoTilted_bound.1 (.inr geoTilted_bound.2) w ε hw hε
  refine ⟨y, a, b, T, el0, hT, hTb, hy, h0, fun s hs r v hrv k m hm m1 m2 => ?_⟩
  obtain ⟨g1, g2, g3, -⟩ := geoTilted_elements h0
  obtain ⟨s', N, hN, h1, -⟩ := h (by linarith) s hs r v hrv k m hm m1 m2
  refine ⟨s', N, hN, h1.trans ?_⟩
  have hw0 : 0 < w := by rw [hw]; exact Real.sqrt_pos.mpr (by norm_num [Earth.MU])
  have hw1 : w ≤ 2e-4 := by
    rw [hw]; exact Real.sqrt_le_iff.mpr ⟨by norm_num, by norm_num [Earth.MU]⟩
  have hε0 : 0 ≤ ε := by rw [hε]; norm_num [Spec.perturbation, Earth.MU, Earth.RADIUS, Moon.MU]
  have hε1 : ε ≤ 7e-8 := by rw [hε]; norm_num [Spec.perturbation, Earth.MU, Earth.RADIUS, Moon.MU]
  have hs0 : 0 ≤ w * s := mul_nonneg hw0.le hs.1
  have hs1 : w * s ≤ 1 := by nlinarith [hs.1, hs.2]
  have hexp := Real.abs_exp_sub_one_sub_id_le (x := w * s) (by rw [abs_of_nonneg hs0]; exact hs1)
  have t1 : ε / w ^ 2 * (exp (w * s) - 1 - w * s) ≤ ε / w ^ 2 * (w * s) ^ 2 :=
    mul_le_mul_of_nonneg_left ((le_abs_self _).trans hexp) (by positivity)
  have t2 : ε / w ^ 2 * (w * s) ^ 2 = ε * s ^ 2 := by field_simp
  have t3 : ε * s ^ 2 ≤ 7e-8 * s ^ 2 := mul_le_mul_of_nonneg_right hε1 (sq_nonneg s)
  have t4 : (5e-25 / (1 - el0.eccentricity)) ≤ 1e-24 := by
    rw [div_le_iff₀ (by linarith)]; linarith
  have t5 : el0.semimajor_axis * (5e-25 / (1 - el0.eccentricity)) ≤ 41800 * 1e-24 :=
    mul_le_mul g2 t4 (div_nonneg (by norm_num) (by linarith)) (by norm_num)
  linarith

/-- and the propagator, started at that midnight, ends near the state that `to_ijk` returns -/
example : ∃ (T B : ℝ) (s' : State), 0 < T ∧ ∀ η > 0, ∃ N0, 0 < N0 ∧ ∀ N : ℕ, N0 ≤ N → ∃ q,
    PyM.repeatN N RK4.step { geoTilted with step_size := T / N } = (.ok (), q) ∧
    (s'.position.minus q.state.position).magnitude ≤ B + η := by
  obtain ⟨y, a, b, T, hT, hT1, hy, hTb, hr⟩ := geoTilted_flight
  obtain ⟨el0, h0, h⟩ := C170_propagation geoTilted rfl rfl rfl y a b T 40000 43000 hy hT.le hTb (by norm_num)
    (by norm_num) hr geoTilted_bound.1 (.inr geoTilted_bound.2) _ _ rfl rfl
  obtain ⟨x, hx⟩ : ∃ x, x = el0.mean_anomaly + √(Earth.MU / el0.semimajor_axis ^ 3) * T := ⟨_, rfl⟩
  have hpi := Real.two_pi_pos
  have f1 := Int.floor_le (x / (2 * π))
  have f2 := Int.lt_floor_add_one (x / (2 * π))
  rw [le_div_iff₀ hpi] at f1
  rw [div_lt_iff₀ hpi] at f2
  obtain ⟨s', F, -, hs⟩ := h (by linarith [(geoTilted_elements h0).1]) (-⌊x / (2 * π)⌋) _ rfl
    (by rw [← hx]; push_cast; nlinarith) (by rw [← hx]; push_cast; nlinarith)
  refine ⟨T, Spec.perturbation 40000 43000 / √(2 * Earth.MU / 40000 ^ 3) ^ 2 *
    (exp (√(2 * Earth.MU / 40000 ^ 3) * T) - 1 - √(2 * Earth.MU / 40000 ^ 3) * T) +
    el0.semimajor_axis * (5e-25 / (1 - el0.eccentricity)), s', hT, fun η hη => ?_⟩
  obtain ⟨N0, hN0, hq⟩ := hs η hη
  refine ⟨N0, hN0, fun N hN => ?_⟩
  obtain ⟨q, q1, -, q2, -⟩ := hq N hN
  exact ⟨q, q1, q2⟩

end Openspace
