import Verif.Props.FiniteSteps
import Verif.Props.DoubleRun

/-!
# C175: how far propagation in double precision is from what the elements predict
-/

namespace Openspace

open Real Filter Topology

namespace Finite

/-- what is known of a two-body motion and the tube around it, at every epoch of the model of double precision -/
structure Mid (k : ℝ → State) (γ' γ'' : ℝ → EuclideanSpace ℝ (Fin 3)) (lo hi m : ℝ) : Prop where
  hlo : 6378 ≤ lo
  hhi : hi ≤ 120000
  hi0 : 0 ≤ hi
  vel : ∀ s, HasDerivAt (fun s => (k s).position.toE) ((k s).velocity.toE) s
  acc : ∀ s, HasDerivAt (fun s => (k s).velocity.toE)
    (-(Earth.MU / ‖(k s).position.toE‖ ^ 3) • (k s).position.toE) s
  jerk : ∀ s, HasDerivAt (fun s => -(Earth.MU / ‖(k s).position.toE‖ ^ 3) • (k s).position.toE) (γ' s) s
  snap : ∀ s, HasDerivAt γ' (γ'' s) s
  size : ∀ s, ‖-(Earth.MU / ‖(k s).position.toE‖ ^ 3) • (k s).position.toE‖ ≤ Earth.MU / lo ^ 2
  bound : ∀ s, ‖γ'' s‖ ≤ 52 * Earth.MU ^ 2 / lo ^ 5
  above : ∀ s, lo ≤ (k s).position.magnitude
  speed : ∀ s, ‖(k s).velocity.toE‖ ≤ √(2 * Earth.MU / lo)
  mid : ∀ s, ∀ r : Vec3, ‖r.toE - (k s).position.toE‖ ≤ m → Spec.Midlatitude lo r ∧ r.magnitude ≤ hi
  tube : ∀ s, ∀ r : Vec3, ‖r.toE - (k s).position.toE‖ ≤ m → ∀ e : ℝ, 1 ≤ e → e ≤ 131072 →
      ∀ z, PositionConvert.gcrfToItrf r ⟨e⟩ ≠ .ok ⟨0, 0, z⟩

theorem centuries {e : ℝ} (h1 : 1 ≤ e) (h2 : e ≤ 131072) : |(Epoch.mk e).julianCenturies| ≤ 5 := by
  rw [abs_le]
  norm_num [Epoch.julianCenturies, Epoch.julianValue, Epoch.JULIAN_CENTURY, Epoch.MJD_ZERO, Epoch.J2000_JULIAN_DATE]
  constructor <;> linarith

/-- declinations near an orbit that is inclined by at most 56 degrees -/
theorem declination {el : ClassicalElements} {E lo m : ℝ} (hlo : 0 < lo) (hm : 0 < m)
    (hk : lo + m ≤ (orbitPos el E).magnitude)
    (hinc : 5 * m ≤ (3 * |cos el.inclination| - 2 * |sin el.inclination|) * lo)
    {r : Vec3} (hr : (r.minus (orbitPos el E)).magnitude ≤ m) : |r.z| ≤ 1.5 * √(r.x ^ 2 + r.y ^ 2) := by
  have hax := Existence.orbit_axial el E
  obtain ⟨k, hkd⟩ : ∃ k, k = orbitPos el E := ⟨_, rfl⟩
  rw [← hkd] at hr hax hk
  have t3 := Existence.axial_near r k
  have t4 : |r.z| ≤ |k.z| + m := by
    have h1 := (r.minus k).abs_z_le
    have h2 : r.z = k.z + (r.minus k).z := by simp [Vec3.minus]
    rw [h2]
    exact (abs_add_le _ _).trans (by linarith)
  have k0 : 0 ≤ k.magnitude := by linarith
  have t5 : |k.z| ≤ k.magnitude * |sin el.inclination| := by
    refine abs_le_of_sq_le_sq ?_ (by positivity)
    have h1 := pow_le_pow_left₀ (by positivity) hax 2
    rw [mul_pow, sq_abs, k.axial_sq] at h1
    rw [mul_pow, sq_abs, Real.sin_sq]
    have h2 := k.magnitude_sq_axial
    rw [k.axial_sq] at h2
    nlinarith
  have hc : 0 < 3 * |cos el.inclination| - 2 * |sin el.inclination| := by
    by_contra h
    rw [not_lt] at h
    nlinarith
  have t6 : 5 * m ≤ (3 * |cos el.inclination| - 2 * |sin el.inclination|) * k.magnitude := by
    refine hinc.trans (mul_le_mul_of_nonneg_left ?_ hc.le)
    linarith
  have : r.axial = √(r.x ^ 2 + r.y ^ 2) := rfl
  rw [← this]
  nlinarith

theorem steep {c s lo m : ℝ} (hcs : 1 ≤ |c| + |s|) (hlo : 0 < lo) (hm : 0 < m) (h : 5 * m ≤ (3 * |c| - 2 * |s|) * lo) :
    9 * m ≤ (8 * |c| - 1) * lo := by
  nlinarith [mul_le_mul_of_nonneg_right hcs hlo.le, mul_nonneg (abs_nonneg s) hlo.le, mul_nonneg (abs_nonneg c) hlo.le]

/-- the two-body motion from the start of the propagation, with the tube around its orbit -/
theorem setupMid (p : RK4) (lo hi m : ℝ) (hlo : 6378 ≤ lo) (hhi : hi ≤ 120000)
    (e0 : 1 ≤ p.state.epoch.value) (e1 : p.state.epoch.value ≤ 131072)
    (hb : p.state.velocity.magnitude ^ 2 / 2 < Earth.MU / p.state.position.magnitude)
    (hp : (p.state.position.cross p.state.velocity).x ≠ 0 ∨ (p.state.position.cross p.state.velocity).y ≠ 0)
    (el : ClassicalElements) (hel : ClassicalElements.fromIjk p.state.toState = .ok el)
    (hper : lo + m ≤ el.semimajor_axis * (1 - el.eccentricity))
    (hapo : el.semimajor_axis * (1 + el.eccentricity) + m ≤ hi)
    (hinc : 5 * m ≤ (3 * |cos el.inclination| - 2 * |sin el.inclination|) * lo) (hm0 : 0 < m) :
    ∃ (k : ℝ → State) (γ' γ'' : ℝ → EuclideanSpace ℝ (Fin 3)), k 0 = p.state.toState ∧
      Spec.TwoBody Earth.MU Set.univ (fun t => (k t).position.toE) (fun t => (k t).velocity.toE) ∧
      Mid k γ' γ'' lo hi m := by
  have hM : 0 < Earth.MU := by norm_num [Earth.MU]
  have hlo0 : 0 < lo := by linarith
  have hcs : 1 ≤ |cos el.inclination| + |sin el.inclination| := by
    have h1 := Real.sin_sq_add_cos_sq el.inclination
    rw [← sq_abs (sin _), ← sq_abs (cos _)] at h1
    have h2 := Real.abs_sin_le_one el.inclination
    have h3 := Real.abs_cos_le_one el.inclination
    nlinarith [abs_nonneg (sin el.inclination), abs_nonneg (cos el.inclination)]
  have hinc' := steep hcs hlo0 hm0 hinc
  obtain ⟨k, γ', γ'', hk0, hkm, tb⟩ := setup p 0 lo hi m (by linarith) (by linarith) (fun s hs => by
    obtain rfl : s = 0 := le_antisymm hs.2 hs.1
    rw [plusDays_zero]
    exact centuries e0 e1) hb hp el hel hper hapo hinc' hm0
  have hpos : ∀ t, ∃ E, (k t).position = orbitPos el E ∧ 0 < el.semimajor_axis ∧ 0 ≤ el.eccentricity ∧
      el.eccentricity < 1 := fun t => by
    obtain ⟨ha, he, he', E, _, _, h, _⟩ := motion_of_elements Set.ordConnected_univ hkm (t := t) trivial
      (t0 := 0) trivial (by rw [hk0]; exact hp) (by rw [hk0]; exact hb) (by rw [hk0]; exact hel)
    exact ⟨E, h, ha, he, he'⟩
  have hne : ∀ t ∈ Set.univ, (k t).position ≠ ⟨0, 0, 0⟩ := fun t _ => Vec3.magnitude_pos.mp (by linarith [tb.above t])
  have tube : ∀ s, ∀ r : Vec3, ‖r.toE - (k s).position.toE‖ ≤ m → ∀ e : ℝ, 1 ≤ e → e ≤ 131072 → lo ≤ r.magnitude ∧
      r.magnitude ≤ hi ∧ ∀ z, PositionConvert.gcrfToItrf r ⟨e⟩ ≠ .ok ⟨0, 0, z⟩ := fun s r hr e h1 h2 => by
    obtain ⟨E, h, ha, he, he'⟩ := hpos s
    rw [← toE_minus, Vec3.norm_toE, h] at hr
    exact Existence.tube ha he he' (by linarith) hm0 hper hapo hinc' hr (centuries h1 h2)
  refine ⟨k, γ', γ'', hk0, hkm, ⟨hlo, hhi, tb.hi0, tb.vel, tb.acc, tb.jerk, tb.snap, tb.size, tb.bound, tb.above,
    fun s => ?_, fun s r hr => ?_, fun s r hr e h1 h2 => (tube s r hr e h1 h2).2.2⟩⟩
  · have := energy_const Set.ordConnected_univ (p := fun t => (k t).position) (v := fun t => (k t).velocity) hkm hne
      (t := s) (t0 := 0) trivial trivial
    simp only [hk0] at this
    have h1 : p.state.toState.velocity.magnitude ^ 2 / 2 < Earth.MU / p.state.toState.position.magnitude := hb
    have h2 : Earth.MU / (k s).position.magnitude ≤ Earth.MU / lo := by
      have := tb.above s
      gcongr
    rw [Vec3.norm_toE]
    apply Real.le_sqrt_of_sq_le
    rw [mul_div_assoc]
    linarith
  · obtain ⟨g1, g2, -⟩ := tube s r hr 1 le_rfl (by norm_num)
    refine ⟨⟨g1, by linarith, ?_⟩, g2⟩
    obtain ⟨E, h, ha, he, he'⟩ := hpos s
    rw [← toE_minus, Vec3.norm_toE, h] at hr
    refine declination hlo0 hm0 ?_ hinc hr
    rw [Gauss.orbitPos_mag ha he he']
    refine hper.trans (mul_le_mul_of_nonneg_left ?_ ha.le)
    nlinarith [Real.cos_le_one E]

/-- one classical Runge-Kutta step of a force law that is close to that of the two-body motion -/
theorem oneMid {k : ℝ → State} {γ' γ'' : ℝ → EuclideanSpace ℝ (Fin 3)} {T lo hi m δ w ε h t : ℝ}
    (H : Mid k γ' γ'' lo hi m) (hw : w = √(2 * Earth.MU / lo ^ 3)) (hε : ε = Spec.perturbation lo hi)
    (hδ : δ = (1 + (w * h) ^ 2 / 6) * ε + 18 * Earth.MU ^ 2 / lo ^ 5 * h ^ 2) (hh : 0 ≤ h) (ht : 0 ≤ t) (htT : t + h ≤ T)
    (hm : StepError.P δ w T + Earth.MU / lo ^ 2 * h ^ 2 ≤ m) {p : RK4} (hoff : p.m_dot = 0) {clock : ℝ → ℝ}
    {f : ℝ → Spec.Phase → Spec.Phase} (hf : F64.Represents p clock f)
    (hc : ∀ dt, dt = 0 ∨ dt = h / 2 ∨ dt = h → 1 ≤ clock dt ∧ clock dt ≤ 131072) {r v x y : Vec3}
    (hr : ‖r.toE - (k t).position.toE‖ ≤ StepError.P δ w t) (hv : ‖v.toE - (k t).velocity.toE‖ ≤ StepError.Q δ w t)
    (hxy : Spec.phase x y = Spec.rk4 f 0 h (Spec.phase r v)) :
    (‖x.toE - (k (t + h)).position.toE‖ ≤ StepError.P δ w (t + h) ∧
      ‖y.toE - (k (t + h)).velocity.toE‖ ≤ StepError.Q δ w (t + h)) ∧
    ∀ a b, Spec.phase a b ∈ Spec.rk4Points f 0 h (Spec.phase r v) → Spec.Midlatitude lo a := by
  have hM : 0 < Earth.MU := by norm_num [Earth.MU]
  have hlo0 : 0 < lo := by linarith [H.hlo]
  have hw0 : 0 < w := by rw [hw]; positivity
  have hw2 : w ^ 2 = 2 * Earth.MU / lo ^ 3 := by rw [hw]; exact Real.sq_sqrt (by positivity)
  have hε0 : 0 ≤ ε := by
    have h2 : 0 < 356000 - hi := by linarith [H.hhi]
    have h3 : 0 < Moon.MU := by norm_num [Moon.MU]
    have h4 := H.hi0
    rw [hε, Spec.perturbation]
    positivity
  obtain ⟨A, hA⟩ : ∃ A, A = Earth.MU / lo ^ 2 := ⟨_, rfl⟩
  obtain ⟨M, hMd⟩ : ∃ M, M = 52 * Earth.MU ^ 2 / lo ^ 5 := ⟨_, rfl⟩
  have hA0 : 0 ≤ A := by rw [hA]; positivity
  have hM0 : 0 ≤ M := by rw [hMd]; positivity
  have hδ' : δ = (1 + (w * h) ^ 2 / 6) * ε + (w ^ 2 * A + M) / 3 * h ^ 2 := by
    rw [hδ, hw2, hA, hMd]; field_simp; ring
  have hδ0 : 0 ≤ δ := by rw [hδ']; positivity
  obtain ⟨e, he⟩ : ∃ e, e = StepError.P δ w t := ⟨_, rfl⟩
  obtain ⟨u, hu⟩ : ∃ u, u = StepError.Q δ w t := ⟨_, rfl⟩
  have hu0 : 0 ≤ u := (norm_nonneg _).trans (hu ▸ hv)
  have he0 : 0 ≤ e := (norm_nonneg _).trans (he ▸ hr)
  obtain ⟨ad1, ad2, ad3⟩ := StepError.advance hw0 hh ht hε0 hA0 hM0 hδ' he hu rfl rfl rfl rfl
  have hPT := (StepError.mono hw0 hδ0 (by linarith : 0 ≤ t + h) htT).1
  rw [← hA] at hm
  have reach : e + h * u + A / 2 * h ^ 2 + (A + ε) / 2 * h ^ 2 ≤ m := by linarith
  have hhu : 0 ≤ h * u := mul_nonneg hh hu0
  have hAh : 0 ≤ A * h ^ 2 := by positivity
  have hεh : 0 ≤ ε * h ^ 2 := by positivity
  -- the motion from here on
  obtain ⟨R, hR⟩ : ∃ R : ℝ → EuclideanSpace ℝ (Fin 3), R = fun s => (k (t + s)).position.toE := ⟨_, rfl⟩
  obtain ⟨V, hV⟩ : ∃ V : ℝ → EuclideanSpace ℝ (Fin 3), V = fun s => (k (t + s)).velocity.toE := ⟨_, rfl⟩
  obtain ⟨γ, hγ⟩ : ∃ γ : ℝ → EuclideanSpace ℝ (Fin 3), γ = fun s =>
    -(Earth.MU / ‖(k (t + s)).position.toE‖ ^ 3) • (k (t + s)).position.toE := ⟨_, rfl⟩
  have dR : ∀ s ∈ Set.Icc 0 h, HasDerivAt R (V s) s := fun s _ => by
    rw [hR, hV]; exact (H.vel (t + s)).comp_const_add t s
  have dV : ∀ s ∈ Set.Icc 0 h, HasDerivAt V (γ s) s := fun s _ => by
    rw [hγ, hV]; exact (H.acc (t + s)).comp_const_add t s
  have dγ : ∀ s ∈ Set.Icc 0 h, HasDerivAt γ ((fun s => γ' (t + s)) s) s := fun s _ => by
    rw [hγ]; exact (H.jerk (t + s)).comp_const_add t s
  have dγ' : ∀ s ∈ Set.Icc 0 h, HasDerivAt (fun s => γ' (t + s)) ((fun s => γ'' (t + s)) s) s := fun s _ =>
    (H.snap (t + s)).comp_const_add t s
  have bA : ∀ s ∈ Set.Icc 0 h, ‖γ s‖ ≤ A := fun s _ => by rw [hγ, hA]; exact H.size (t + s)
  have bM : ∀ s ∈ Set.Icc 0 h, ‖(fun s => γ'' (t + s)) s‖ ≤ M := fun s _ => by rw [hMd]; exact H.bound (t + s)
  have start : ‖r.toE - R 0‖ ≤ e := by rw [hR, he]; simpa using hr
  have start' : ‖v.toE - V 0‖ ≤ u := by rw [hV, hu]; simpa using hv
  have midl : ∀ (b : Vec3) (s : ℝ), ‖b.toE - R s‖ ≤ m → Spec.Midlatitude lo b := fun b s hb => by
    rw [hR] at hb; exact (H.mid (t + s) b hb).1
  have eval : ∀ (b c : Vec3) (s : ℝ), s = 0 ∨ s = h / 2 ∨ s = h → ‖b.toE - R s‖ ≤ m →
      ∃ a, f s (Spec.phase b c) = Spec.phase c a ∧ ‖a.toE‖ ≤ A + ε ∧ ‖a.toE - γ s‖ ≤ w ^ 2 * ‖b.toE - R s‖ + ε := by
    intro b c s hs hb
    rw [hR] at hb
    obtain ⟨c1, c2⟩ := hc s hs
    have g1 := H.mid (t + s) b hb
    obtain ⟨a, a1, a2, a3⟩ := near { GCRF.new ⟨clock s⟩ b c with thrust := ⟨0, 0, 0⟩ } rfl rfl (by linarith [H.hlo])
      (by linarith [H.hhi]) hw hε g1.1.1 g1.2 (H.tube (t + s) b hb _ c1 c2) (H.above (t + s))
    refine ⟨a, hf s b c _ _ (C43_off p s hoff) a1, by rw [hA]; exact a2, ?_⟩
    rw [hγ, hR]; exact a3
  have toE2 : ∀ (a b : Vec3) (x : ℝ), (a.plus (b.scaled x)).toE = a.toE + x • b.toE := fun a b x => by
    rw [toE_plus, toE_scaled]
  -- the four stages
  have q1 : ‖r.toE - R 0‖ ≤ m := by refine start.trans ?_; linarith
  obtain ⟨a1, d1, n1, b1⟩ := eval r v 0 (.inl rfl) q1
  have p2 := (StepError.places (a1 := a1.toE) (a2 := a1.toE) (B := A + ε) hh dR dV bA start start').1
  have p3 := (StepError.places (a1 := a1.toE) (a2 := a1.toE) (B := A + ε) hh dR dV bA start start').2.1 n1
  rw [← toE2] at p2
  rw [← toE2, ← toE2] at p3
  have q2 : ‖(r.plus (v.scaled (h / 2))).toE - R (h / 2)‖ ≤ m := by refine p2.trans ?_; linarith
  obtain ⟨a2, d2, n2, b2⟩ := eval _ (v.plus (a1.scaled (h / 2))) (h / 2) (.inr (.inl rfl)) q2
  have q3 : ‖(r.plus ((v.plus (a1.scaled (h / 2))).scaled (h / 2))).toE - R (h / 2)‖ ≤ m := by
    refine p3.trans ?_; linarith
  obtain ⟨a3, d3, -, b3⟩ := eval _ (v.plus (a2.scaled (h / 2))) (h / 2) (.inr (.inl rfl)) q3
  have p4 := (StepError.places (a1 := a1.toE) (a2 := a2.toE) (B := A + ε) hh dR dV bA start start').2.2 n2
  rw [← toE2, ← toE2] at p4
  have q4 : ‖(r.plus ((v.plus (a2.scaled (h / 2))).scaled h)).toE - R h‖ ≤ m := p4.trans reach
  obtain ⟨a4, d4, -, b4⟩ := eval _ (v.plus (a3.scaled h)) h (.inr (.inr rfl)) q4
  have c1 : ‖a1.toE - γ 0‖ ≤ w ^ 2 * e + ε :=
    b1.trans (add_le_add (mul_le_mul_of_nonneg_left start (by positivity)) le_rfl)
  have c2 : ‖a2.toE - γ (h / 2)‖ ≤ w ^ 2 * (e + h / 2 * u + A / 8 * h ^ 2) + ε :=
    b2.trans (add_le_add (mul_le_mul_of_nonneg_left p2 (by positivity)) le_rfl)
  have c3 : ‖a3.toE - γ (h / 2)‖ ≤ w ^ 2 * (e + h / 2 * u + A / 8 * h ^ 2 + (A + ε) / 4 * h ^ 2) + ε :=
    b3.trans (add_le_add (mul_le_mul_of_nonneg_left p3 (by positivity)) le_rfl)
  have c4 : ‖a4.toE - γ h‖ ≤ w ^ 2 * (e + h * u + A / 2 * h ^ 2 + (A + ε) / 2 * h ^ 2) + ε :=
    b4.trans (add_le_add (mul_le_mul_of_nonneg_left p4 (by positivity)) le_rfl)
  obtain ⟨s1, s2⟩ := StepError.step hh dR dV dγ dγ' bM start start' c1 c2 c3 c4
  have k1 : f 0 (Spec.phase r v) = Spec.phase v a1 := d1
  have k2 : f (0 + h / 2) (Spec.phase r v + (h / 2) • Spec.phase v a1) = Spec.phase (v.plus (a1.scaled (h / 2))) a2 := by
    rw [zero_add, ← phase_add]; exact d2
  have k3 : f (0 + h / 2) (Spec.phase r v + (h / 2) • Spec.phase (v.plus (a1.scaled (h / 2))) a2) =
      Spec.phase (v.plus (a2.scaled (h / 2))) a3 := by
    rw [zero_add, ← phase_add]; exact d3
  have k4 : f (0 + h) (Spec.phase r v + h • Spec.phase (v.plus (a2.scaled (h / 2))) a3) =
      Spec.phase (v.plus (a3.scaled h)) a4 := by
    rw [zero_add, ← phase_add]; exact d4
  constructor
  · have hx : Spec.phase x y = Spec.phase
        (r.plus (((v.plus ((v.plus (a1.scaled (h / 2))).scaled 2)).plus ((v.plus (a2.scaled (h / 2))).scaled 2)).plus
          ((v.plus (a3.scaled h)).scaled 1) |>.scaled (h / 6)))
        (v.plus (((a1.plus (a2.scaled 2)).plus (a3.scaled 2)).plus (a4.scaled 1) |>.scaled (h / 6))) := by
      rw [hxy, Spec.rk4]
      simp only [k1, k2, k3, k4]
      simp only [phase_add, one_smul]
    obtain ⟨rfl, rfl⟩ := F64.phase_injective hx
    constructor
    · refine le_trans (le_of_eq ?_) (s2.trans ad2)
      rw [hR]
      congr 2
      simp only [toE_plus, toE_scaled]
      module
    · refine le_trans (le_of_eq ?_) (s1.trans ad1)
      rw [hV]
      congr 2
      simp only [toE_plus, toE_scaled]
      module
  · intro a b hab
    simp only [Spec.rk4Points, k1, k2, k3, List.mem_cons, List.not_mem_nil, or_false] at hab
    simp only [← phase_add] at hab
    rcases hab with hab | hab | hab | hab <;> obtain ⟨rfl, rfl⟩ := F64.phase_injective hab
    · exact midl _ 0 q1
    · exact midl _ _ q2
    · exact midl _ _ q3
    · exact midl _ _ q4

/-- all steps -/
theorem manyMid {k : ℝ → State} {γ' γ'' : ℝ → EuclideanSpace ℝ (Fin 3)} {T lo hi m δ w ε h : ℝ}
    (H : Mid k γ' γ'' lo hi m) (hw : w = √(2 * Earth.MU / lo ^ 3)) (hε : ε = Spec.perturbation lo hi)
    (hδ : δ = (1 + (w * h) ^ 2 / 6) * ε + 18 * Earth.MU ^ 2 / lo ^ 5 * h ^ 2) (hh : 0 ≤ h)
    {p : RK4} (hoff : p.m_dot = 0) {N : ℕ} (hT : T = N * h)
    (hm : StepError.P δ w T + Earth.MU / lo ^ 2 * h ^ 2 ≤ m) {clock : ℕ → ℝ → ℝ}
    {f : ℕ → ℝ → Spec.Phase → Spec.Phase} {x v : ℕ → Vec3} (hTr : F64.Trajectory p h N clock f x v)
    (hc : ∀ k < N, ∀ dt, dt = 0 ∨ dt = h / 2 ∨ dt = h → 1 ≤ clock k dt ∧ clock k dt ≤ 131072)
    (hk0 : k 0 = p.state.toState) :
    ∀ n ≤ N, (‖(x n).toE - (k (n * h)).position.toE‖ ≤ StepError.P δ w (n * h) ∧
      ‖(v n).toE - (k (n * h)).velocity.toE‖ ≤ StepError.Q δ w (n * h)) ∧
      ∀ j < n, ∀ a b, Spec.phase a b ∈ Spec.rk4Points (f j) 0 h (Spec.phase (x j) (v j)) → Spec.Midlatitude lo a := by
  intro n
  induction n with
  | zero =>
    intro _
    refine ⟨⟨?_, ?_⟩, fun j hj => absurd hj (Nat.not_lt_zero _)⟩
    · rw [Nat.cast_zero, zero_mul, hk0, hTr.position]; simp [StepError.P]
    · rw [Nat.cast_zero, zero_mul, hk0, hTr.velocity]; simp [StepError.Q]
  | succ n ih =>
    intro hn
    obtain ⟨⟨i1, i2⟩, i3⟩ := ih (by omega)
    have hle : (n : ℝ) * h + h ≤ T := by
      have : ((n + 1 : ℕ) : ℝ) ≤ N := by exact_mod_cast hn
      rw [hT]
      push_cast at this
      nlinarith
    obtain ⟨o1, o2⟩ := oneMid H hw hε hδ hh (by positivity) hle hm hoff (hTr.force n (by omega)) (hc n (by omega)) i1 i2
      (hTr.step n (by omega))
    refine ⟨by push_cast; rw [add_mul, one_mul]; exact o1, fun j hj => ?_⟩
    rcases Nat.lt_succ_iff_lt_or_eq.mp hj with hj | rfl
    · exact i3 j hj
    · exact o2

end Finite

section

variable {lib : F64.Libm} {tan ln : ℝ → ℝ} (hlib : Spec.Accurate lib) (hatan : Spec.Atan2Accurate lib)
  (hpow : Spec.PowAccurate lib) (htan : Spec.TanAccurate tan) (hln : Spec.LogAccurate ln)

include hlib hatan hpow htan hln

/-- **C175**: a coasting propagator with the default force model, in double precision, on an ellipse inclined by less than
56 degrees, from an epoch within the range of C146: `N` steps of `h` seconds all return, and end within the sum of C174's
bound, C146's bound of the rounding errors and the tolerance of the solver of Kepler's equation of what `to_ijk` returns
for the mean anomaly advanced by `T = N h` seconds. -/
theorem C175_steps (p : RK4) (hsrp : p.state.srp_scalar = 0) (hpert : p.state.use_perturbations = true)
    (hoff : p.m_dot = 0) (h T lo hi m : ℝ) (N : ℕ) (hh : p.step_size = h) (hbin : Spec.IsBinary64 h) (h0 : 0 < h)
    (h1 : h ≤ 301) (hT : T = N * h) (hlo : 6378 ≤ lo) (hhi : hi ≤ 120000)
    (e0 : 1 + 0.004 * N ≤ p.state.epoch.value) (e1 : p.state.epoch.value ≤ 131072 - 0.004 * N)
    (hb : p.state.velocity.magnitude ^ 2 / 2 < Earth.MU / p.state.position.magnitude)
    (hp : (p.state.position.cross p.state.velocity).x ≠ 0 ∨ (p.state.position.cross p.state.velocity).y ≠ 0)
    (el : ClassicalElements) (hel : ClassicalElements.fromIjk p.state.toState = .ok el)
    (hper : lo + m ≤ el.semimajor_axis * (1 - el.eccentricity))
    (hapo : el.semimajor_axis * (1 + el.eccentricity) + m ≤ hi)
    (hinc : 5 * m ≤ (3 * |cos el.inclination| - 2 * |sin el.inclination|) * lo) (hm0 : 0 < m)
    (w ε δ : ℝ) (hw : w = √(2 * Earth.MU / lo ^ 3)) (hε : ε = Spec.perturbation lo hi)
    (hδ : δ = (1 + (w * h) ^ 2 / 6) * ε + 18 * Earth.MU ^ 2 / lo ^ 5 * h ^ 2)
    (hm : δ / w ^ 2 * (exp (w * T) - 1 - w * T) + Earth.MU / lo ^ 2 * h ^ 2 ≤ m)
    (hV : √(2 * Earth.MU / lo) + δ / w * (exp (w * T) - 1) ≤ 12)
    (hE : Spec.runBound Earth.MU lo 3.28e-9 h N / Spec.growthRate Earth.MU lo ≤ 0.01)
    (j : ℤ) (ma : ℝ)
    (hma : ma = el.mean_anomaly + √(Earth.MU / el.semimajor_axis ^ 3) * T + 2 * π * j)
    (ma1 : -(2 * π) ≤ ma) (ma2 : ma ≤ 2 * π) :
    ∃ q, F64.rk4Steps lib tan ln N p = .ok q ∧ q.state.epoch = ⟨(F64.step h)^[N] p.state.epoch.value⟩ ∧
      ∃ s' F, (∀ fuel, F ≤ fuel → ({el with mean_anomaly := ma} : ClassicalElements).toIjk fuel = .ok s') ∧
        (s'.position.minus q.state.position).magnitude ≤ δ / w ^ 2 * (exp (w * T) - 1 - w * T) +
          Spec.runBound Earth.MU lo 3.28e-9 h N / Spec.growthRate Earth.MU lo +
          el.semimajor_axis * (5e-25 / (1 - el.eccentricity)) ∧
        (s'.velocity.minus q.state.velocity).magnitude ≤ δ / w * (exp (w * T) - 1) +
          Spec.runBound Earth.MU lo 3.28e-9 h N +
          √(Earth.MU / el.semimajor_axis) * (5e-25 / (1 - el.eccentricity) ^ 3) := by
  have hM : 0 < Earth.MU := by norm_num [Earth.MU]
  have hlo0 : 0 < lo := by linarith
  have hw0 : 0 < w := by rw [hw]; positivity
  have hN4 : (0 : ℝ) ≤ 0.004 * N := by positivity
  obtain ⟨k, γ', γ'', hk0, hkm, tb⟩ := Finite.setupMid p lo hi m hlo hhi (by linarith) (by linarith) hb hp el hel hper hapo
    hinc hm0
  have hδ0 : 0 ≤ δ := by
    have h2 : 0 < 356000 - hi := by linarith
    have h3 : 0 < Moon.MU := by norm_num [Moon.MU]
    have h4 := tb.hi0
    rw [hδ, hε, Spec.perturbation]
    positivity
  obtain ⟨clock, f, x, v, hTr⟩ := F64.exists_trajectory p h0.ne' N
  have clocks := F64.clocks_near hTr hbin h0 h1 e0 e1
  have run := Finite.manyMid tb hw hε hδ h0.le hoff hT hm hTr clocks hk0
  obtain ⟨⟨r1, r2⟩, r3⟩ := run N le_rfl
  have speed : ∀ n < N, (v n).magnitude ≤ 12 := fun n hn => by
    obtain ⟨⟨-, i2⟩, -⟩ := run n hn.le
    have hnT : (n : ℝ) * h ≤ T := by rw [hT]; gcongr
    have i4 := (StepError.mono hw0 hδ0 (by positivity : 0 ≤ (n : ℝ) * h) hnT).2
    have i5 := norm_add_le_of_le i2 (tb.speed (n * h))
    rw [sub_add_cancel, Vec3.norm_toE] at i5
    have e : StepError.Q δ w T = δ / w * (exp (w * T) - 1) := rfl
    linarith
  obtain ⟨q, q1, -, q3, q4, q5⟩ := C146_steps hlib hatan hpow htan hln p hTr hh hbin h0 h1 hsrp hpert hlo (.inl hoff) e0 e1
    speed r3 hE
  refine ⟨q, q1, q3, ?_⟩
  obtain ⟨el0, e0, hpred⟩ := C125_prediction k Set.univ Set.ordConnected_univ hkm 0 trivial (by rw [hk0]; exact hb)
    (by rw [hk0]; exact hp)
  rw [hk0] at e0
  cases hel.symm.trans e0
  obtain ⟨s', F, hF, d1, d2⟩ := hpred T trivial j ma (by rw [sub_zero]; exact hma) ma1 ma2
  rw [← hT, ← toE_minus, Vec3.norm_toE, StepError.P] at r1
  rw [← hT, ← toE_minus, Vec3.norm_toE, StepError.Q] at r2
  have chain : ∀ a b c d : Vec3, (a.minus d).magnitude ≤ (a.minus b).magnitude + (c.minus b).magnitude + (d.minus c).magnitude := by
    intro a b c d
    have t1 := Vec3.magnitude_plus_le (a.minus b) (b.minus c)
    have t2 := Vec3.magnitude_plus_le (a.minus c) (c.minus d)
    rw [show (a.minus b).plus (b.minus c) = a.minus c by ext <;> simp [Vec3.plus, Vec3.minus], Perturbed.minus_swap b] at t1
    rw [show (a.minus c).plus (c.minus d) = a.minus d by ext <;> simp [Vec3.plus, Vec3.minus], Perturbed.minus_swap c] at t2
    linarith
  refine ⟨s', F, hF, ?_, ?_⟩
  · have := chain s'.position (k T).position (x N) q.state.position
    linarith
  · have := chain s'.velocity (k T).velocity (v N) q.state.velocity
    linarith

/-- **C175**: the same of `step_to_epoch` to a later epoch `t`, for the number `N` and the length `h` of the steps that it
chooses; `T = N h` is the time to `t`, up to a rounding error of a few units in the last place. -/
theorem C175_epoch (p : RK4) (hsrp : p.state.srp_scalar = 0) (hpert : p.state.use_perturbations = true)
    (hoff : p.m_dot = 0) (t h T lo hi m : ℝ) (N : ℕ) (ht : p.state.epoch.value < t)
    (hN : N = F64.numSteps t p.state.epoch.value) (hh : h = F64.rnd (F64.span t p.state.epoch.value / N))
    (hT : T = N * h) (hlo : 6378 ≤ lo) (hhi : hi ≤ 120000)
    (e0 : 1 + 0.004 * N ≤ p.state.epoch.value) (e1 : p.state.epoch.value ≤ 131072 - 0.004 * N)
    (hb : p.state.velocity.magnitude ^ 2 / 2 < Earth.MU / p.state.position.magnitude)
    (hp : (p.state.position.cross p.state.velocity).x ≠ 0 ∨ (p.state.position.cross p.state.velocity).y ≠ 0)
    (el : ClassicalElements) (hel : ClassicalElements.fromIjk p.state.toState = .ok el)
    (hper : lo + m ≤ el.semimajor_axis * (1 - el.eccentricity))
    (hapo : el.semimajor_axis * (1 + el.eccentricity) + m ≤ hi)
    (hinc : 5 * m ≤ (3 * |cos el.inclination| - 2 * |sin el.inclination|) * lo) (hm0 : 0 < m)
    (w ε δ : ℝ) (hw : w = √(2 * Earth.MU / lo ^ 3)) (hε : ε = Spec.perturbation lo hi)
    (hδ : δ = (1 + (w * h) ^ 2 / 6) * ε + 18 * Earth.MU ^ 2 / lo ^ 5 * h ^ 2)
    (hm : δ / w ^ 2 * (exp (w * T) - 1 - w * T) + Earth.MU / lo ^ 2 * h ^ 2 ≤ m)
    (hV : √(2 * Earth.MU / lo) + δ / w * (exp (w * T) - 1) ≤ 12)
    (hE : Spec.runBound Earth.MU lo 3.28e-9 h N / Spec.growthRate Earth.MU lo ≤ 0.01)
    (j : ℤ) (ma : ℝ)
    (hma : ma = el.mean_anomaly + √(Earth.MU / el.semimajor_axis ^ 3) * T + 2 * π * j)
    (ma1 : -(2 * π) ≤ ma) (ma2 : ma ≤ 2 * π) :
    |T - (t - p.state.epoch.value) * 86400| ≤ 4e-16 * ((t - p.state.epoch.value) * 86400) ∧
    ∃ q, F64.rk4StepToEpoch lib tan ln t p = .ok q ∧ q.state.epoch = ⟨F64.stepToEpoch t p.state.epoch.value⟩ ∧
      q.step_size = p.step_size ∧
      ∃ s' F, (∀ fuel, F ≤ fuel → ({el with mean_anomaly := ma} : ClassicalElements).toIjk fuel = .ok s') ∧
        (s'.position.minus q.state.position).magnitude ≤ δ / w ^ 2 * (exp (w * T) - 1 - w * T) +
          Spec.runBound Earth.MU lo 3.28e-9 h N / Spec.growthRate Earth.MU lo +
          el.semimajor_axis * (5e-25 / (1 - el.eccentricity)) ∧
        (s'.velocity.minus q.state.velocity).magnitude ≤ δ / w * (exp (w * T) - 1) +
          Spec.runBound Earth.MU lo 3.28e-9 h N +
          √(Earth.MU / el.semimajor_axis) * (5e-25 / (1 - el.eccentricity) ^ 3) := by
  obtain ⟨n0, h0, h1⟩ := F64.step_size_le ht
  rw [← hN] at n0 h0 h1
  rw [← hh] at h0 h1
  have hbin : Spec.IsBinary64 h := by rw [hh]; exact F64.rnd_binary64 _
  constructor
  · have hu := F64.u_pos
    have hu' := F64.u_tiny
    have hN0 : (0 : ℝ) < N := by exact_mod_cast n0
    obtain ⟨d, hd⟩ : ∃ d, d = t - p.state.epoch.value := ⟨_, rfl⟩
    have hd0 : 0 < d := by rw [hd]; linarith
    obtain ⟨g, hg⟩ : ∃ g, g = F64.rnd d := ⟨_, rfl⟩
    obtain ⟨s, hs⟩ : ∃ s, s = F64.span t p.state.epoch.value := ⟨_, rfl⟩
    have b1 := F64.rnd_u d
    have b2 := F64.rnd_u (g * 86400)
    have b3 := F64.rnd_u (s / N)
    have hs' : s = F64.rnd (g * 86400) := by rw [hs, hg, hd, F64.span]
    rw [← hs] at hh
    have hg0 : 0 ≤ g := by rw [hg]; exact F64.rnd_nonneg hd0.le
    have hs0 : 0 ≤ s := by rw [hs']; exact F64.rnd_nonneg (by positivity)
    rw [← hg, abs_of_pos hd0, abs_le] at b1
    rw [← hs', abs_of_nonneg (by positivity : 0 ≤ g * 86400), abs_le] at b2
    rw [← hh, abs_of_nonneg (by positivity : 0 ≤ s / N), abs_le] at b3
    have b4 : |T - s| ≤ F64.u * s := by
      have e1 : T - s = N * (h - s / N) := by rw [hT]; field_simp
      have e2 : F64.u * s = N * (F64.u * (s / N)) := by field_simp
      rw [e1, e2, abs_mul, abs_of_pos hN0]
      exact mul_le_mul_of_nonneg_left (abs_le.mpr b3) hN0.le
    rw [abs_le] at b4
    have g1 : F64.u * d ≤ 12 / 10 ^ 17 * d := mul_le_mul_of_nonneg_right hu' hd0.le
    have g2 : F64.u * (g * 86400) ≤ 12 / 10 ^ 17 * (g * 86400) := mul_le_mul_of_nonneg_right hu' (by positivity)
    have g3 : F64.u * s ≤ 12 / 10 ^ 17 * s := mul_le_mul_of_nonneg_right hu' hs0
    rw [← hd, abs_le]
    norm_num at g1 g2 g3 ⊢
    constructor <;> linarith
  · obtain ⟨q, q1, q2, q3⟩ := C175_steps hlib hatan hpow htan hln { p with step_size := h } hsrp hpert hoff h T lo hi m N rfl
      hbin h0 h1 hT hlo hhi e0 e1 hb hp el hel hper hapo hinc hm0 w ε δ hw hε hδ hm hV hE j ma hma ma1 ma2
    refine ⟨{ q with step_size := p.step_size }, ?_, ?_, rfl, q3⟩
    · simp only [F64.rk4StepToEpoch, ← hN, ← hh, gt_iff_lt, n0, if_true, q1, ok_bind, pure_eq_ok]
    · rw [F64.stepToEpoch, ← hN, ← hh]
      exact q2

end

/-! ## one hour of the inclined geosynchronous orbit, in steps of ten seconds -/

/-- 360 steps of ten seconds in double precision end within one kilometre of the elements' prediction -/
example : ∃ el ma q s' F, ClassicalElements.fromIjk geoTilted.state.toState = .ok el ∧
    (∀ fuel, F ≤ fuel → ({el with mean_anomaly := ma} : ClassicalElements).toIjk fuel = .ok s') ∧
    F64.rk4Steps F64.rounded (fun x => F64.rnd (Real.tan x)) Real.log 360 { geoTilted with step_size := 10 } = .ok q ∧
    (s'.position.minus q.state.position).magnitude ≤ 1 := by
  have hlog : Spec.LogAccurate Real.log := fun x _ => by rw [sub_self, abs_zero]; positivity
  obtain ⟨hb, hp⟩ := geoTilted_bound
  obtain ⟨el, hel, j, ma, hma, ma1, ma2, tol⟩ := geoTilted_advance
  obtain ⟨g1, g2, g3, g4⟩ := geoTilted_elements hel
  have gi := geoTilted_flat hel
  have gs : |sin el.inclination| ≤ 0.2 := by
    refine abs_le_of_sq_le_sq ?_ (by norm_num)
    have := pow_le_pow_left₀ (by norm_num) gi 2
    rw [sq_abs] at this
    rw [Real.sin_sq]
    norm_num at this ⊢
    linarith
  have drift := geoTilted_finite (h := 10) rfl rfl (by norm_num) (by norm_num) rfl
  have hA : Earth.MU / 40000 ^ 2 * 10 ^ 2 ≤ 0.025 := by norm_num [Earth.MU]
  have w1 : Spec.growthRate Earth.MU 40000 ≤ 2e-4 := by
    rw [Spec.growthRate, Real.sqrt_le_left (by norm_num)]; norm_num [Earth.MU]
  have w0 : 1e-4 ≤ Spec.growthRate Earth.MU 40000 := by
    rw [Spec.growthRate]; exact Real.le_sqrt_of_sq_le (by norm_num [Earth.MU])
  have bound : Spec.runBound Earth.MU 40000 3.28e-9 10 360 / Spec.growthRate Earth.MU 40000 ≤ 0.001 := by
    have hx : rexp (1.001 * (Spec.growthRate Earth.MU 40000 * ((360 : ℕ) * 10))) ≤ 3 := by
      have k1 : 1.001 * (Spec.growthRate Earth.MU 40000 * ((360 : ℕ) * 10)) ≤ 1 := by
        push_cast; norm_num at w1 ⊢; linarith
      exact (Real.exp_le_exp.mpr k1).trans (Real.exp_one_lt_d9.le.trans (by norm_num))
    rw [div_le_iff₀ (by norm_num at w0 ⊢; linarith), Spec.runBound]
    calc _ ≤ (3 : ℝ) * ((360 : ℕ) * (2 * (10 * (3.28e-9 * (Earth.MU / 40000 ^ 2) + 5e-15) + 4e-11 * 2e-4 + 8e-15))) := by
          have : 0 ≤ Earth.MU := by norm_num [Earth.MU]
          gcongr
      _ ≤ 0.001 * 1e-4 := by norm_num [Earth.MU]
      _ ≤ _ := by gcongr
  obtain ⟨w, hw⟩ : ∃ w, w = √(2 * Earth.MU / 40000 ^ 3) := ⟨_, rfl⟩
  obtain ⟨ε, hε⟩ : ∃ ε, ε = Spec.perturbation 40000 43000 := ⟨_, rfl⟩
  obtain ⟨δ, hδ⟩ : ∃ δ, δ = (1 + (w * 10) ^ 2 / 6) * ε + 18 * Earth.MU ^ 2 / 40000 ^ 5 * 10 ^ 2 := ⟨_, rfl⟩
  rw [← hw, ← hε, ← hδ] at drift
  have hV : √(2 * Earth.MU / 40000) + δ / w * (exp (w * 3600) - 1) ≤ 12 := by
    have hw0 : 0 < w := by rw [hw]; exact Real.sqrt_pos.mpr (by norm_num [Earth.MU])
    have hw1 : w ≤ 2e-4 := by
      rw [hw]; exact Real.sqrt_le_iff.mpr ⟨by norm_num, by norm_num [Earth.MU]⟩
    have hε0 : 0 ≤ ε := by rw [hε]; norm_num [Spec.perturbation, Earth.MU, Earth.RADIUS, Moon.MU]
    have hε1 : ε ≤ 7e-8 := by rw [hε]; norm_num [Spec.perturbation, Earth.MU, Earth.RADIUS, Moon.MU]
    have hδ0 : 0 ≤ δ := by rw [hδ]; have : 0 < Earth.MU := by norm_num [Earth.MU]
                           positivity
    have hδ1 : δ ≤ 1e-4 := by
      have t1 : (w * 10) ^ 2 ≤ (2e-4 * 10) ^ 2 := pow_le_pow_left₀ (by positivity) (by linarith) 2
      have t2 : (1 + (w * 10) ^ 2 / 6) * ε ≤ 1.001 * 7e-8 := mul_le_mul (by linarith) hε1 hε0 (by norm_num)
      have t3 : 18 * Earth.MU ^ 2 / 40000 ^ 5 * 10 ^ 2 ≤ 1e-8 := by norm_num [Earth.MU]
      rw [hδ]; norm_num at t2 t3 ⊢; linarith
    have hexp := Real.abs_exp_sub_one_le (x := w * 3600) (by rw [abs_of_nonneg (by positivity)]; linarith)
    rw [abs_of_nonneg (by positivity : 0 ≤ w * 3600)] at hexp
    have t1 : δ / w * (exp (w * 3600) - 1) ≤ δ / w * (2 * (w * 3600)) :=
      mul_le_mul_of_nonneg_left ((le_abs_self _).trans hexp) (by positivity)
    have t2 : δ / w * (2 * (w * 3600)) = 7200 * δ := by field_simp; ring
    have t3 : √(2 * Earth.MU / 40000) ≤ 5 := Real.sqrt_le_iff.mpr ⟨by norm_num, by norm_num [Earth.MU]⟩
    norm_num at hδ1
    linarith
  have hep : geoTilted.state.epoch.value = 59932 + 69.184 / 86400 := rfl
  obtain ⟨q, h1, -, s', F, h2, h3, -⟩ := C175_steps F64.rounded_accurate.1 F64.rounded_accurate.2 F64.rounded_pow
    F64.rounded_tan hlog { geoTilted with step_size := 10 } rfl rfl rfl 10 3600 40000 43000 1 360 rfl
    ⟨10, 0, by norm_num, by norm_num⟩ (by norm_num)
    (by norm_num) (by norm_num) (by norm_num) (by norm_num) (by show _ ≤ geoTilted.state.epoch.value; rw [hep]; norm_num)
    (by show geoTilted.state.epoch.value ≤ _; rw [hep]; norm_num) hb (.inr hp) el hel
    (by linarith) (by linarith) (by linarith) (by norm_num) w ε δ hw hε hδ (by linarith) hV
    (bound.trans (by norm_num)) j ma hma ma1 ma2
  exact ⟨el, ma, q, s', F, hel, h2, h1, by linarith⟩

set_option maxHeartbeats 1000000 in
/-- `step_to_epoch` over four and a half minutes, which is one step, ends within 200 metres -/
example : ∃ el ma q s' F, ClassicalElements.fromIjk geoTilted.state.toState = .ok el ∧
    (∀ fuel, F ≤ fuel → ({el with mean_anomaly := ma} : ClassicalElements).toIjk fuel = .ok s') ∧
    F64.rk4StepToEpoch F64.rounded (fun x => F64.rnd (Real.tan x)) Real.log (59932 + 1 / 256) geoTilted = .ok q ∧
    (s'.position.minus q.state.position).magnitude ≤ 0.2 := by
  have hlog : Spec.LogAccurate Real.log := fun x _ => by rw [sub_self, abs_zero]; positivity
  have hu := F64.u_pos
  have hu' := F64.u_tiny
  obtain ⟨hb, hp⟩ := geoTilted_bound
  obtain ⟨el, hel, -⟩ := geoTilted_advance
  obtain ⟨g1, g2, g3, g4⟩ := geoTilted_elements hel
  have gi := geoTilted_flat hel
  have gs : |sin el.inclination| ≤ 0.2 := by
    refine abs_le_of_sq_le_sq ?_ (by norm_num)
    have := pow_le_pow_left₀ (by norm_num) gi 2
    rw [sq_abs] at this
    rw [Real.sin_sq]
    norm_num at this ⊢
    linarith
  have hep : geoTilted.state.epoch.value = 59932 + 69.184 / 86400 := rfl
  -- the step that it takes
  obtain ⟨s, hs⟩ : ∃ s, s = F64.span (59932 + 1 / 256) geoTilted.state.epoch.value := ⟨_, rfl⟩
  have s1 : 268 ≤ s ∧ s ≤ 269 := by
    obtain ⟨d, hd⟩ : ∃ d : ℝ, d = 59932 + 1 / 256 - geoTilted.state.epoch.value := ⟨_, rfl⟩
    have d1 : d * 86400 = 268.316 := by rw [hd, hep]; norm_num
    have b1 := F64.rnd_u d
    have b2 := F64.rnd_u (F64.rnd d * 86400)
    have hd0 : 0 ≤ d := by linarith
    have hg0 := F64.rnd_nonneg hd0
    rw [abs_of_nonneg hd0, abs_le] at b1
    rw [abs_of_nonneg (by positivity : 0 ≤ F64.rnd d * 86400), abs_le] at b2
    have e1 : s = F64.rnd (F64.rnd d * 86400) := by rw [hs, hd, F64.span]
    rw [← e1] at b2
    have c1 : F64.u * d ≤ 12 / 10 ^ 17 * d := mul_le_mul_of_nonneg_right hu' hd0
    have c2 : F64.u * (F64.rnd d * 86400) ≤ 12 / 10 ^ 17 * (F64.rnd d * 86400) :=
      mul_le_mul_of_nonneg_right hu' (by positivity)
    norm_num at c1 c2 d1
    constructor <;> linarith
  have hN : 1 = F64.numSteps (59932 + 1 / 256) geoTilted.state.epoch.value := by
    rw [F64.numSteps, ← hs]
    have b := F64.rnd_u (s / 300)
    rw [abs_of_nonneg (by linarith : 0 ≤ s / 300), abs_le] at b
    have c : F64.u * (s / 300) ≤ 12 / 10 ^ 17 * (s / 300) := mul_le_mul_of_nonneg_right hu' (by linarith)
    norm_num at c
    symm
    rw [Nat.ceil_eq_iff (by norm_num)]
    have p0 : 0 < F64.rnd (s / 300) := by linarith
    rw [abs_of_pos p0]
    norm_num
    constructor
    · exact p0
    · linarith
  obtain ⟨h, hh⟩ : ∃ h, h = F64.rnd (s / (1 : ℕ)) := ⟨_, rfl⟩
  have hhs : 267 ≤ h ∧ h ≤ 270 := by
    have b := F64.rnd_u (s / (1 : ℕ))
    rw [← hh, Nat.cast_one, div_one, abs_of_nonneg (by linarith : 0 ≤ s), abs_le] at b
    have c : F64.u * s ≤ 12 / 10 ^ 17 * s := mul_le_mul_of_nonneg_right hu' (by linarith)
    norm_num at c
    constructor <;> linarith
  obtain ⟨x, hx⟩ : ∃ x, x = el.mean_anomaly + √(Earth.MU / el.semimajor_axis ^ 3) * h := ⟨_, rfl⟩
  have hpi := Real.two_pi_pos
  have f1 := Int.floor_le (x / (2 * π))
  have f2 := Int.lt_floor_add_one (x / (2 * π))
  rw [le_div_iff₀ hpi] at f1
  rw [div_lt_iff₀ hpi] at f2
  have tol : el.semimajor_axis * (5e-25 / (1 - el.eccentricity)) ≤ 1e-19 := by
    have t4 : (5e-25 / (1 - el.eccentricity)) ≤ 1e-24 := by
      rw [div_le_iff₀ (by linarith)]; linarith
    have t5 : el.semimajor_axis * (5e-25 / (1 - el.eccentricity)) ≤ 41800 * 1e-24 :=
      mul_le_mul g2 t4 (div_nonneg (by norm_num) (by linarith)) (by norm_num)
    linarith
  have hA : Earth.MU / 40000 ^ 2 * h ^ 2 ≤ 19 := by
    have : h ^ 2 ≤ 270 ^ 2 := pow_le_pow_left₀ (by linarith) hhs.2 2
    have t : Earth.MU / 40000 ^ 2 ≤ 0.00025 := by norm_num [Earth.MU]
    calc _ ≤ 0.00025 * (270 : ℝ) ^ 2 := mul_le_mul t this (sq_nonneg _) (by norm_num)
      _ ≤ 19 := by norm_num
  have w1 : Spec.growthRate Earth.MU 40000 ≤ 2e-4 := by
    rw [Spec.growthRate, Real.sqrt_le_left (by norm_num)]; norm_num [Earth.MU]
  have w0 : 1e-4 ≤ Spec.growthRate Earth.MU 40000 := by
    rw [Spec.growthRate]; exact Real.le_sqrt_of_sq_le (by norm_num [Earth.MU])
  have bound : Spec.runBound Earth.MU 40000 3.28e-9 h 1 / Spec.growthRate Earth.MU 40000 ≤ 0.001 := by
    have hx : rexp (1.001 * (Spec.growthRate Earth.MU 40000 * ((1 : ℕ) * h))) ≤ 3 := by
      have k1 : 1.001 * (Spec.growthRate Earth.MU 40000 * ((1 : ℕ) * h)) ≤ 1 := by
        have : Spec.growthRate Earth.MU 40000 * h ≤ 2e-4 * 270 := mul_le_mul w1 hhs.2 (by linarith) (by norm_num)
        push_cast; norm_num at this ⊢; linarith
      exact (Real.exp_le_exp.mpr k1).trans (Real.exp_one_lt_d9.le.trans (by norm_num))
    rw [div_le_iff₀ (by norm_num at w0 ⊢; linarith), Spec.runBound]
    have h270 := hhs.2
    have h0 : 0 ≤ h := by linarith
    calc _ ≤ (3 : ℝ) * ((1 : ℕ) * (2 * (270 * (3.28e-9 * (Earth.MU / 40000 ^ 2) + 5e-15) + 4e-11 * 2e-4 + 8e-15))) := by
          have : 0 ≤ Earth.MU := by norm_num [Earth.MU]
          gcongr
      _ ≤ 0.001 * 1e-4 := by norm_num [Earth.MU]
      _ ≤ _ := by gcongr
  obtain ⟨w, hw⟩ : ∃ w, w = √(2 * Earth.MU / 40000 ^ 3) := ⟨_, rfl⟩
  obtain ⟨ε, hε⟩ : ∃ ε, ε = Spec.perturbation 40000 43000 := ⟨_, rfl⟩
  obtain ⟨δ, hδ⟩ : ∃ δ, δ = (1 + (w * h) ^ 2 / 6) * ε + 18 * Earth.MU ^ 2 / 40000 ^ 5 * h ^ 2 := ⟨_, rfl⟩
  have hw0 : 0 < w := by rw [hw]; exact Real.sqrt_pos.mpr (by norm_num [Earth.MU])
  have hw1 : w ≤ 2e-4 := by
    rw [hw]; exact Real.sqrt_le_iff.mpr ⟨by norm_num, by norm_num [Earth.MU]⟩
  have hε0 : 0 ≤ ε := by rw [hε]; norm_num [Spec.perturbation, Earth.MU, Earth.RADIUS, Moon.MU]
  have hε1 : ε ≤ 7e-8 := by rw [hε]; norm_num [Spec.perturbation, Earth.MU, Earth.RADIUS, Moon.MU]
  have hδ0 : 0 ≤ δ := by rw [hδ]; have : 0 < Earth.MU := by norm_num [Earth.MU]
                         positivity
  have hwh : w * h ≤ 2e-4 * 270 := mul_le_mul hw1 hhs.2 (by linarith) (by norm_num)
  have hwh0 : 0 ≤ w * h := mul_nonneg hw0.le (by linarith)
  have hδ1 : δ ≤ 2.2e-6 := by
    have t0 : h ^ 2 ≤ 270 ^ 2 := pow_le_pow_left₀ (by linarith) hhs.2 2
    have t1 : (w * h) ^ 2 ≤ (2e-4 * 270) ^ 2 := pow_le_pow_left₀ hwh0 hwh 2
    have t2 : (1 + (w * h) ^ 2 / 6) * ε ≤ 1.001 * 7e-8 := mul_le_mul (by linarith) hε1 hε0 (by norm_num)
    have t3 : 18 * Earth.MU ^ 2 / 40000 ^ 5 * h ^ 2 ≤ 2.8e-11 * 270 ^ 2 :=
      mul_le_mul (by norm_num [Earth.MU]) t0 (sq_nonneg _) (by norm_num)
    rw [hδ]; norm_num at t2 t3 ⊢; linarith
  have hV : √(2 * Earth.MU / 40000) + δ / w * (exp (w * h) - 1) ≤ 12 := by
    have hexp := Real.abs_exp_sub_one_le (x := w * h) (by rw [abs_of_nonneg hwh0]; linarith)
    rw [abs_of_nonneg hwh0] at hexp
    have t1 : δ / w * (exp (w * h) - 1) ≤ δ / w * (2 * (w * h)) :=
      mul_le_mul_of_nonneg_left ((le_abs_self _).trans hexp) (by positivity)
    have t2 : δ / w * (2 * (w * h)) = 2 * (δ * h) := by field_simp
    have t3 : √(2 * Earth.MU / 40000) ≤ 5 := Real.sqrt_le_iff.mpr ⟨by norm_num, by norm_num [Earth.MU]⟩
    have t4 : δ * h ≤ 2.2e-6 * 270 := mul_le_mul hδ1 hhs.2 (by linarith) (by norm_num)
    norm_num at t4
    linarith
  have drift : δ / w ^ 2 * (exp (w * h) - 1 - w * h) ≤ 0.17 := by
    have hexp := Real.abs_exp_sub_one_sub_id_le (x := w * h) (by rw [abs_of_nonneg hwh0]; linarith)
    have t1 : δ / w ^ 2 * (exp (w * h) - 1 - w * h) ≤ δ / w ^ 2 * (w * h) ^ 2 :=
      mul_le_mul_of_nonneg_left ((le_abs_self _).trans hexp) (by positivity)
    have t2 : δ / w ^ 2 * (w * h) ^ 2 = δ * h ^ 2 := by field_simp
    have t0 : h ^ 2 ≤ 270 ^ 2 := pow_le_pow_left₀ (by linarith) hhs.2 2
    have t4 : δ * h ^ 2 ≤ 2.2e-6 * 270 ^ 2 := mul_le_mul hδ1 t0 (sq_nonneg _) (by norm_num)
    norm_num at t4 ⊢
    linarith
  obtain ⟨-, q, h1, -, -, s', F, h2, h3, -⟩ := C175_epoch F64.rounded_accurate.1 F64.rounded_accurate.2 F64.rounded_pow
    F64.rounded_tan hlog geoTilted rfl rfl rfl (59932 + 1 / 256) h h 40000 43000 20 1 (by rw [hep]; norm_num) hN
    (by rw [hh, hs]) (by rw [Nat.cast_one, one_mul]) (by norm_num) (by norm_num) (by rw [hep]; norm_num)
    (by rw [hep]; norm_num) hb (.inr hp) el hel
    (by linarith) (by linarith) (by linarith) (by norm_num) w ε δ hw hε hδ (by linarith) hV
    (bound.trans (by norm_num)) (-⌊x / (2 * π)⌋) _ rfl (by rw [← hx]; push_cast; nlinarith) (by rw [← hx]; push_cast; nlinarith)
  exact ⟨el, _, q, s', F, hel, h2, h1, by linarith⟩

end Openspace
