import Verif.Lemmas.DoubleDerivative
import Verif.Props.DoubleGravity
import Verif.Spec.Propagation

/-! # A step of the inertial propagator in double precision -/

namespace Openspace.F64

open Real Spec

theorem rnd_half {h : ℝ} (hb : Spec.IsBinary64 h) : rnd (h / 2) = h / 2 ∧ rnd (h / 2 * 2) = h := by
  constructor
  · refine (isDouble_iff _).mpr ?_
    obtain ⟨m, e, h1, h2⟩ := hb
    refine ⟨m, e - 1, h1, ?_⟩
    rw [h2, zpow_sub_one₀ two_ne_zero]
    ring
  · rw [div_mul_cancel₀ h two_ne_zero]
    exact (isDouble_iff _).mpr hb

/-- a rounded stage value `b + k τ` -/
theorem advance_error {b k' k : Vec3} {τ d B K : ℝ} (hτ : 0 ≤ τ) (h : (k'.minus k).magnitude ≤ d) (hB : b.magnitude ≤ B)
    (hK : k.magnitude ≤ K) :
    ((plus b (scaled k' τ)).minus (b.plus (k.scaled τ))).magnitude ≤ 1.0001 * (τ * d) + 2.5e-16 * (B + τ * K) := by
  have hu := u_pos
  have hu' := u_tiny
  have h1 := scaled_round (a := k') (Near.refl τ) le_rfl (by norm_num)
  have h2 := scaled_minus k' k τ
  have h3 := minus_triangle (scaled k' τ) (k'.scaled τ) (k.scaled τ)
  have h4 := magnitude_le_of_minus k' k
  have d0 := (Vec3.magnitude_nonneg _).trans h
  have K0 := (Vec3.magnitude_nonneg _).trans hK
  have B0 := (Vec3.magnitude_nonneg _).trans hB
  rw [abs_of_nonneg hτ] at h1 h2
  have h5 : (0 + 1.01) * u * (τ * k'.magnitude) ≤ 1.22e-16 * (τ * (K + d)) := by
    have : (0 + 1.01) * u ≤ 1.22e-16 := by norm_num at hu' ⊢; linarith
    have : k'.magnitude ≤ K + d := by linarith
    have := k'.magnitude_nonneg
    gcongr
  have h6 : τ * (k'.minus k).magnitude ≤ τ * d := by gcongr
  have h7 : ((scaled k' τ).minus (k.scaled τ)).magnitude ≤ τ * d + 1.22e-16 * (τ * (K + d)) := by linarith
  have h8 : (k.scaled τ).magnitude ≤ τ * K := by
    rw [Vec3.magnitude_scaled_abs, abs_of_nonneg hτ]; gcongr
  obtain ⟨h9, -⟩ := plus_error (self_minus b) h7 hB h8
  refine h9.trans ?_
  have t1 : 0 ≤ τ * K := by positivity
  have t2 : 0 ≤ τ * d := by positivity
  norm_num
  linarith

/-- the weighted mean of the stages -/
theorem mean_error {a' b' c' d' a b c d : Vec3} {ea eb ec ed K : ℝ} (ha : (a'.minus a).magnitude ≤ ea)
    (hb : (b'.minus b).magnitude ≤ eb) (hc : (c'.minus c).magnitude ≤ ec) (hd : (d'.minus d).magnitude ≤ ed)
    (hA : a.magnitude ≤ K) (hB : b.magnitude ≤ K) (hC : c.magnitude ≤ K) (hD : d.magnitude ≤ K) :
    ((mean a' b' c' d').minus ((a.plus ((b.scaled 2).plus ((c.scaled 2).plus d))).scaled (1 / 6))).magnitude ≤
      1.0001 * ((ea + 2 * eb + 2 * ec + ed) / 6) + 1e-15 * K ∧
    ((a.plus ((b.scaled 2).plus ((c.scaled 2).plus d))).scaled (1 / 6)).magnitude ≤ K := by
  have hu := u_pos
  have hu' := u_tiny
  have n1 := (Vec3.magnitude_nonneg _).trans ha
  have n2 := (Vec3.magnitude_nonneg _).trans hb
  have n3 := (Vec3.magnitude_nonneg _).trans hc
  have n4 := (Vec3.magnitude_nonneg _).trans hd
  have nK := (Vec3.magnitude_nonneg _).trans hA
  have two : ∀ {v' v : Vec3} {e : ℝ}, (v'.minus v).magnitude ≤ e → v.magnitude ≤ K →
      ((scaled v' 2).minus (v.scaled 2)).magnitude ≤ 2.00001 * e + 2.5e-16 * K ∧ (v.scaled 2).magnitude ≤ 2 * K := by
    intro v' v e h hK
    have h1 := scaled_round (a := v') (Near.refl (2 : ℝ)) le_rfl (by norm_num)
    have h2 := scaled_minus v' v 2
    have h3 := minus_triangle (scaled v' 2) (v'.scaled 2) (v.scaled 2)
    have h4 := magnitude_le_of_minus v' v
    have e0 := (Vec3.magnitude_nonneg _).trans h
    rw [abs_of_nonneg (by norm_num : (0 : ℝ) ≤ 2)] at h1 h2
    have h5 : (0 + 1.01) * u * (2 * v'.magnitude) ≤ 1.22e-16 * (2 * (K + e)) := by
      have : (0 + 1.01) * u ≤ 1.22e-16 := by norm_num at hu' ⊢; linarith
      have : v'.magnitude ≤ K + e := by linarith
      have := v'.magnitude_nonneg
      gcongr
    refine ⟨?_, by rw [Vec3.magnitude_scaled_abs, abs_of_nonneg (by norm_num)]; linarith⟩
    norm_num at h5 ⊢
    linarith
  obtain ⟨b1, b2⟩ := two hb hB
  obtain ⟨c1, c2⟩ := two hc hC
  obtain ⟨s1, t1⟩ := plus_error c1 hd c2 hD
  obtain ⟨s2, t2⟩ := plus_error b1 s1 b2 t1
  obtain ⟨s3, t3⟩ := plus_error ha s2 hA t2
  obtain ⟨X, hX⟩ : ∃ X, X = a.plus ((b.scaled 2).plus ((c.scaled 2).plus d)) := ⟨_, rfl⟩
  obtain ⟨X', hX'⟩ : ∃ X', X' = plus a' (plus (scaled b' 2) (plus (scaled c' 2) d')) := ⟨_, rfl⟩
  rw [mean, ← hX, ← hX']
  rw [← hX] at s3 t3
  rw [← hX'] at s3
  have hn : Near (rnd (1 / 6)) (1 / 6) 1 := near_rnd _
  have h1 := scaled_round (a := X') hn (by norm_num) (by norm_num)
  have h2 := scaled_minus X' X (1 / 6)
  have h3 := minus_triangle (scaled X' (rnd (1 / 6))) (X'.scaled (1 / 6)) (X.scaled (1 / 6))
  have h4 := magnitude_le_of_minus X' X
  have h0 := X'.magnitude_nonneg
  rw [abs_of_nonneg (by norm_num : (0 : ℝ) ≤ 1 / 6)] at h1 h2
  have h5 : (1 + 1.01) * u * (1 / 6 * X'.magnitude) ≤ 2.42e-16 * (1 / 6 * X'.magnitude) := by
    gcongr
    norm_num at hu' ⊢; linarith
  constructor
  · norm_num at h5 s3 ⊢
    norm_num at h2 h1
    linarith
  · rw [Vec3.magnitude_scaled_abs, abs_of_nonneg (by norm_num)]
    linarith

/-- the errors of the stages, and of the step -/
theorem rk4_numbers {h F L v2 v3 v4 p2 p3 p4 A2 A3 A4 : ℝ} (h0 : 0 ≤ h) (h1 : h ≤ 300) (F0 : 0 ≤ F) (F1 : F ≤ 4e-10)
    (hL : 0 ≤ L) (hL1 : L ≤ 2.11e-5) (hv2 : v2 ≤ 1.0001 * (h / 2 * F) + 4e-15) (hp2 : p2 ≤ 3.2e-11) (hA2 : A2 ≤ L * p2 + F)
    (hp3 : p3 ≤ 1.0001 * (h / 2 * v2) + 3.2e-11) (hv3 : v3 ≤ 1.0001 * (h / 2 * A2) + 4e-15) (hA3 : A3 ≤ L * p3 + F)
    (hp4 : p4 ≤ 1.0001 * (h * v3) + 3.2e-11) (hv4 : v4 ≤ 1.0001 * (h * A3) + 4e-15) (hA4 : A4 ≤ L * p4 + F) :
    p3 ≤ 1e-3 ∧ p4 ≤ 1e-3 ∧
    1.0001 * (h * (1.0001 * ((0 + 2 * v2 + 2 * v3 + v4) / 6) + 1e-15 * 16)) + 3.2e-11 ≤ 0.6 * (h ^ 2 * F) + 1e-10 ∧
    1.0001 * (h * (1.0001 * ((F + 2 * A2 + 2 * A3 + A4) / 6) + 1e-15 * 0.011)) + 4e-15 ≤ 1.35 * (h * F) + 3e-13 := by
  norm_num at h1 hL1 hv2 hp2 hp3 hv3 hp4 hv4 F1
  obtain ⟨X, hX⟩ : ∃ X, X = h * F := ⟨_, rfl⟩
  obtain ⟨Y, hY⟩ : ∃ Y, Y = h ^ 2 * F := ⟨_, rfl⟩
  have X0 : 0 ≤ X := by rw [hX]; positivity
  have Y0 : 0 ≤ Y := by rw [hY]; positivity
  have Y1 : Y ≤ 1e-4 := by
    rw [hY]
    calc h ^ 2 * F ≤ 300 ^ 2 * (1 / 2500000000) := by gcongr
      _ ≤ _ := by norm_num
  have l1 : L * h ≤ 6.33e-3 := by
    calc L * h ≤ 211 / 10000000 * 300 := by gcongr
      _ ≤ _ := by norm_num
  have l2 : L * h ^ 2 ≤ 1.9 := by
    calc L * h ^ 2 ≤ 211 / 10000000 * 300 ^ 2 := by gcongr
      _ ≤ _ := by norm_num
  have l0 : 0 ≤ L * h := by positivity
  have l3 : 0 ≤ L * h ^ 2 := by positivity
  -- a position error, carried to the next velocity and position
  have key : ∀ {p α β : ℝ}, 0 ≤ α → 0 ≤ β → p ≤ α * Y + β →
      h * (L * p) ≤ 1.9 * α * X + 6.33e-3 * β ∧ h ^ 2 * (L * p) ≤ 1.9 * α * Y + 1.9 * β := by
    intro p α β ha hb hp
    have k1 : h * (L * p) ≤ (L * h) * (α * Y + β) := by
      have := mul_le_mul_of_nonneg_left hp l0
      linarith
    have k2 : h ^ 2 * (L * p) ≤ (L * h ^ 2) * (α * Y + β) := by
      have := mul_le_mul_of_nonneg_left hp l3
      linarith
    have k3 : (L * h) * (α * Y) ≤ 1.9 * α * X := by
      have : (L * h) * (α * Y) = (L * h ^ 2) * (α * X) := by rw [hX, hY]; ring
      rw [this, mul_assoc 1.9]
      gcongr
    have k4 : (L * h) * β ≤ 6.33e-3 * β := by gcongr
    have k5 : (L * h ^ 2) * (α * Y) ≤ 1.9 * (α * Y) := by gcongr
    have k6 : (L * h ^ 2) * β ≤ 1.9 * β := by gcongr
    constructor <;> linarith
  have eXY : h * X = Y := by rw [hX, hY]; ring
  have a1 : h * v2 ≤ 0.50005 * Y + 1.2e-12 := by
    have := mul_le_mul_of_nonneg_left hv2 h0
    have e : h * (10001 / 10000 * (h / 2 * F) + 1 / 250000000000000) = 0.50005 * Y + h / 250000000000000 := by
      rw [hY]; ring
    rw [e] at this
    norm_num at this ⊢
    linarith
  have a2 : p3 ≤ 0.25006 * Y + 3.3e-11 := by norm_num at a1 ⊢; linarith
  obtain ⟨q1, q2⟩ := key (α := 0.25006) (β := 3.3e-11) (by norm_num) (by norm_num) a2
  obtain ⟨q3, q4⟩ := key (p := p2) (α := 0) (β := 3.2e-11) le_rfl (by norm_num) (by norm_num; linarith)
  have a3 : h * A2 ≤ X + 2.1e-13 := by
    have := mul_le_mul_of_nonneg_left hA2 h0
    rw [mul_add, ← hX] at this
    norm_num at q3 ⊢; linarith
  have a4 : h ^ 2 * A2 ≤ Y + 6.1e-11 := by
    have := mul_le_mul_of_nonneg_left hA2 (sq_nonneg h)
    rw [mul_add, ← hY] at this
    norm_num at q4 ⊢; linarith
  have a5 : h * v3 ≤ 0.50005 * Y + 3.2e-11 := by
    have := mul_le_mul_of_nonneg_left hv3 h0
    have e : h * (10001 / 10000 * (h / 2 * A2) + 1 / 250000000000000) = 0.50005 * (h ^ 2 * A2) + h / 250000000000000 := by ring
    rw [e] at this
    norm_num at this a4 ⊢; linarith
  have a6 : p4 ≤ 0.50011 * Y + 6.5e-11 := by norm_num at a5 ⊢; linarith
  obtain ⟨q5, q6⟩ := key (α := 0.50011) (β := 6.5e-11) (by norm_num) (by norm_num) a6
  have a7 : h * A3 ≤ X + 0.4752 * X + 2.1e-13 := by
    have := mul_le_mul_of_nonneg_left hA3 h0
    rw [mul_add, ← hX] at this
    norm_num at q1 ⊢; linarith
  have a8 : h ^ 2 * A3 ≤ Y + 0.4752 * Y + 6.3e-11 := by
    have := mul_le_mul_of_nonneg_left hA3 (sq_nonneg h)
    rw [mul_add, ← hY] at this
    norm_num at q2 ⊢; linarith
  have a9 : h * v4 ≤ 1.4754 * Y + 6.5e-11 := by
    have := mul_le_mul_of_nonneg_left hv4 h0
    have e : h * (10001 / 10000 * (h * A3) + 1 / 250000000000000) = 1.0001 * (h ^ 2 * A3) + h / 250000000000000 := by ring
    rw [e] at this
    norm_num at this a8 ⊢; linarith
  have a10 : h * A4 ≤ X + 0.9503 * X + 4.2e-13 := by
    have := mul_le_mul_of_nonneg_left hA4 h0
    rw [mul_add, ← hX] at this
    norm_num at q5 ⊢; linarith
  norm_num at Y1
  refine ⟨by norm_num at a2 ⊢; linarith, by norm_num at a6 ⊢; linarith, ?_, ?_⟩
  · rw [← hY]
    norm_num at a1 a5 a9 ⊢
    linarith
  · rw [← hX]
    norm_num at a3 a7 a10 ⊢
    linarith

section

variable {lib : Libm} {tan ln : ℝ → ℝ} (hlib : Spec.Accurate lib) (hatan : Spec.Atan2Accurate lib)
  (hpow : Spec.PowAccurate lib) (htan : Spec.TanAccurate tan)

include hlib hatan hpow htan

/-- the derivative in a stage -/
theorem stage_error {f δ R : ℝ} {s' s : GCRF} (he : s'.epoch = s.epoch) (hu' : s'.use_perturbations = true)
    (hu : s.use_perturbations = true) (hk' : s'.srp_scalar = 0) (hk : s.srp_scalar = 0)
    (hF : FrameError lib s.epoch.value f) (hf : f ≤ 3.4e-9) (h0 : 1 ≤ s.epoch.value) (h1 : s.epoch.value ≤ 131072)
    (hp : (s'.position.minus s.position).magnitude ≤ δ) (hδ : δ ≤ 1e-3) (hR : 6378 ≤ R) (hs : Spec.Covered R s.position)
    (ht : (s'.thrust.minus s.thrust).magnitude ≤ 4e-15 * s.thrust.magnitude) (hT : s.thrust.magnitude ≤ 1e-3) :
    ∃ a' a, derivative lib tan s' = .ok (s'.velocity, a') ∧ s.derivative = .ok (s.velocity, a) ∧
      (a'.minus a).magnitude ≤ 2.11e-5 * δ + ((9.62 * f + 1e-14) * (Earth.MU / R ^ 2) + 5e-15) ∧ a.magnitude ≤ 0.011 := by
  obtain ⟨r1, r2, r3⟩ := hs
  obtain ⟨r, hr⟩ : ∃ r, r = s.position.magnitude := ⟨_, rfl⟩
  rw [← hr] at r1 r2
  have R0 : 0 < R := by linarith
  have hr0 : 0 < r := by linarith
  have hδ0 := (Vec3.magnitude_nonneg _).trans hp
  have hlo := hF.lo
  obtain ⟨q, hq⟩ := gcrfToItrf_ok s.position s.epoch
  have hj : |s.epoch.julianCenturies| ≤ 5 := by
    simp only [Epoch.julianCenturies, Epoch.julianValue, Epoch.JULIAN_CENTURY, Epoch.MJD_ZERO, Epoch.J2000_JULIAN_DATE]
    rw [_root_.abs_le]; constructor <;> norm_num <;> linarith
  have hax := axis_of_inertial hj r3 hq
  have hax' : 0.05 * q.magnitude ≤ axis q := by
    rw [axis, ← sq, ← sq]; exact hax
  have hε0 : 0 ≤ δ / r := by positivity
  have hε1 : δ / r ≤ 2e-7 := by
    rw [div_le_iff₀ hr0]; norm_num at hδ ⊢; linarith
  obtain ⟨a', a, e1, e2, e3, e4⟩ := derivative_error (c := 0.05) (ε := δ / r) hlib hatan hpow htan he hu' hu hk' hk hF h0 h1
    hε0 (by rw [← hr, div_mul_cancel₀ _ hr0.ne']; exact hp) (by rw [← hr]; linarith) (by rw [← hr]; linarith) hq (by norm_num)
    (by norm_num) hax' (by norm_num at hf hε1 ⊢; linarith) ht hT
  refine ⟨a', a, e1, e2, e3.trans ?_, e4.trans ?_⟩
  · rw [← hr]
    have hM : 0 < Earth.MU := by norm_num [Earth.MU]
    have g1 : Earth.MU / r ^ 2 ≤ Earth.MU / R ^ 2 := by gcongr
    have g2 : δ / r * (Earth.MU / r ^ 2) ≤ 1.5365e-6 * δ := by
      have : δ / r * (Earth.MU / r ^ 2) = Earth.MU / r ^ 3 * δ := by field_simp
      rw [this]
      gcongr
      calc Earth.MU / r ^ 3 ≤ Earth.MU / 6378 ^ 3 := by gcongr; linarith
        _ ≤ _ := by norm_num [Earth.MU]
    have g0 : 0 ≤ Earth.MU / r ^ 2 := by positivity
    have g3 : (9.62 * f + 1e-14) * (Earth.MU / r ^ 2) ≤ (9.62 * f + 1e-14) * (Earth.MU / R ^ 2) := by
      have : 0 ≤ f := by norm_num at hlo ⊢; linarith
      gcongr
    have g4 : 0 ≤ δ / r * (Earth.MU / r ^ 2) := by positivity
    have e : (0.481 * ((f + δ / r) / 0.05) + 2.05 * (δ / r) + 1e-14) * (Earth.MU / r ^ 2) =
        (9.62 * f + 1e-14) * (Earth.MU / r ^ 2) + 11.67 * (δ / r * (Earth.MU / r ^ 2)) := by ring
    rw [e]
    norm_num at g2 g3 ⊢
    linarith
  · rw [← hr]
    have : Earth.MU / r ^ 2 ≤ 9.8e-3 := by
      calc Earth.MU / r ^ 2 ≤ Earth.MU / 6378 ^ 2 := by
            have hM : 0 < Earth.MU := by norm_num [Earth.MU]
            gcongr; linarith
        _ ≤ _ := by norm_num [Earth.MU]
    norm_num at this ⊢
    linarith

/-- a stage of the integrator: exact and rounded -/
theorem stage_pair {p : RK4} {f δ R e dt : ℝ} {r' r v' v t' t : Vec3} (hF : FrameError lib e f) (hf : f ≤ 3.4e-9)
    (h0 : 1 ≤ e) (h1 : e ≤ 131072) (hp : (r'.minus r).magnitude ≤ δ) (hδ : δ ≤ 1e-3) (hR : 6378 ≤ R)
    (hs : Spec.Covered R r) (ht' : thrustVector ln p.m_dot p.m0 p.isp p.thrust_direction dt = .ok t')
    (ht : p.thrustVector dt = .ok t) (hte : (t'.minus t).magnitude ≤ 4e-15 * t.magnitude) (hT : t.magnitude ≤ 1e-3) :
    ∃ a' a, stage lib tan ln p e r' v' dt = .ok (v', a') ∧ p.stage ⟨e⟩ r v dt = .ok (v, a) ∧
      (a'.minus a).magnitude ≤ 2.11e-5 * δ + ((9.62 * f + 1e-14) * (Earth.MU / R ^ 2) + 5e-15) ∧ a.magnitude ≤ 0.011 := by
  obtain ⟨a', a, e1, e2, e3, e4⟩ := stage_error (s' := { GCRF.new ⟨e⟩ r' v' with thrust := t' })
    (s := { GCRF.new ⟨e⟩ r v with thrust := t }) hlib hatan hpow htan rfl rfl rfl rfl rfl hF hf h0 h1 hp hδ hR hs hte hT
  exact ⟨a', a, by simp only [stage, ht', ok_bind]; exact e1, by simp only [RK4.stage, ht, ok_bind]; exact e2, e3, e4⟩

omit hlib hatan hpow htan in
theorem speed_le {v a : Vec3} {τ : ℝ} (h0 : 0 ≤ τ) (h1 : τ ≤ 300) (hv : v.magnitude ≤ 12) (ha : a.magnitude ≤ 0.011) :
    (v.plus (a.scaled τ)).magnitude ≤ 16 := by
  have := Vec3.magnitude_plus_le v (a.scaled τ)
  rw [Vec3.magnitude_scaled_abs, abs_of_nonneg h0] at this
  have ha0 := a.magnitude_nonneg
  have : τ * a.magnitude ≤ 300 * 0.011 := by gcongr
  norm_num at this
  linarith

set_option maxHeartbeats 1000000 in
theorem step_core {p : RK4} {f R h e0 e1 e2 : ℝ} {r v : Vec3} (hh : p.step_size = h) (hr : p.state.position = r)
    (hv : p.state.velocity = v) (hb : Spec.IsBinary64 h) (h0 : 0 < h) (h1 : h ≤ 300) (hsrp : p.state.srp_scalar = 0)
    (hpert : p.state.use_perturbations = true) (hV : v.magnitude ≤ 12) (hR : 6378 ≤ R) (hf : f ≤ 3.4e-9)
    (he0 : p.state.epoch.value = e0) (he1 : e1 = plusDays e0 (rnd (h / 2 / 86400)))
    (he2 : e2 = plusDays e1 (rnd (h / 2 / 86400))) (F0 : FrameError lib e0 f) (F1 : FrameError lib e1 f)
    (F2 : FrameError lib e2 f) (l0 : 1 ≤ e0 ∧ e0 ≤ 131072) (l1 : 1 ≤ e1 ∧ e1 ≤ 131072) (l2 : 1 ≤ e2 ∧ e2 ≤ 131072)
    (thr : ∀ dt, dt = 0 ∨ dt = h / 2 ∨ dt = h → ∃ t' t, thrustVector ln p.m_dot p.m0 p.isp p.thrust_direction dt = .ok t' ∧
      p.thrustVector dt = .ok t ∧ (t'.minus t).magnitude ≤ 4e-15 * t.magnitude ∧ t.magnitude ≤ 1e-3)
    {t0 : Vec3} {k1 k2 k3 : Vec3 × Vec3} (ht0 : p.thrustVector 0 = .ok t0)
    (hk1 : ({ p.state with thrust := t0 } : GCRF).derivative = .ok k1)
    (hk2 : p.stage ⟨e1⟩ (r.plus (k1.1.scaled (h / 2))) (v.plus (k1.2.scaled (h / 2))) (h / 2) = .ok k2)
    (hk3 : p.stage ⟨e1⟩ (r.plus (k2.1.scaled (h / 2))) (v.plus (k2.2.scaled (h / 2))) (h / 2) = .ok k3)
    (hP1 : Spec.Covered R r) (hP2 : Spec.Covered R (r.plus (k1.1.scaled (h / 2))))
    (hP3 : Spec.Covered R (r.plus (k2.1.scaled (h / 2)))) (hP4 : Spec.Covered R (r.plus (k3.1.scaled h))) :
    ∃ k4 s', p.stage ⟨e2⟩ (r.plus (k3.1.scaled h)) (v.plus (k3.2.scaled h)) h = .ok k4 ∧
      rk4Step lib tan ln p = .ok s' ∧ s'.epoch = ⟨e2⟩ ∧
      (s'.position.minus (r.plus (((k1.1.plus ((k2.1.scaled 2).plus ((k3.1.scaled 2).plus k4.1))).scaled (1 / 6)).scaled h))).magnitude
        ≤ 0.6 * (h ^ 2 * ((9.62 * f + 1e-14) * (Earth.MU / R ^ 2) + 5e-15)) + 1e-10 ∧
      (s'.velocity.minus (v.plus (((k1.2.plus ((k2.2.scaled 2).plus ((k3.2.scaled 2).plus k4.2))).scaled (1 / 6)).scaled h))).magnitude
        ≤ 1.35 * (h * ((9.62 * f + 1e-14) * (Earth.MU / R ^ 2) + 5e-15)) + 3e-13 := by
  have hlo := F0.lo
  have R0 : 0 < R := by linarith
  have hM : 0 < Earth.MU := by norm_num [Earth.MU]
  have hr0 := hP1.2.1
  have hh2 : 0 ≤ h / 2 := by linarith
  obtain ⟨F, hFe⟩ : ∃ F, F = (9.62 * f + 1e-14) * (Earth.MU / R ^ 2) + 5e-15 := ⟨_, rfl⟩
  have hF0 : 0 ≤ F := by
    rw [hFe]
    have : 0 ≤ f := by norm_num at hlo ⊢; linarith
    positivity
  have hF1 : F ≤ 4e-10 := by
    rw [hFe]
    have g : Earth.MU / R ^ 2 ≤ 9.8e-3 := by
      calc Earth.MU / R ^ 2 ≤ Earth.MU / 6378 ^ 2 := by gcongr
        _ ≤ _ := by norm_num [Earth.MU]
    have : (9.62 * f + 1e-14) * (Earth.MU / R ^ 2) ≤ (9.62 * 3.4e-9 + 1e-14) * 9.8e-3 := by
      have : 0 ≤ f := by norm_num at hlo ⊢; linarith
      gcongr
    refine (add_le_add_left this _).trans ?_
    norm_num
  rw [← hFe]
  -- the first stage
  obtain ⟨τ0', τ0, a1, a2, a3, a4⟩ := thr 0 (Or.inl rfl)
  obtain rfl : τ0 = t0 := by rw [ht0, Except.ok.injEq] at a2; exact a2.symm
  obtain ⟨A1', A1, b1, b2, b3, b4⟩ := stage_error (δ := 0) (s' := { p.state with thrust := τ0' })
    (s := { p.state with thrust := τ0 }) hlib hatan hpow htan rfl hpert hpert hsrp hsrp (by rw [← he0] at F0; exact F0) hf
    (by rw [← he0] at l0; exact l0.1) (by rw [← he0] at l0; exact l0.2) (self_minus _) (by norm_num) hR
    (by rw [← hr] at hP1; exact hP1) a3 a4
  rw [← hFe, mul_zero, zero_add] at b3
  obtain rfl : k1 = (v, A1) := by rw [hk1, Except.ok.injEq] at b2; rw [b2, ← hv]
  -- the second stage
  obtain ⟨τ1', τ1, c1, c2, c3, c4⟩ := thr (h / 2) (Or.inr (Or.inl rfl))
  have dp2 := advance_error (b := r) (τ := h / 2) hh2 (self_minus v) hr0 (hV.trans (by norm_num : (12 : ℝ) ≤ 16))
  have dv2 := advance_error (b := v) (τ := h / 2) hh2 b3 hV b4
  have ep : ∀ {τ x : ℝ}, τ ≤ h → x + 2.5e-16 * (120000 + τ * 16) ≤ x + 3.2e-11 := by
    intro τ x hτ; norm_num; linarith
  have ev : ∀ {τ x : ℝ}, τ ≤ h → x + 2.5e-16 * (12 + τ * 0.011) ≤ x + 4e-15 := by
    intro τ x hτ; norm_num; linarith
  have dp2' := dp2.trans (ep (by linarith))
  have dv2' := dv2.trans (ev (by linarith))
  rw [mul_zero, mul_zero, zero_add] at dp2'
  obtain ⟨A2', A2, d1, d2, d3, d4⟩ := stage_pair hlib hatan hpow htan (p := p)
    (v' := plus v (scaled A1' (h / 2))) (v := v.plus (A1.scaled (h / 2))) F1 hf l1.1 l1.2 dp2' (by norm_num) hR hP2 c1 c2 c3 c4
  rw [← hFe] at d3
  obtain rfl : k2 = (v.plus (A1.scaled (h / 2)), A2) := by rw [hk2, Except.ok.injEq] at d2; exact d2
  -- the third stage
  have V2 := speed_le hh2 (by linarith) hV b4
  have dp3 := (advance_error (b := r) (τ := h / 2) hh2 dv2' hr0 V2).trans (ep (by linarith))
  have dv3 := (advance_error (b := v) (τ := h / 2) hh2 d3 hV d4).trans (ev (by linarith))
  have num := @rk4_numbers h F 2.11e-5 _ _ _ _ _ _ _ _ _ h0.le h1 hF0 hF1 (by norm_num) le_rfl le_rfl le_rfl le_rfl le_rfl le_rfl
    le_rfl le_rfl le_rfl le_rfl
  obtain ⟨n3, n4, n5, n6⟩ := num
  obtain ⟨A3', A3, f1, f2, f3, f4⟩ := stage_pair hlib hatan hpow htan (p := p)
    (v' := plus v (scaled A2' (h / 2))) (v := v.plus (A2.scaled (h / 2))) F1 hf l1.1 l1.2 dp3 n3 hR hP3 c1 c2 c3 c4
  rw [← hFe] at f3
  obtain rfl : k3 = (v.plus (A2.scaled (h / 2)), A3) := by rw [hk3, Except.ok.injEq] at f2; exact f2
  -- the fourth stage
  have V3 := speed_le hh2 (by linarith) hV d4
  have dp4 := (advance_error (b := r) (τ := h) h0.le dv3 hr0 V3).trans (ep le_rfl)
  have dv4 := (advance_error (b := v) (τ := h) h0.le f3 hV f4).trans (ev le_rfl)
  obtain ⟨τ2', τ2, g1, g2, g3, g4⟩ := thr h (Or.inr (Or.inr rfl))
  obtain ⟨A4', A4, j1, j2, j3, j4⟩ := stage_pair hlib hatan hpow htan (p := p)
    (v' := plus v (scaled A3' h)) (v := v.plus (A3.scaled h)) F2 hf l2.1 l2.2 dp4 n4 hR hP4 g1 g2 g3 g4
  rw [← hFe] at j3
  have V4 := speed_le h0.le h1 hV f4
  obtain ⟨mv, mv'⟩ := mean_error (self_minus v) dv2' dv3 dv4 (hV.trans (by norm_num : (12 : ℝ) ≤ 16)) V2 V3 V4
  obtain ⟨ma, ma'⟩ := mean_error b3 d3 f3 j3 b4 d4 f4 j4
  have fp := (advance_error (b := r) (τ := h) h0.le mv hr0 mv').trans (ep le_rfl)
  have fv := (advance_error (b := v) (τ := h) h0.le ma hV ma').trans (ev le_rfl)
  obtain ⟨x1, x2⟩ := rnd_half hb
  simp only [hv] at b1
  refine ⟨_, GCRF.new ⟨e2⟩ (plus r (scaled (mean v (plus v (scaled A1' (h / 2))) (plus v (scaled A2' (h / 2)))
    (plus v (scaled A3' h))) h)) (plus v (scaled (mean A1' A2' A3' A4') h)), j2, ?_, rfl, fp.trans n5, fv.trans n6⟩
  simp only [rk4Step, hh, hr, hv, a1, b1, ok_bind, x1, x2, he0, ← he1, ← he2, d1, f1, j1, pure_eq_ok]

end

end Openspace.F64
