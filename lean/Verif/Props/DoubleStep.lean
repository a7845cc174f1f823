import Verif.Lemmas.DoubleStep
import Verif.Props.DoubleBurn
import Verif.Props.DoubleDerivative
import Verif.Props.Propagation
import Verif.Props.StepSucceeds

/-! # C145: a step of the inertial propagator in double precision -/

namespace Openspace

open Real

/-- `clock dt` is the epoch that the program computes for `dt` seconds after the start of a step of `h` seconds from the
epoch `e` -/
structure F64.Clock (clock : ℝ → ℝ) (h e : ℝ) : Prop where
  start : clock 0 = e
  middle : clock (h / 2) = F64.plusDays e (F64.rnd (F64.rnd (h / 2) / 86400))
  stop : clock h = F64.step h e

/-- `f` is the force law of a propagator (C42) by that clock -/
def F64.Represents (p : RK4) (clock : ℝ → ℝ) (f : ℝ → Spec.Phase → Spec.Phase) : Prop :=
  ∀ (dt : ℝ) (r v T : Vec3) (d : Vec3 × Vec3), p.thrustVector dt = .ok T →
    ({ GCRF.new ⟨clock dt⟩ r v with thrust := T } : GCRF).derivative = .ok d → f dt (Spec.phase r v) = Spec.phase d.1 d.2

theorem F64.thrust_pair {ln : ℝ → ℝ} (hln : Spec.LogAccurate ln) {p : RK4} {h : ℝ} (h0 : 0 < h)
    (he : Spec.EngineOk p.m_dot p.m0 p.isp SEA_LEVEL_G h p.thrust_direction) (dt : ℝ) (hd : dt = 0 ∨ dt = h / 2 ∨ dt = h) :
    ∃ t' t, F64.thrustVector ln p.m_dot p.m0 p.isp p.thrust_direction dt = .ok t' ∧
      p.thrustVector dt = .ok t ∧ (t'.minus t).magnitude ≤ 4e-15 * t.magnitude ∧ t.magnitude ≤ 1e-3 := by
  rcases he with hm | ⟨hm, hm0, hi, hn, h1, h2, h3⟩
  · refine ⟨_, _, by simp only [F64.thrustVector, hm, ne_eq, not_true, if_false, pure_eq_ok]; rfl, C43_off p dt hm, ?_, ?_⟩
    · refine (F64.self_minus _).trans ?_
      rw [Vec3.magnitude_eq_zero.mpr rfl]; norm_num
    · rw [Vec3.magnitude_eq_zero.mpr rfl]; norm_num
  · have hdt : 0 ≤ dt ∧ dt ≤ h := by rcases hd with rfl | rfl | rfl <;> constructor <;> linarith
    have hle : p.m_dot * dt ≤ p.m_dot * h := by gcongr; exact hdt.2
    have hlt : p.m_dot * h < p.m0 := by norm_num at h2; linarith
    obtain ⟨t', t, a1, a2, a3⟩ := C142_thrust_partial hln p dt hm hm0 hn (by
      rcases hd with rfl | rfl | rfl
      · exact Or.inl rfl
      · exact Or.inr h1
      · refine Or.inr (h1.trans ?_)
        gcongr; linarith) (hle.trans h2)
    obtain ⟨w, hw, ha⟩ := C43_thrust p dt hm.ne' hm0 (lt_of_le_of_lt hle hlt) hn
    refine ⟨t', t, a1, a2, a3, ?_⟩
    rw [a2, Except.ok.injEq] at ha
    rw [ha, Vec3.magnitude_scaled_abs, Vec3.magnitude_of_dot zero_le_one (by rw [Vec3.normalized_dot_self hw]; norm_num), mul_one]
    have hg : 0 ≤ SEA_LEVEL_G := by norm_num [SEA_LEVEL_G]
    rw [abs_of_nonneg (div_nonneg (by positivity) (by linarith))]
    refine le_trans ?_ h3
    gcongr

theorem F64.frame_error {lib : F64.Libm} (hlib : Spec.Accurate lib) {e : ℝ} (h0 : 1 ≤ e) (h1 : e ≤ 131072) :
    F64.FrameError lib e 3.4e-9 :=
  ⟨C139_to_itrf hlib h0 h1, C139_to_gcrf hlib h0 h1, by norm_num⟩

theorem F64.frame_error_daytime {lib : F64.Libm} (hlib : Spec.Accurate lib) {e : ℝ} (h0 : 1 ≤ e) (h1 : e ≤ 131072) (n : ℤ)
    (h2 : n + 16 / 10 ^ 12 < e - 69.184 / 86400) (h3 : e - 69.184 / 86400 < n + 1 - 16 / 10 ^ 12) :
    F64.FrameError lib e 1.4e-10 :=
  ⟨C139_to_itrf_daytime hlib h0 h1 n h2 h3, C139_to_gcrf_daytime hlib h0 h1 n h2 h3, by norm_num⟩

theorem F64.step_error {lib : F64.Libm} {tan ln : ℝ → ℝ} (hlib : Spec.Accurate lib) (hatan : Spec.Atan2Accurate lib)
    (hpow : Spec.PowAccurate lib) (htan : Spec.TanAccurate tan) (hln : Spec.LogAccurate ln) {p : RK4} {R h g : ℝ}
    {r v : Vec3} (hh : p.step_size = h) (hr : p.state.position = r) (hv : p.state.velocity = v)
    (hb : Spec.IsBinary64 h) (h0 : 0 < h) (h1 : h ≤ 300) (hsrp : p.state.srp_scalar = 0)
    (hpert : p.state.use_perturbations = true) (hV : v.magnitude ≤ 12) (hR : 6378 ≤ R) (hg : g ≤ 3.4e-9)
    (heng : Spec.EngineOk p.m_dot p.m0 p.isp SEA_LEVEL_G h p.thrust_direction) {clock : ℝ → ℝ}
    (hclock : F64.Clock clock h p.state.epoch.value)
    (hep : ∀ dt, dt = 0 ∨ dt = h / 2 ∨ dt = h → 1 ≤ clock dt ∧ clock dt ≤ 131072 ∧ F64.FrameError lib (clock dt) g)
    {f : ℝ → Spec.Phase → Spec.Phase} (hf : F64.Represents p clock f)
    (hc : ∀ x y, Spec.phase x y ∈ Spec.rk4Points f 0 h (Spec.phase r v) → Spec.Covered R x) :
    ∃ s' x y, F64.rk4Step lib tan ln p = .ok s' ∧ s'.epoch = ⟨F64.step h p.state.epoch.value⟩ ∧
      Spec.phase x y = Spec.rk4 f 0 h (Spec.phase r v) ∧
      (s'.position.minus x).magnitude ≤ 0.6 * (h ^ 2 * ((9.62 * g + 1e-14) * (Earth.MU / R ^ 2) + 5e-15)) + 1e-10 ∧
      (s'.velocity.minus y).magnitude ≤ 1.35 * (h * ((9.62 * g + 1e-14) * (Earth.MU / R ^ 2) + 5e-15)) + 3e-13 := by
  obtain ⟨c0, c1, c2⟩ := hclock
  obtain ⟨l0, l0', F0⟩ := hep 0 (Or.inl rfl)
  obtain ⟨l1, l1', F1⟩ := hep (h / 2) (Or.inr (Or.inl rfl))
  obtain ⟨l2, l2', F2⟩ := hep h (Or.inr (Or.inr rfl))
  obtain ⟨x1, -⟩ := F64.rnd_half hb
  have thr := F64.thrust_pair hln h0 heng
  -- a stage of the exact formula
  have stg : ∀ dt r v, dt = 0 ∨ dt = h / 2 ∨ dt = h → Spec.Covered R r → ∃ k : Vec3 × Vec3,
      p.stage ⟨clock dt⟩ r v dt = .ok k ∧ f dt (Spec.phase r v) = Spec.phase k.1 k.2 := by
    intro dt r v hdt hcov
    obtain ⟨t', t, a1, a2, a3, a4⟩ := thr dt hdt
    obtain ⟨e1, e2, e3⟩ := hep dt hdt
    obtain ⟨a', a, b1, b2, -, -⟩ := F64.stage_pair (v' := v) (v := v) (δ := 0) hlib hatan hpow htan e3 hg e1 e2
      (F64.self_minus r) (by norm_num) hR hcov a1 a2 a3 a4
    refine ⟨_, b2, ?_⟩
    simp only [RK4.stage, a2, ok_bind] at b2
    exact hf dt r v t _ a2 b2
  have hP1 : Spec.Covered R r := hc r v (by simp [Spec.rk4Points])
  obtain ⟨k1, s1, f1⟩ := stg 0 r v (Or.inl rfl) hP1
  obtain ⟨t0', t0, -, ht0, -, -⟩ := thr 0 (Or.inl rfl)
  have hk1 : ({ p.state with thrust := t0 } : GCRF).derivative = .ok k1 := by
    simp only [RK4.stage, ht0, ok_bind] at s1
    rw [← s1]
    apply derivative_congr
    · rw [c0]; rfl
    · exact hr
    · exact hv
    · rfl
    · exact hsrp
    · exact hpert
  have hP2 : Spec.Covered R (r.plus (k1.1.scaled (h / 2))) := by
    refine hc _ (v.plus (k1.2.scaled (h / 2))) ?_
    rw [phase_add]
    simp [Spec.rk4Points, f1]
  obtain ⟨k2, s2, f2⟩ := stg (h / 2) _ (v.plus (k1.2.scaled (h / 2))) (Or.inr (Or.inl rfl)) hP2
  rw [phase_add] at f2
  have hP3 : Spec.Covered R (r.plus (k2.1.scaled (h / 2))) := by
    refine hc _ (v.plus (k2.2.scaled (h / 2))) ?_
    rw [phase_add]
    simp [Spec.rk4Points, f1, f2]
  obtain ⟨k3, s3, f3⟩ := stg (h / 2) _ (v.plus (k2.2.scaled (h / 2))) (Or.inr (Or.inl rfl)) hP3
  rw [phase_add] at f3
  have hP4 : Spec.Covered R (r.plus (k3.1.scaled h)) := by
    refine hc _ (v.plus (k3.2.scaled h)) ?_
    rw [phase_add]
    simp [Spec.rk4Points, f1, f2, f3]
  obtain ⟨k4, s', q1, q2, q3, q4, q5⟩ := F64.step_core hlib hatan hpow htan hh hr hv hb h0 h1 hsrp hpert hV hR hg rfl
    (by rw [c1, x1]) (by rw [c2, F64.step, c1, x1]) (by rw [← c0]; exact F0) F1 F2 (by rw [← c0]; exact ⟨l0, l0'⟩)
    ⟨l1, l1'⟩ ⟨l2, l2'⟩ thr ht0 hk1 s2 s3 hP1 hP2 hP3 hP4
  obtain ⟨k4', s4, f4⟩ := stg h _ (v.plus (k3.2.scaled h)) (Or.inr (Or.inr rfl)) hP4
  obtain rfl : k4' = k4 := by rw [q1, Except.ok.injEq] at s4; exact s4.symm
  rw [phase_add] at f4
  refine ⟨s', _, _, q2, by rw [q3, c2], ?_, q4, q5⟩
  simp only [Spec.rk4, zero_add, f1, f2, f3, f4]
  rw [phase_add]
  have e3 : Spec.phase ((k1.1.plus ((k2.1.scaled 2).plus ((k3.1.scaled 2).plus k4'.1))).scaled (1 / 6))
      ((k1.2.plus ((k2.2.scaled 2).plus ((k3.2.scaled 2).plus k4'.2))).scaled (1 / 6)) =
      (1 / 6 : ℝ) • (Spec.phase k1.1 k1.2 + ((2 : ℝ) • Spec.phase k2.1 k2.2 +
        ((2 : ℝ) • Spec.phase k3.1 k3.2 + Spec.phase k4'.1 k4'.2))) := by
    simp only [Spec.phase, toFun_plus, toFun_scaled, Prod.smul_mk, Prod.mk_add_mk]
  rw [e3]
  module

theorem F64.reach {lib : F64.Libm} {tan ln : ℝ → ℝ} (hlib : Spec.Accurate lib) (hatan : Spec.Atan2Accurate lib)
    (hpow : Spec.PowAccurate lib) (htan : Spec.TanAccurate tan) (hln : Spec.LogAccurate ln) {p : RK4} {R h : ℝ}
    {r v : Vec3} (h0 : 0 < h) (hR : 6378 ≤ R)
    (heng : Spec.EngineOk p.m_dot p.m0 p.isp SEA_LEVEL_G h p.thrust_direction) {clock : ℝ → ℝ}
    (hep : ∀ dt, dt = 0 ∨ dt = h / 2 ∨ dt = h → 1 ≤ clock dt ∧ clock dt ≤ 131072)
    {f : ℝ → Spec.Phase → Spec.Phase} (hf : F64.Represents p clock f)
    (hc : ∀ x : Vec3, (x.minus r).magnitude ≤ h * (v.magnitude + 0.011 * h) → Spec.Covered R x) (x y : Vec3)
    (hx : Spec.phase x y ∈ Spec.rk4Points f 0 h (Spec.phase r v)) : Spec.Covered R x := by
  have thr := F64.thrust_pair hln h0 heng
  have stg : ∀ dt r v, dt = 0 ∨ dt = h / 2 ∨ dt = h → Spec.Covered R r → ∃ a : Vec3,
      f dt (Spec.phase r v) = Spec.phase v a ∧ a.magnitude ≤ 0.011 := by
    intro dt r v hdt hcov
    obtain ⟨t', t, a1, a2, a3, a4⟩ := thr dt hdt
    obtain ⟨e1, e2⟩ := hep dt hdt
    obtain ⟨a', a, b1, b2, -, b4⟩ := F64.stage_pair (v' := v) (v := v) (δ := 0) hlib hatan hpow htan
      (F64.frame_error hlib e1 e2) le_rfl e1 e2 (F64.self_minus r) (by norm_num) hR hcov a1 a2 a3 a4
    refine ⟨a, ?_, b4⟩
    simp only [RK4.stage, a2, ok_bind] at b2
    exact hf dt r v t _ a2 b2
  have near : ∀ (w : Vec3) (t : ℝ), 0 ≤ t → t ≤ h → w.magnitude ≤ v.magnitude + 0.011 * h →
      Spec.Covered R (r.plus (w.scaled t)) := by
    intro w t ht0 ht hw
    refine hc _ ?_
    rw [show (r.plus (w.scaled t)).minus r = w.scaled t by ext <;> simp [Vec3.plus, Vec3.minus], Vec3.magnitude_scaled_abs,
      abs_of_nonneg ht0]
    have := w.magnitude_nonneg
    gcongr
  have speed : ∀ (a : Vec3) (t : ℝ), 0 ≤ t → t ≤ h → a.magnitude ≤ 0.011 →
      (v.plus (a.scaled t)).magnitude ≤ v.magnitude + 0.011 * h := by
    intro a t ht0 ht ha
    refine (Vec3.magnitude_plus_le _ _).trans ?_
    rw [Vec3.magnitude_scaled_abs, abs_of_nonneg ht0, mul_comm]
    have := a.magnitude_nonneg
    gcongr
  have hP1 : Spec.Covered R r := by
    have := near ⟨0, 0, 0⟩ 0 le_rfl h0.le (by
      rw [Vec3.magnitude_eq_zero.mpr rfl]
      have := v.magnitude_nonneg
      positivity)
    rwa [show r.plus ((⟨0, 0, 0⟩ : Vec3).scaled 0) = r by ext <;> simp [Vec3.plus, Vec3.scaled]] at this
  obtain ⟨a1, f1, b1⟩ := stg 0 r v (Or.inl rfl) hP1
  have hP2 := near v (h / 2) (by linarith) (by linarith) (by have : 0 ≤ 0.011 * h := by positivity
                                                             linarith)
  obtain ⟨a2, f2, b2⟩ := stg (h / 2) _ (v.plus (a1.scaled (h / 2))) (Or.inr (Or.inl rfl)) hP2
  rw [phase_add] at f2
  have hP3 := near (v.plus (a1.scaled (h / 2))) (h / 2) (by linarith) (by linarith)
    (speed a1 (h / 2) (by linarith) (by linarith) b1)
  obtain ⟨a3, f3, b3⟩ := stg (h / 2) _ (v.plus (a2.scaled (h / 2))) (Or.inr (Or.inl rfl)) hP3
  rw [phase_add] at f3
  have hP4 := near (v.plus (a2.scaled (h / 2))) h h0.le le_rfl (speed a2 (h / 2) (by linarith) (by linarith) b2)
  simp only [Spec.rk4Points, zero_add, f1, f2, f3, List.mem_cons, List.not_mem_nil, or_false] at hx
  rw [← phase_add, ← phase_add, ← phase_add] at hx
  have inj : ∀ {a b c d : Vec3}, Spec.phase a b = Spec.phase c d → a = c := by
    intro a b c d hab
    simp only [Spec.phase, Prod.mk.injEq] at hab
    exact Mat3.toFun_injective hab.1
  rcases hx with hx | hx | hx | hx <;> rw [inj hx] <;> assumption

/-- One step of up to 300 s, of a coasting satellite or one that thrusts within reason: the computed state is within
`2e-8 h² μ / R²` (0.7 mm for a minute in low orbit) and `4.5e-8 h μ / R²` of the classical Runge-Kutta step of the force law (with the
epochs that the program computes), if the four positions at which the formula evaluates the force are at least `R` km
from the centre of the Earth, at most 120000 km, and at declinations up to 82 degrees. -/
theorem C145_step {lib : F64.Libm} {tan ln : ℝ → ℝ} (hlib : Spec.Accurate lib) (hatan : Spec.Atan2Accurate lib)
    (hpow : Spec.PowAccurate lib) (htan : Spec.TanAccurate tan) (hln : Spec.LogAccurate ln) (p : RK4) {R h : ℝ}
    {r v : Vec3} (hh : p.step_size = h) (hr : p.state.position = r) (hv : p.state.velocity = v)
    (hb : Spec.IsBinary64 h) (h0 : 0 < h) (h1 : h ≤ 300) (hsrp : p.state.srp_scalar = 0)
    (hpert : p.state.use_perturbations = true) (hV : v.magnitude ≤ 12) (hR : 6378 ≤ R)
    (heng : Spec.EngineOk p.m_dot p.m0 p.isp SEA_LEVEL_G h p.thrust_direction) {clock : ℝ → ℝ}
    (hclock : F64.Clock clock h p.state.epoch.value)
    (hep : ∀ dt, dt = 0 ∨ dt = h / 2 ∨ dt = h → 1 ≤ clock dt ∧ clock dt ≤ 131072)
    {f : ℝ → Spec.Phase → Spec.Phase} (hf : F64.Represents p clock f)
    (hc : ∀ x y, Spec.phase x y ∈ Spec.rk4Points f 0 h (Spec.phase r v) → Spec.Covered R x) :
    ∃ s' x y, F64.rk4Step lib tan ln p = .ok s' ∧ s'.epoch = ⟨F64.step h p.state.epoch.value⟩ ∧
      Spec.phase x y = Spec.rk4 f 0 h (Spec.phase r v) ∧
      (s'.position.minus x).magnitude ≤ 2e-8 * (h ^ 2 * (Earth.MU / R ^ 2)) + 4e-10 ∧
      (s'.velocity.minus y).magnitude ≤ 4.5e-8 * (h * (Earth.MU / R ^ 2)) + 2.4e-12 := by
  obtain ⟨s', x, y, e1, e2, e3, e4, e5⟩ := F64.step_error hlib hatan hpow htan hln hh hr hv hb h0 h1 hsrp hpert hV hR le_rfl
    heng hclock (fun dt hdt => ⟨(hep dt hdt).1, (hep dt hdt).2, F64.frame_error hlib (hep dt hdt).1 (hep dt hdt).2⟩) hf hc
  have hG : 0 ≤ Earth.MU / R ^ 2 := div_nonneg (by norm_num [Earth.MU]) (by positivity)
  have hq : h ^ 2 ≤ 300 ^ 2 := by gcongr
  have g1 : 0 ≤ h ^ 2 * (Earth.MU / R ^ 2) := by positivity
  have g2 : 0 ≤ h * (Earth.MU / R ^ 2) := by positivity
  refine ⟨s', x, y, e1, e2, e3, e4.trans ?_, e5.trans ?_⟩
  · rw [mul_add (h ^ 2), mul_left_comm (h ^ 2)]
    norm_num
    linarith
  · rw [mul_add h, mul_left_comm h]
    norm_num
    linarith

/-- and within `8.2e-10 h² μ / R²` and `1.9e-9 h μ / R²` if the step does not come within two microseconds of midnight
UTC. -/
theorem C145_step_daytime {lib : F64.Libm} {tan ln : ℝ → ℝ} (hlib : Spec.Accurate lib) (hatan : Spec.Atan2Accurate lib)
    (hpow : Spec.PowAccurate lib) (htan : Spec.TanAccurate tan) (hln : Spec.LogAccurate ln) (p : RK4) {R h : ℝ}
    {r v : Vec3} (hh : p.step_size = h) (hr : p.state.position = r) (hv : p.state.velocity = v)
    (hb : Spec.IsBinary64 h) (h0 : 0 < h) (h1 : h ≤ 300) (hsrp : p.state.srp_scalar = 0)
    (hpert : p.state.use_perturbations = true) (hV : v.magnitude ≤ 12) (hR : 6378 ≤ R)
    (heng : Spec.EngineOk p.m_dot p.m0 p.isp SEA_LEVEL_G h p.thrust_direction) {clock : ℝ → ℝ}
    (hclock : F64.Clock clock h p.state.epoch.value) (n : ℤ)
    (hep : ∀ dt, dt = 0 ∨ dt = h / 2 ∨ dt = h → 1 ≤ clock dt ∧ clock dt ≤ 131072 ∧
      n + 16 / 10 ^ 12 < clock dt - 69.184 / 86400 ∧ clock dt - 69.184 / 86400 < n + 1 - 16 / 10 ^ 12)
    {f : ℝ → Spec.Phase → Spec.Phase} (hf : F64.Represents p clock f)
    (hc : ∀ x y, Spec.phase x y ∈ Spec.rk4Points f 0 h (Spec.phase r v) → Spec.Covered R x) :
    ∃ s' x y, F64.rk4Step lib tan ln p = .ok s' ∧ s'.epoch = ⟨F64.step h p.state.epoch.value⟩ ∧
      Spec.phase x y = Spec.rk4 f 0 h (Spec.phase r v) ∧
      (s'.position.minus x).magnitude ≤ 8.2e-10 * (h ^ 2 * (Earth.MU / R ^ 2)) + 4e-10 ∧
      (s'.velocity.minus y).magnitude ≤ 1.9e-9 * (h * (Earth.MU / R ^ 2)) + 2.4e-12 := by
  obtain ⟨s', x, y, e1, e2, e3, e4, e5⟩ := F64.step_error hlib hatan hpow htan hln hh hr hv hb h0 h1 hsrp hpert hV hR
    (g := 1.4e-10) (by norm_num) heng hclock (fun dt hdt => by
      obtain ⟨a1, a2, a3, a4⟩ := hep dt hdt
      exact ⟨a1, a2, F64.frame_error_daytime hlib a1 a2 n a3 a4⟩) hf hc
  have hG : 0 ≤ Earth.MU / R ^ 2 := div_nonneg (by norm_num [Earth.MU]) (by positivity)
  have hq : h ^ 2 ≤ 300 ^ 2 := by gcongr
  have g1 : 0 ≤ h ^ 2 * (Earth.MU / R ^ 2) := by positivity
  have g2 : 0 ≤ h * (Earth.MU / R ^ 2) := by positivity
  refine ⟨s', x, y, e1, e2, e3, e4.trans ?_, e5.trans ?_⟩
  · rw [mul_add (h ^ 2), mul_left_comm (h ^ 2)]
    norm_num
    linarith
  · rw [mul_add h, mul_left_comm h]
    norm_num
    linarith

/-- It is enough that all positions within `h (|v| + 0.011 h)` kilometres of the start are at such distances and
declinations. -/
theorem C145_step_reach {lib : F64.Libm} {tan ln : ℝ → ℝ} (hlib : Spec.Accurate lib) (hatan : Spec.Atan2Accurate lib)
    (hpow : Spec.PowAccurate lib) (htan : Spec.TanAccurate tan) (hln : Spec.LogAccurate ln) (p : RK4) {R h : ℝ}
    {r v : Vec3} (hh : p.step_size = h) (hr : p.state.position = r) (hv : p.state.velocity = v)
    (hb : Spec.IsBinary64 h) (h0 : 0 < h) (h1 : h ≤ 300) (hsrp : p.state.srp_scalar = 0)
    (hpert : p.state.use_perturbations = true) (hV : v.magnitude ≤ 12) (hR : 6378 ≤ R)
    (heng : Spec.EngineOk p.m_dot p.m0 p.isp SEA_LEVEL_G h p.thrust_direction) {clock : ℝ → ℝ}
    (hclock : F64.Clock clock h p.state.epoch.value)
    (hep : ∀ dt, dt = 0 ∨ dt = h / 2 ∨ dt = h → 1 ≤ clock dt ∧ clock dt ≤ 131072)
    {f : ℝ → Spec.Phase → Spec.Phase} (hf : F64.Represents p clock f)
    (hc : ∀ x : Vec3, (x.minus r).magnitude ≤ h * (v.magnitude + 0.011 * h) → Spec.Covered R x) :
    ∃ s' x y, F64.rk4Step lib tan ln p = .ok s' ∧ s'.epoch = ⟨F64.step h p.state.epoch.value⟩ ∧
      Spec.phase x y = Spec.rk4 f 0 h (Spec.phase r v) ∧
      (s'.position.minus x).magnitude ≤ 2e-8 * (h ^ 2 * (Earth.MU / R ^ 2)) + 4e-10 ∧
      (s'.velocity.minus y).magnitude ≤ 4.5e-8 * (h * (Earth.MU / R ^ 2)) + 2.4e-12 :=
  C145_step hlib hatan hpow htan hln p hh hr hv hb h0 h1 hsrp hpert hV hR heng hclock hep hf
    (F64.reach hlib hatan hpow htan hln h0 hR heng hep hf hc)

/-- there is always such a clock and such a force law -/
theorem F64.exists_clock {h e : ℝ} (h0 : h ≠ 0) : ∃ clock, F64.Clock clock h e := by
  classical
  refine ⟨fun dt => if dt = 0 then e else if dt = h / 2 then F64.plusDays e (F64.rnd (F64.rnd (h / 2) / 86400)) else
    F64.step h e, by simp, by simp [h0], ?_⟩
  have : h ≠ h / 2 := fun hh => h0 (by linarith)
  simp [h0, this]

theorem F64.exists_represents (p : RK4) (clock : ℝ → ℝ) : ∃ f, F64.Represents p clock f := by
  classical
  refine ⟨fun dt y => if h : ∃ (r v T : Vec3) (d : Vec3 × Vec3), y = Spec.phase r v ∧ p.thrustVector dt = .ok T ∧
      ({ GCRF.new ⟨clock dt⟩ r v with thrust := T } : GCRF).derivative = .ok d
      then Spec.phase h.choose_spec.choose_spec.choose_spec.choose.1 h.choose_spec.choose_spec.choose_spec.choose.2
      else 0, ?_⟩
  intro dt r v T d hT hd
  have hex : ∃ (r' v' T : Vec3) (d : Vec3 × Vec3), Spec.phase r v = Spec.phase r' v' ∧ p.thrustVector dt = .ok T ∧
      ({ GCRF.new ⟨clock dt⟩ r' v' with thrust := T } : GCRF).derivative = .ok d := ⟨r, v, T, d, rfl, hT, hd⟩
  simp only [hex, dif_pos]
  obtain ⟨g1, g2, g3⟩ := hex.choose_spec.choose_spec.choose_spec.choose_spec
  generalize hex.choose_spec.choose_spec.choose_spec.choose = d' at g3 ⊢
  generalize hex.choose_spec.choose_spec.choose = T' at g2 g3
  generalize hex.choose_spec.choose = v' at g1 g3
  generalize hex.choose = r' at g1 g3
  simp only [Spec.phase, Prod.mk.injEq] at g1
  have hr := Mat3.toFun_injective g1.1
  have hv := Mat3.toFun_injective g1.2
  subst hr hv
  rw [hT] at g2; cases g2
  rw [hd] at g3; cases g3
  rfl

/-- a step of 300 s of a geosynchronous satellite with the default settings is right to 0.5 mm -/
example : ∃ clock f s' x y, F64.Clock clock 300 59932 ∧ F64.Represents geoExample clock f ∧
    F64.rk4Step F64.rounded (fun x => F64.rnd (Real.tan x)) Real.log geoExample = .ok s' ∧
    Spec.phase x y = Spec.rk4 f 0 300 (Spec.phase ⟨42164, 0, 0⟩ ⟨0, 3.07, 0⟩) ∧
    (s'.position.minus x).magnitude ≤ 5e-7 := by
  obtain ⟨m1, m2, -, -⟩ := geoExample_data
  obtain ⟨clock, hclock⟩ := F64.exists_clock (h := 300) (e := 59932) (by norm_num)
  obtain ⟨f, hf⟩ := F64.exists_represents geoExample clock
  have hlog : Spec.LogAccurate Real.log := fun x _ => by rw [sub_self, abs_zero]; positivity
  have hu := F64.u_pos
  have hu' := F64.u_tiny
  have bd : ∀ x : ℝ, 0 ≤ x → x ≤ 100000 → |F64.rnd x - x| ≤ 1e-10 := by
    intro x hx hx'
    refine (F64.rnd_u x).trans ?_
    rw [abs_of_nonneg hx]
    calc F64.u * x ≤ 12 / 10 ^ 17 * 100000 := by gcongr
      _ ≤ _ := by norm_num
  have hhalf : F64.rnd ((300 : ℝ) / 2) = 150 := by
    have := (F64.rnd_half (h := 300) ⟨300, 0, by norm_num, by norm_num⟩).1
    rw [this]; norm_num
  have hd := abs_le.mp (bd (150 / 86400) (by norm_num) (by norm_num))
  have e1 := abs_le.mp (bd (59932 + F64.rnd (150 / 86400)) (by norm_num at hd ⊢; linarith) (by norm_num at hd ⊢; linarith))
  have e2 := abs_le.mp (bd (F64.rnd (59932 + F64.rnd (150 / 86400)) + F64.rnd (150 / 86400))
    (by norm_num at hd e1 ⊢; linarith) (by norm_num at hd e1 ⊢; linarith))
  obtain ⟨s', x, y, a1, -, a3, a4, -⟩ := C145_step_reach (R := 40000) (h := 300) (r := ⟨42164, 0, 0⟩) (v := ⟨0, 3.07, 0⟩)
    F64.rounded_accurate.1 F64.rounded_accurate.2 F64.rounded_pow F64.rounded_tan hlog geoExample rfl rfl rfl
    ⟨300, 0, by norm_num, by norm_num⟩ (by norm_num) le_rfl rfl rfl (m2.le.trans (by norm_num)) (by norm_num) (Or.inl rfl)
    hclock (by
      intro dt hdt
      rcases hdt with rfl | rfl | rfl
      · rw [hclock.start]; norm_num
      · rw [hclock.middle, hhalf, F64.plusDays]; norm_num at hd e1 ⊢; constructor <;> linarith
      · rw [hclock.stop, F64.step, hhalf]
        simp only [F64.plusDays]
        norm_num at hd e1 e2 ⊢; constructor <;> linarith) hf (by
      intro q hq
      rw [show (⟨0, 3.07, 0⟩ : Vec3).magnitude = 3.07 from m2] at hq
      have hq2 : (q.minus ⟨42164, 0, 0⟩).magnitude ≤ 1911 := hq.trans (by norm_num)
      have hm : (⟨42164, 0, 0⟩ : Vec3).magnitude = 42164 := m1
      obtain ⟨k1, -, k2⟩ := F64.component_le (q.minus ⟨42164, 0, 0⟩)
      have k3 := abs_le.mp (F64.magnitude_sub_le q ⟨42164, 0, 0⟩)
      rw [hm] at k3
      have k1' : |q.x - 42164| ≤ 1911 := k1.trans hq2
      have k2' : |q.z - 0| ≤ 1911 := k2.trans hq2
      have hx : 40000 ≤ q.x := by have := abs_le.mp k1'; linarith
      refine ⟨by linarith, by linarith, ?_⟩
      have : 40000 ≤ √(q.x ^ 2 + q.y ^ 2) := Real.le_sqrt_of_sq_le (by nlinarith [sq_nonneg q.y])
      rw [sub_zero] at k2'
      linarith)
  refine ⟨clock, f, s', x, y, hclock, hf, a1, a3, a4.trans ?_⟩
  norm_num [Earth.MU]

end Openspace
