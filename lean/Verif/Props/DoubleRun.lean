import Verif.Lemmas.DoubleRun
import Verif.Props.DoubleStep

/-! # C146: many steps of the inertial propagator in double precision -/

namespace Openspace

open Real

/-- `x k` and `v k` are the positions and velocities of the first `N` classical Runge-Kutta steps of `h` seconds from the
state of a propagator, by the force law of the propagator (C42) and the epochs that the program computes. -/
structure F64.Trajectory (p : RK4) (h : ℝ) (N : ℕ) (clock : ℕ → ℝ → ℝ) (f : ℕ → ℝ → Spec.Phase → Spec.Phase) (x v : ℕ → Vec3) :
    Prop where
  position : x 0 = p.state.position
  velocity : v 0 = p.state.velocity
  epochs : ∀ k < N, F64.Clock (clock k) h ((F64.step h)^[k] p.state.epoch.value)
  force : ∀ k < N, F64.Represents p (clock k) (f k)
  step : ∀ k < N, Spec.phase (x (k + 1)) (v (k + 1)) = Spec.rk4 (f k) 0 h (Spec.phase (x k) (v k))

theorem F64.phase_injective {a b c d : Vec3} (h : Spec.phase a b = Spec.phase c d) : a = c ∧ b = d := by
  simp only [Spec.phase, Prod.mk.injEq] at h
  exact ⟨Mat3.toFun_injective h.1, Mat3.toFun_injective h.2⟩

/-- the engine and the clock of a propagator do not depend on its state -/
theorem F64.Represents.state {p : RK4} {clock : ℝ → ℝ} {f : ℝ → Spec.Phase → Spec.Phase} (h : F64.Represents p clock f) (s : GCRF) :
    F64.Represents { p with state := s } clock f := h

section

variable {lib : F64.Libm} {tan ln : ℝ → ℝ} (hlib : Spec.Accurate lib) (hatan : Spec.Atan2Accurate lib)
  (hpow : Spec.PowAccurate lib) (htan : Spec.TanAccurate tan) (hln : Spec.LogAccurate ln)

include hlib hatan hpow htan hln

theorem F64.stage_exact {p : RK4} {R h : ℝ} (h0 : 0 < h) (hR : 6378 ≤ R)
    (heng : Spec.EngineOk p.m_dot p.m0 p.isp SEA_LEVEL_G h p.thrust_direction) {clock : ℝ → ℝ}
    (hep : ∀ dt, dt = 0 ∨ dt = h / 2 ∨ dt = h → 1 ≤ clock dt ∧ clock dt ≤ 131072)
    {f : ℝ → Spec.Phase → Spec.Phase} (hf : F64.Represents p clock f) (dt : ℝ) (r v : Vec3)
    (hdt : dt = 0 ∨ dt = h / 2 ∨ dt = h) (hcov : Spec.Midlatitude R r) :
    ∃ a : Vec3, p.stage ⟨clock dt⟩ r v dt = .ok (v, a) ∧ f dt (Spec.phase r v) = Spec.phase v a ∧ a.magnitude ≤ 0.011 := by
  obtain ⟨t', t, a1, a2, a3, a4⟩ := F64.thrust_pair hln h0 heng dt hdt
  obtain ⟨e1, e2⟩ := hep dt hdt
  obtain ⟨a', a, b1, b2, -, b4⟩ := F64.stage_pair_mid (v' := v) (v := v) (δ := 0) hlib hatan hpow htan
    (F64.frame_error hlib e1 e2) le_rfl e1 e2 (F64.self_minus r) (by norm_num) hR hcov a1 a2 a3 a4
  refine ⟨a, b2, ?_, b4⟩
  simp only [RK4.stage, a2, ok_bind] at b2
  exact hf dt r v t _ a2 b2

set_option maxHeartbeats 1000000 in
/-- a rounded step from a state in error, beside the exact step -/
theorem F64.step_error_from {p : RK4} {R h g a b : ℝ} {r v x y : Vec3} (hh : p.step_size = h)
    (hr : (p.state.position.minus r).magnitude ≤ a) (hv : (p.state.velocity.minus v).magnitude ≤ b)
    (hb : Spec.IsBinary64 h) (h0 : 0 < h) (h1 : h ≤ 301) (hsrp : p.state.srp_scalar = 0)
    (hpert : p.state.use_perturbations = true) (hV : v.magnitude ≤ 12) (hR : 6378 ≤ R) (hg : g ≤ 3.4e-9)
    (heng : Spec.EngineOk p.m_dot p.m0 p.isp SEA_LEVEL_G h p.thrust_direction) {clock : ℝ → ℝ}
    (hclock : F64.Clock clock h p.state.epoch.value)
    (hep : ∀ dt, dt = 0 ∨ dt = h / 2 ∨ dt = h → 1 ≤ clock dt ∧ clock dt ≤ 131072 ∧ F64.FrameError lib (clock dt) g)
    {f : ℝ → Spec.Phase → Spec.Phase} (hf : F64.Represents p clock f)
    (hc : ∀ x y, Spec.phase x y ∈ Spec.rk4Points f 0 h (Spec.phase r v) → Spec.Midlatitude R x)
    {w F : ℝ} (hw : w = Spec.growthRate Earth.MU R) (hFe : F = (0.962 * g + 1e-14) * (Earth.MU / R ^ 2) + 5e-15)
    (hW : w * a + b ≤ 0.01 * w) (hE : 2 * (h * F + 4e-11 * w + 8e-15) ≤ 0.01 * w)
    (hxy : Spec.phase x y = Spec.rk4 f 0 h (Spec.phase r v)) :
    ∃ s', F64.rk4Step lib tan ln p = .ok s' ∧ s'.epoch = ⟨F64.step h p.state.epoch.value⟩ ∧
      s'.srp_scalar = 0 ∧ s'.use_perturbations = true ∧
      w * (s'.position.minus x).magnitude + (s'.velocity.minus y).magnitude ≤
        exp (1.001 * (w * h)) * (w * a + b) + 2 * (h * F + 4e-11 * w + 8e-15) := by
  obtain ⟨c0, c1, c2⟩ := hclock
  obtain ⟨l0, l0', F0⟩ := hep 0 (Or.inl rfl)
  obtain ⟨l1, l1', F1⟩ := hep (h / 2) (Or.inr (Or.inl rfl))
  obtain ⟨l2, l2', F2⟩ := hep h (Or.inr (Or.inr rfl))
  obtain ⟨x1, -⟩ := F64.rnd_half hb
  have thr := F64.thrust_pair hln h0 heng
  have stg := @F64.stage_exact lib tan ln hlib hatan hpow htan hln p R h h0 hR heng clock
    (fun dt hdt => ⟨(hep dt hdt).1, (hep dt hdt).2.1⟩) f hf
  have hP1 : Spec.Midlatitude R r := hc r v (by simp [Spec.rk4Points])
  obtain ⟨A1, s1, f1, -⟩ := stg 0 r v (Or.inl rfl) hP1
  have hP2 : Spec.Midlatitude R (r.plus (v.scaled (h / 2))) := by
    refine hc _ (v.plus (A1.scaled (h / 2))) ?_
    rw [phase_add]
    simp [Spec.rk4Points, f1]
  obtain ⟨A2, s2, f2, -⟩ := stg (h / 2) _ (v.plus (A1.scaled (h / 2))) (Or.inr (Or.inl rfl)) hP2
  rw [phase_add] at f2
  have hP3 : Spec.Midlatitude R (r.plus ((v.plus (A1.scaled (h / 2))).scaled (h / 2))) := by
    refine hc _ (v.plus (A2.scaled (h / 2))) ?_
    rw [phase_add]
    simp [Spec.rk4Points, f1, f2]
  obtain ⟨A3, s3, f3, -⟩ := stg (h / 2) _ (v.plus (A2.scaled (h / 2))) (Or.inr (Or.inl rfl)) hP3
  rw [phase_add] at f3
  have hP4 : Spec.Midlatitude R (r.plus ((v.plus (A2.scaled (h / 2))).scaled h)) := by
    refine hc _ (v.plus (A3.scaled h)) ?_
    rw [phase_add]
    simp [Spec.rk4Points, f1, f2, f3]
  obtain ⟨k4, s', q1, q2, q3, q6, q7, q4⟩ := F64.step_from (k1 := (v, A1))
    (k2 := (v.plus (A1.scaled (h / 2)), A2)) (k3 := (v.plus (A2.scaled (h / 2)), A3)) hlib hatan hpow htan hh hr hv hb h0 h1 hsrp hpert hV hR hg rfl
    (by rw [c1, x1]) (by rw [c2, F64.step, c1, x1]) (by rw [← c0]; exact F0) F1 F2 (by rw [← c0]; exact ⟨l0, l0'⟩)
    ⟨l1, l1'⟩ ⟨l2, l2'⟩ thr (by rw [← c0]; exact s1) s2 s3 hP1 hP2 hP3 hP4 hw hFe hW hE
  obtain ⟨A4, s4, f4, -⟩ := stg h _ (v.plus (A3.scaled h)) (Or.inr (Or.inr rfl)) hP4
  have hk4 : k4 = (v.plus (A3.scaled h), A4) := by rw [q1, Except.ok.injEq] at s4; exact s4
  rw [hk4] at q4
  clear q1 s4 hk4
  rw [phase_add] at f4
  refine ⟨s', q2, by rw [q3, c2], q6, q7, ?_⟩
  have e : Spec.phase (r.plus (((v.plus (((v.plus (A1.scaled (h / 2))).scaled 2).plus (((v.plus (A2.scaled (h / 2))).scaled
      2).plus (v.plus (A3.scaled h))))).scaled (1 / 6)).scaled h)) (v.plus (((A1.plus ((A2.scaled 2).plus ((A3.scaled 2).plus
      A4))).scaled (1 / 6)).scaled h)) = Spec.phase x y := by
    rw [hxy]
    simp only [Spec.rk4, zero_add, f1, f2, f3, f4]
    rw [phase_add]
    have e3 : Spec.phase ((v.plus (((v.plus (A1.scaled (h / 2))).scaled 2).plus (((v.plus (A2.scaled (h / 2))).scaled
        2).plus (v.plus (A3.scaled h))))).scaled (1 / 6)) ((A1.plus ((A2.scaled 2).plus ((A3.scaled 2).plus A4))).scaled (1 / 6)) =
        (1 / 6 : ℝ) • (Spec.phase v A1 + ((2 : ℝ) • Spec.phase (v.plus (A1.scaled (h / 2))) A2 +
          ((2 : ℝ) • Spec.phase (v.plus (A2.scaled (h / 2))) A3 + Spec.phase (v.plus (A3.scaled h)) A4))) := by
      simp only [Spec.phase, toFun_plus, toFun_scaled, Prod.smul_mk, Prod.mk_add_mk]
    rw [e3]
    module
  obtain ⟨ex, ey⟩ := F64.phase_injective e
  rw [← ex, ← ey]
  exact q4

omit hlib hatan hpow htan hln in
theorem F64.rk4Steps_succ (n : ℕ) (p : RK4) : F64.rk4Steps lib tan ln (n + 1) p =
    (F64.rk4Steps lib tan ln n p >>= fun q => F64.rk4Step lib tan ln q >>= fun s => pure { q with state := s }) := by
  induction n generalizing p with
  | zero =>
    simp only [F64.rk4Steps, pure_eq_ok, ok_bind]
  | succ n ih =>
    have e : ∀ m p, F64.rk4Steps lib tan ln (m + 1) p =
        F64.rk4Step lib tan ln p >>= fun s => F64.rk4Steps lib tan ln m { p with state := s } := fun _ _ => rfl
    rw [e (n + 1)]
    conv_lhs => simp only [ih]
    rw [e n, bind_assoc]

/-- `N` steps, beside the exact steps -/
theorem F64.run_error {p : RK4} {R h g : ℝ} {N : ℕ} {clock : ℕ → ℝ → ℝ} {f : ℕ → ℝ → Spec.Phase → Spec.Phase} {x v : ℕ → Vec3}
    (hT : F64.Trajectory p h N clock f x v) (hh : p.step_size = h) (hb : Spec.IsBinary64 h) (h0 : 0 < h) (h1 : h ≤ 301)
    (hsrp : p.state.srp_scalar = 0) (hpert : p.state.use_perturbations = true) (hR : 6378 ≤ R) (hg : g ≤ 3.4e-9) (hg0 : 0 ≤ g)
    (heng : Spec.EngineOk p.m_dot p.m0 p.isp SEA_LEVEL_G h p.thrust_direction) (hV : ∀ k < N, (v k).magnitude ≤ 12)
    (hep : ∀ k < N, ∀ dt, dt = 0 ∨ dt = h / 2 ∨ dt = h →
      1 ≤ clock k dt ∧ clock k dt ≤ 131072 ∧ F64.FrameError lib (clock k dt) g)
    (hc : ∀ k < N, ∀ r u, Spec.phase r u ∈ Spec.rk4Points (f k) 0 h (Spec.phase (x k) (v k)) → Spec.Midlatitude R r)
    {w F D : ℝ} (hw : w = Spec.growthRate Earth.MU R) (hFe : F = (0.962 * g + 1e-14) * (Earth.MU / R ^ 2) + 5e-15)
    (hD : D = 2 * (h * F + 4e-11 * w + 8e-15)) (hE : exp (1.001 * (w * (N * h))) * (N * D) ≤ 0.01 * w) :
    ∃ q, F64.rk4Steps lib tan ln N p = .ok q ∧ q = { p with state := q.state } ∧
      q.state.epoch = ⟨(F64.step h)^[N] p.state.epoch.value⟩ ∧ q.state.srp_scalar = 0 ∧ q.state.use_perturbations = true ∧
      w * (q.state.position.minus (x N)).magnitude + (q.state.velocity.minus (v N)).magnitude ≤
        exp (1.001 * (w * (N * h))) * (N * D) := by
  have R0 : 0 < R := by linarith
  have hM : 0 < Earth.MU := by norm_num [Earth.MU]
  have w0 : 0 < w := by rw [hw]; exact F64.growthRate_pos R0
  have F0 : 0 ≤ F := by rw [hFe]; positivity
  have D0 : 0 ≤ D := by rw [hD]; positivity
  have grow : ∀ {k n : ℕ}, k ≤ n → exp (1.001 * (w * (k * h))) * (k * D) ≤ exp (1.001 * (w * (n * h))) * (n * D) := by
    intro k n hkn
    have : (k : ℝ) ≤ n := by exact_mod_cast hkn
    gcongr
  have one : ∀ k : ℕ, 1 ≤ exp (1.001 * (w * (k * h))) := fun k => Real.one_le_exp (by positivity)
  suffices H : ∀ k ≤ N, ∃ q, F64.rk4Steps lib tan ln k p = .ok q ∧ q = { p with state := q.state } ∧
      q.state.epoch = ⟨(F64.step h)^[k] p.state.epoch.value⟩ ∧ q.state.srp_scalar = 0 ∧ q.state.use_perturbations = true ∧
      w * (q.state.position.minus (x k)).magnitude + (q.state.velocity.minus (v k)).magnitude ≤
        exp (1.001 * (w * (k * h))) * (k * D) from H N le_rfl
  intro k
  induction k with
  | zero =>
    intro _
    refine ⟨p, rfl, rfl, rfl, hsrp, hpert, ?_⟩
    rw [hT.position, hT.velocity]
    have e1 := F64.self_minus p.state.position
    have e2 := F64.self_minus p.state.velocity
    have := mul_le_mul_of_nonneg_left e1 w0.le
    simp only [CharP.cast_eq_zero, zero_mul, mul_zero] at this ⊢
    linarith
  | succ k ih =>
    intro hk
    have hk' : k < N := by omega
    obtain ⟨q, q1, q2, q3, q4, q5, q6⟩ := ih (by omega)
    have hDle : D ≤ 0.01 * w := by
      refine le_trans ?_ hE
      have n1 : (1 : ℝ) ≤ N := by exact_mod_cast (by omega : 1 ≤ N)
      have := one N
      nlinarith [mul_nonneg (sub_nonneg.mpr this) (by positivity : 0 ≤ N * D)]
    obtain ⟨s', s1, s2, s3, s4, s5⟩ := F64.step_error_from (p := q) (R := R) (h := h) (g := g)
      (x := x (k + 1)) (y := v (k + 1)) hlib hatan hpow htan hln (by rw [q2]; exact hh) le_rfl le_rfl hb h0 h1 q4 q5
      (hV k hk') hR hg (by rw [q2]; exact heng) (by rw [q3]; exact hT.epochs k hk') (hep k hk')
      (by rw [q2]; exact hT.force k hk') (hc k hk') hw hFe (q6.trans ((grow hk'.le).trans hE)) (by rw [← hD]; exact hDle)
      (hT.step k hk')
    refine ⟨{ q with state := s' }, ?_, ?_, ?_, s3, s4, s5.trans ?_⟩
    · rw [F64.rk4Steps_succ, q1, ok_bind, s1, ok_bind, pure_eq_ok]
    · conv_lhs => rw [q2]
    · rw [Function.iterate_succ_apply']
      rw [q3] at s2
      exact s2
    · rw [← hD]
      have e : exp (1.001 * (w * ((k + 1 : ℕ) * h))) = exp (1.001 * (w * h)) * exp (1.001 * (w * (k * h))) := by
        rw [← Real.exp_add]; congr 1; push_cast; ring
      have m1 := mul_le_mul_of_nonneg_left q6 (Real.exp_pos (1.001 * (w * h))).le
      have m2 : D ≤ exp (1.001 * (w * ((k + 1 : ℕ) * h))) * D := le_mul_of_one_le_left D0 (one (k + 1))
      have e2 : exp (1.001 * (w * ((k + 1 : ℕ) * h))) * ((k + 1 : ℕ) * D) =
          exp (1.001 * (w * h)) * (exp (1.001 * (w * (k * h))) * (k * D)) + exp (1.001 * (w * ((k + 1 : ℕ) * h))) * D := by
        rw [e]; push_cast; ring
      rw [e2]
      linarith

/-- where one exact step can lead -/
theorem F64.reach_mid {p : RK4} {R h : ℝ} {r v x y : Vec3} (h0 : 0 < h) (hR : 6378 ≤ R)
    (heng : Spec.EngineOk p.m_dot p.m0 p.isp SEA_LEVEL_G h p.thrust_direction) {clock : ℝ → ℝ}
    (hep : ∀ dt, dt = 0 ∨ dt = h / 2 ∨ dt = h → 1 ≤ clock dt ∧ clock dt ≤ 131072)
    {f : ℝ → Spec.Phase → Spec.Phase} (hf : F64.Represents p clock f)
    (hc : ∀ q : Vec3, (q.minus r).magnitude ≤ h * (v.magnitude + 0.011 * h) → Spec.Midlatitude R q)
    (hxy : Spec.phase x y = Spec.rk4 f 0 h (Spec.phase r v)) :
    (∀ a b, Spec.phase a b ∈ Spec.rk4Points f 0 h (Spec.phase r v) → Spec.Midlatitude R a) ∧
      (x.minus r).magnitude ≤ h * (v.magnitude + 0.011 * h) ∧ y.magnitude ≤ v.magnitude + 0.011 * h := by
  have stg := @F64.stage_exact lib tan ln hlib hatan hpow htan hln p R h h0 hR heng clock hep f hf
  have dist : ∀ (w : Vec3) (t : ℝ), 0 ≤ t → t ≤ h → w.magnitude ≤ v.magnitude + 0.011 * h →
      ((r.plus (w.scaled t)).minus r).magnitude ≤ h * (v.magnitude + 0.011 * h) := by
    intro w t ht0 ht hw
    rw [show (r.plus (w.scaled t)).minus r = w.scaled t by ext <;> simp [Vec3.plus, Vec3.minus], Vec3.magnitude_scaled_abs,
      abs_of_nonneg ht0]
    have := w.magnitude_nonneg
    gcongr
  have speed : ∀ (a : Vec3) (t : ℝ), 0 ≤ t → t ≤ h → a.magnitude ≤ 0.011 →
      (v.plus (a.scaled t)).magnitude ≤ v.magnitude + 0.011 * h := by
    intro a t ht0 ht ha
    refine (Vec3.magnitude_plus_le _ _).trans ?_
    rw [Vec3.magnitude_scaled_abs, abs_of_nonneg ht0, mul_comm]
    have := a.magnitude_nonneg
    gcongr
  have near := fun w t ht0 ht hw => hc _ (dist w t ht0 ht hw)
  have v0 := v.magnitude_nonneg
  have hv0 : v.magnitude ≤ v.magnitude + 0.011 * h := by have : 0 ≤ 0.011 * h := by positivity
                                                         linarith
  have hP1 : Spec.Midlatitude R r := by
    have := near v 0 le_rfl h0.le hv0
    rwa [show r.plus (v.scaled 0) = r by ext <;> simp [Vec3.plus, Vec3.scaled]] at this
  obtain ⟨a1, -, f1, b1⟩ := stg 0 r v (Or.inl rfl) hP1
  have hP2 := near v (h / 2) (by linarith) (by linarith) hv0
  obtain ⟨a2, -, f2, b2⟩ := stg (h / 2) _ (v.plus (a1.scaled (h / 2))) (Or.inr (Or.inl rfl)) hP2
  rw [phase_add] at f2
  have V2 := speed a1 (h / 2) (by linarith) (by linarith) b1
  have hP3 := near (v.plus (a1.scaled (h / 2))) (h / 2) (by linarith) (by linarith) V2
  obtain ⟨a3, -, f3, b3⟩ := stg (h / 2) _ (v.plus (a2.scaled (h / 2))) (Or.inr (Or.inl rfl)) hP3
  rw [phase_add] at f3
  have V3 := speed a2 (h / 2) (by linarith) (by linarith) b2
  have hP4 := near (v.plus (a2.scaled (h / 2))) h h0.le le_rfl V3
  obtain ⟨a4, -, f4, b4⟩ := stg h _ (v.plus (a3.scaled h)) (Or.inr (Or.inr rfl)) hP4
  rw [phase_add] at f4
  have V4 := speed a3 h h0.le le_rfl b3
  refine ⟨?_, ?_⟩
  · intro a b hx
    simp only [Spec.rk4Points, zero_add, f1, f2, f3, List.mem_cons, List.not_mem_nil, or_false] at hx
    rw [← phase_add, ← phase_add, ← phase_add] at hx
    rcases hx with hx | hx | hx | hx <;> rw [(F64.phase_injective hx).1] <;> assumption
  · have mean : ∀ {a b c d : Vec3} {K : ℝ}, a.magnitude ≤ K → b.magnitude ≤ K → c.magnitude ≤ K → d.magnitude ≤ K →
        ((a.plus ((b.scaled 2).plus ((c.scaled 2).plus d))).scaled (1 / 6)).magnitude ≤ K := by
      intro a b c d K ha hb hc hd
      exact (F64.mean_error (F64.self_minus a) (F64.self_minus b) (F64.self_minus c) (F64.self_minus d) ha hb hc hd).2
    have e : Spec.phase (r.plus (((v.plus (((v.plus (a1.scaled (h / 2))).scaled 2).plus (((v.plus (a2.scaled (h / 2))).scaled
        2).plus (v.plus (a3.scaled h))))).scaled (1 / 6)).scaled h)) (v.plus (((a1.plus ((a2.scaled 2).plus ((a3.scaled 2).plus
        a4))).scaled (1 / 6)).scaled h)) = Spec.phase x y := by
      rw [hxy]
      simp only [Spec.rk4, zero_add, f1, f2, f3, f4]
      rw [phase_add]
      have e3 : Spec.phase ((v.plus (((v.plus (a1.scaled (h / 2))).scaled 2).plus (((v.plus (a2.scaled (h / 2))).scaled
          2).plus (v.plus (a3.scaled h))))).scaled (1 / 6))
          ((a1.plus ((a2.scaled 2).plus ((a3.scaled 2).plus a4))).scaled (1 / 6)) =
          (1 / 6 : ℝ) • (Spec.phase v a1 + ((2 : ℝ) • Spec.phase (v.plus (a1.scaled (h / 2))) a2 +
            ((2 : ℝ) • Spec.phase (v.plus (a2.scaled (h / 2))) a3 + Spec.phase (v.plus (a3.scaled h)) a4))) := by
        simp only [Spec.phase, toFun_plus, toFun_scaled, Prod.smul_mk, Prod.mk_add_mk]
      rw [e3]
      module
    obtain ⟨ex, ey⟩ := F64.phase_injective e
    rw [← ex, ← ey]
    exact ⟨dist _ h h0.le le_rfl (mean hv0 V2 V3 V4), speed _ h h0.le le_rfl (mean b1 b2 b3 b4)⟩

/-- where the exact steps can lead -/
theorem F64.run_reach {p : RK4} {R h : ℝ} {N : ℕ} {clock : ℕ → ℝ → ℝ} {f : ℕ → ℝ → Spec.Phase → Spec.Phase} {x v : ℕ → Vec3}
    (hT : F64.Trajectory p h N clock f x v) (h0 : 0 < h) (hR : 6378 ≤ R)
    (heng : Spec.EngineOk p.m_dot p.m0 p.isp SEA_LEVEL_G h p.thrust_direction)
    (hep : ∀ k < N, ∀ dt, dt = 0 ∨ dt = h / 2 ∨ dt = h → 1 ≤ clock k dt ∧ clock k dt ≤ 131072)
    (hc : ∀ q : Vec3, (q.minus (x 0)).magnitude ≤ N * h * ((v 0).magnitude + 0.011 * (N * h)) → Spec.Midlatitude R q) :
    ∀ k ≤ N, (∀ j < k, ∀ r u, Spec.phase r u ∈ Spec.rk4Points (f j) 0 h (Spec.phase (x j) (v j)) → Spec.Midlatitude R r) ∧
      (∀ j ≤ k, (v j).magnitude ≤ (v 0).magnitude + 0.011 * (j * h)) ∧
      ((x k).minus (x 0)).magnitude ≤ k * h * ((v 0).magnitude + 0.011 * (k * h)) := by
  have v0 := (v 0).magnitude_nonneg
  intro k
  induction k with
  | zero =>
    intro _
    refine ⟨fun j hj => absurd hj (by omega), fun j hj => ?_, ?_⟩
    · obtain rfl : j = 0 := by omega
      simp
    · have := F64.self_minus (x 0)
      simpa using this
  | succ k ih =>
    intro hk
    have hk' : k < N := by omega
    obtain ⟨c1, c2, c3⟩ := ih (by omega)
    have vk := c2 k le_rfl
    have kN : ((k : ℝ) + 1) ≤ N := by exact_mod_cast hk
    have step : h * ((v k).magnitude + 0.011 * h) + k * h * ((v 0).magnitude + 0.011 * (k * h)) ≤
        (k + 1) * h * ((v 0).magnitude + 0.011 * ((k + 1) * h)) := by
      have e : (k + 1) * h * ((v 0).magnitude + 0.011 * ((k + 1) * h)) =
        h * ((v 0).magnitude + 0.011 * (k * h) + 0.011 * h) + k * h * ((v 0).magnitude + 0.011 * (k * h)) +
          k * h * (0.011 * h) := by ring
      rw [e]
      have : 0 ≤ k * h * (0.011 * h) := by positivity
      have : h * ((v k).magnitude + 0.011 * h) ≤ h * ((v 0).magnitude + 0.011 * (k * h) + 0.011 * h) := by gcongr
      linarith
    have far : ∀ q : Vec3, (q.minus (x k)).magnitude ≤ h * ((v k).magnitude + 0.011 * h) →
        (q.minus (x 0)).magnitude ≤ (k + 1) * h * ((v 0).magnitude + 0.011 * ((k + 1) * h)) := by
      intro q hq
      have := F64.minus_triangle q (x k) (x 0)
      linarith
    obtain ⟨d1, d2, d3⟩ := F64.reach_mid hlib hatan hpow htan hln h0 hR heng (hep k hk') (hT.force k hk')
      (fun q hq => hc q ((far q hq).trans (by gcongr))) (hT.step k hk')
    refine ⟨?_, ?_, by push_cast; exact far _ d2⟩
    · intro j hj
      rcases Nat.lt_succ_iff_lt_or_eq.mp hj with hj | rfl
      · exact c1 j hj
      · exact d1
    · intro j hj
      rcases Nat.le_succ_iff.mp hj with hj | rfl
      · exact c2 j hj
      · refine d3.trans ?_
        push_cast
        linarith

omit hlib hatan hpow htan hln in
/-- the epochs of a step -/
theorem F64.clock_near {clock : ℝ → ℝ} {h e : ℝ} (hb : Spec.IsBinary64 h) (h0 : 0 < h) (h1 : h ≤ 301) (e0 : 1 ≤ e)
    (e1 : e ≤ 131072) (hclock : F64.Clock clock h e) (dt : ℝ) (hdt : dt = 0 ∨ dt = h / 2 ∨ dt = h) : |clock dt - e| ≤ 0.004 := by
  have hu := F64.u_pos
  have hu' := F64.u_tiny
  obtain ⟨c0, c1, c2⟩ := hclock
  rw [F64.step] at c2
  simp only [(F64.rnd_half hb).1] at c1 c2
  have d0 := F64.rnd_nonneg (x := h / 2 / 86400) (by positivity)
  have d1 := abs_le.mp (F64.rnd_u (h / 2 / 86400))
  rw [abs_of_nonneg (by positivity : 0 ≤ h / 2 / 86400)] at d1
  obtain ⟨d, hd⟩ : ∃ d, d = F64.rnd (h / 2 / 86400) := ⟨_, rfl⟩
  rw [← hd] at c1 c2 d0 d1
  have d2 : d ≤ 0.0018 := by
    have : F64.u * (h / 2 / 86400) ≤ 12 / 10 ^ 17 * (h / 2 / 86400) := by gcongr
    norm_num at this ⊢
    linarith
  have near : ∀ x : ℝ, 0 ≤ x → x ≤ 131073 → |F64.plusDays x d - x| ≤ 0.0019 := by
    intro x hx hx'
    have k1 := abs_le.mp (F64.rnd_u (x + d))
    rw [abs_of_nonneg (by linarith : 0 ≤ x + d)] at k1
    have k2 : F64.u * (x + d) ≤ 12 / 10 ^ 17 * 131074 := by
      gcongr; norm_num at d2; linarith
    rw [F64.plusDays, abs_le]
    norm_num at k2 d2 ⊢
    constructor <;> linarith
  have m1 := abs_le.mp (near e (by linarith) (by linarith))
  have m2 := abs_le.mp (near (F64.plusDays e d) (by norm_num at m1; linarith) (by norm_num at m1; linarith))
  rcases hdt with rfl | rfl | rfl
  · rw [c0, sub_self, abs_zero]; norm_num
  · rw [c1, abs_le]; norm_num at m1 ⊢; constructor <;> linarith
  · rw [c2, abs_le]; norm_num at m1 m2 ⊢; constructor <;> linarith

omit hlib hatan hpow htan hln in
/-- the epochs of all steps -/
theorem F64.clocks_near {p : RK4} {h : ℝ} {N : ℕ} {clock : ℕ → ℝ → ℝ} {f : ℕ → ℝ → Spec.Phase → Spec.Phase} {x v : ℕ → Vec3}
    (hT : F64.Trajectory p h N clock f x v) (hb : Spec.IsBinary64 h) (h0 : 0 < h) (h1 : h ≤ 301)
    (e0 : 1 + 0.004 * N ≤ p.state.epoch.value) (e1 : p.state.epoch.value ≤ 131072 - 0.004 * N) :
    ∀ k < N, ∀ dt, dt = 0 ∨ dt = h / 2 ∨ dt = h → 1 ≤ clock k dt ∧ clock k dt ≤ 131072 := by
  have H : ∀ k ≤ N, |(F64.step h)^[k] p.state.epoch.value - p.state.epoch.value| ≤ 0.004 * k := by
    intro k
    induction k with
    | zero => intro _; simp
    | succ k ih =>
      intro hk
      have i1 := abs_le.mp (ih (by omega))
      have kN : ((k : ℝ) + 1) ≤ N := by exact_mod_cast hk
      have hc := hT.epochs k (by omega)
      have := abs_le.mp (F64.clock_near hb h0 h1 (by norm_num at i1 e0 e1 ⊢; linarith) (by norm_num at i1 e0 e1 ⊢; linarith)
        hc h (Or.inr (Or.inr rfl)))
      rw [hc.stop] at this
      rw [Function.iterate_succ_apply', abs_le]
      push_cast
      constructor <;> linarith
  intro k hk dt hdt
  have i1 := abs_le.mp (H k hk.le)
  have kN : ((k : ℝ) + 1) ≤ N := by exact_mod_cast hk
  have := abs_le.mp (F64.clock_near hb h0 h1 (by norm_num at i1 e0 e1 ⊢; linarith) (by norm_num at i1 e0 e1 ⊢; linarith)
    (hT.epochs k hk) dt hdt)
  norm_num at this i1 e0 e1 ⊢
  constructor <;> linarith

/-- the bound in a form that is easier to read -/
theorem F64.run_bound {p : RK4} {R h g κ : ℝ} {N : ℕ} {clock : ℕ → ℝ → ℝ} {f : ℕ → ℝ → Spec.Phase → Spec.Phase} {x v : ℕ → Vec3}
    (hT : F64.Trajectory p h N clock f x v) (hh : p.step_size = h) (hb : Spec.IsBinary64 h) (h0 : 0 < h) (h1 : h ≤ 301)
    (hsrp : p.state.srp_scalar = 0) (hpert : p.state.use_perturbations = true) (hR : 6378 ≤ R) (hg : g ≤ 3.4e-9) (hg0 : 0 ≤ g)
    (heng : Spec.EngineOk p.m_dot p.m0 p.isp SEA_LEVEL_G h p.thrust_direction) (hV : ∀ k < N, (v k).magnitude ≤ 12)
    (hep : ∀ k < N, ∀ dt, dt = 0 ∨ dt = h / 2 ∨ dt = h →
      1 ≤ clock k dt ∧ clock k dt ≤ 131072 ∧ F64.FrameError lib (clock k dt) g)
    (hc : ∀ k < N, ∀ r u, Spec.phase r u ∈ Spec.rk4Points (f k) 0 h (Spec.phase (x k) (v k)) → Spec.Midlatitude R r)
    (hκ : 0.962 * g + 1e-14 ≤ κ) (hE : Spec.runBound Earth.MU R κ h N / Spec.growthRate Earth.MU R ≤ 0.01) :
    ∃ q, F64.rk4Steps lib tan ln N p = .ok q ∧ q = { p with state := q.state } ∧
      q.state.epoch = ⟨(F64.step h)^[N] p.state.epoch.value⟩ ∧
      (q.state.position.minus (x N)).magnitude ≤ Spec.runBound Earth.MU R κ h N / Spec.growthRate Earth.MU R ∧
      (q.state.velocity.minus (v N)).magnitude ≤ Spec.runBound Earth.MU R κ h N := by
  have R0 : 0 < R := by linarith
  have hM : 0 < Earth.MU := by norm_num [Earth.MU]
  obtain ⟨w, hw⟩ : ∃ w, w = Spec.growthRate Earth.MU R := ⟨_, rfl⟩
  have w0 : 0 < w := by rw [hw]; exact F64.growthRate_pos R0
  obtain ⟨B, hB⟩ : ∃ B, B = Spec.runBound Earth.MU R κ h N := ⟨_, rfl⟩
  rw [← hw, ← hB] at hE ⊢
  rw [div_le_iff₀ w0] at hE
  have le : exp (1.001 * (w * (N * h))) * (N * (2 * (h * ((0.962 * g + 1e-14) * (Earth.MU / R ^ 2) + 5e-15) + 4e-11 * w + 8e-15)))
      ≤ B := by
    rw [hB, Spec.runBound, ← hw]
    gcongr
  obtain ⟨q, q1, q2, q3, -, -, q6⟩ := F64.run_error hlib hatan hpow htan hln hT hh hb h0 h1 hsrp hpert hR hg hg0 heng hV hep hc hw
    rfl rfl (le.trans hE)
  have q7 := q6.trans le
  have m1 := (q.state.position.minus (x N)).magnitude_nonneg
  have m2 := (q.state.velocity.minus (v N)).magnitude_nonneg
  have m3 : 0 ≤ w * (q.state.position.minus (x N)).magnitude := by positivity
  refine ⟨q, q1, q2, q3, ?_, by linarith⟩
  rw [le_div_iff₀ w0]
  linarith

end

/-- `N` calls of `step()`: as long as the bound itself stays below ten metres, the computed position and velocity are
within `runBound / growthRate` and `runBound` of what exact arithmetic makes of the same steps, if the positions at which
the formula evaluates the force are at least `R` km from the centre of the Earth, at most 120000 km, and at declinations
up to 56 degrees, and the speed is at most 12 km/s. -/
theorem C146_steps {lib : F64.Libm} {tan ln : ℝ → ℝ} (hlib : Spec.Accurate lib) (hatan : Spec.Atan2Accurate lib)
    (hpow : Spec.PowAccurate lib) (htan : Spec.TanAccurate tan) (hln : Spec.LogAccurate ln) (p : RK4) {R h : ℝ} {N : ℕ}
    {clock : ℕ → ℝ → ℝ} {f : ℕ → ℝ → Spec.Phase → Spec.Phase} {x v : ℕ → Vec3}
    (hT : F64.Trajectory p h N clock f x v) (hh : p.step_size = h) (hb : Spec.IsBinary64 h) (h0 : 0 < h) (h1 : h ≤ 301)
    (hsrp : p.state.srp_scalar = 0) (hpert : p.state.use_perturbations = true) (hR : 6378 ≤ R)
    (heng : Spec.EngineOk p.m_dot p.m0 p.isp SEA_LEVEL_G h p.thrust_direction)
    (e0 : 1 + 0.004 * N ≤ p.state.epoch.value) (e1 : p.state.epoch.value ≤ 131072 - 0.004 * N)
    (hV : ∀ k < N, (v k).magnitude ≤ 12)
    (hc : ∀ k < N, ∀ r u, Spec.phase r u ∈ Spec.rk4Points (f k) 0 h (Spec.phase (x k) (v k)) → Spec.Midlatitude R r)
    (hE : Spec.runBound Earth.MU R 3.28e-9 h N / Spec.growthRate Earth.MU R ≤ 0.01) :
    ∃ q, F64.rk4Steps lib tan ln N p = .ok q ∧ q = { p with state := q.state } ∧
      q.state.epoch = ⟨(F64.step h)^[N] p.state.epoch.value⟩ ∧
      (q.state.position.minus (x N)).magnitude ≤ Spec.runBound Earth.MU R 3.28e-9 h N / Spec.growthRate Earth.MU R ∧
      (q.state.velocity.minus (v N)).magnitude ≤ Spec.runBound Earth.MU R 3.28e-9 h N :=
  F64.run_bound hlib hatan hpow htan hln hT hh hb h0 h1 hsrp hpert hR le_rfl (by norm_num) heng hV (fun k hk dt hdt => by
    obtain ⟨a1, a2⟩ := F64.clocks_near hT hb h0 h1 e0 e1 k hk dt hdt
    exact ⟨a1, a2, F64.frame_error hlib a1 a2⟩) hc (by norm_num) hE

/-- and with a bound that is 24 times smaller if no step comes within two microseconds of midnight UTC: half a day of
minute steps of a geosynchronous satellite is right to six metres. -/
theorem C146_steps_daytime {lib : F64.Libm} {tan ln : ℝ → ℝ} (hlib : Spec.Accurate lib) (hatan : Spec.Atan2Accurate lib)
    (hpow : Spec.PowAccurate lib) (htan : Spec.TanAccurate tan) (hln : Spec.LogAccurate ln) (p : RK4) {R h : ℝ} {N : ℕ}
    {clock : ℕ → ℝ → ℝ} {f : ℕ → ℝ → Spec.Phase → Spec.Phase} {x v : ℕ → Vec3}
    (hT : F64.Trajectory p h N clock f x v) (hh : p.step_size = h) (hb : Spec.IsBinary64 h) (h0 : 0 < h) (h1 : h ≤ 301)
    (hsrp : p.state.srp_scalar = 0) (hpert : p.state.use_perturbations = true) (hR : 6378 ≤ R)
    (heng : Spec.EngineOk p.m_dot p.m0 p.isp SEA_LEVEL_G h p.thrust_direction)
    (e0 : 1 + 0.004 * N ≤ p.state.epoch.value) (e1 : p.state.epoch.value ≤ 131072 - 0.004 * N)
    (hday : ∀ k < N, ∀ dt, dt = 0 ∨ dt = h / 2 ∨ dt = h → ∃ n : ℤ,
      n + 16 / 10 ^ 12 < clock k dt - 69.184 / 86400 ∧ clock k dt - 69.184 / 86400 < n + 1 - 16 / 10 ^ 12)
    (hV : ∀ k < N, (v k).magnitude ≤ 12)
    (hc : ∀ k < N, ∀ r u, Spec.phase r u ∈ Spec.rk4Points (f k) 0 h (Spec.phase (x k) (v k)) → Spec.Midlatitude R r)
    (hE : Spec.runBound Earth.MU R 1.35e-10 h N / Spec.growthRate Earth.MU R ≤ 0.01) :
    ∃ q, F64.rk4Steps lib tan ln N p = .ok q ∧ q = { p with state := q.state } ∧
      q.state.epoch = ⟨(F64.step h)^[N] p.state.epoch.value⟩ ∧
      (q.state.position.minus (x N)).magnitude ≤ Spec.runBound Earth.MU R 1.35e-10 h N / Spec.growthRate Earth.MU R ∧
      (q.state.velocity.minus (v N)).magnitude ≤ Spec.runBound Earth.MU R 1.35e-10 h N :=
  F64.run_bound (g := 1.4e-10) hlib hatan hpow htan hln hT hh hb h0 h1 hsrp hpert hR (by norm_num) (by norm_num) heng hV
    (fun k hk dt hdt => by
      obtain ⟨a1, a2⟩ := F64.clocks_near hT hb h0 h1 e0 e1 k hk dt hdt
      obtain ⟨n, a3, a4⟩ := hday k hk dt hdt
      exact ⟨a1, a2, F64.frame_error_daytime hlib a1 a2 n a3 a4⟩) hc (by norm_num) hE

/-- It is enough that all positions that the satellite could reach are at such distances and declinations. -/
theorem C146_steps_reach {lib : F64.Libm} {tan ln : ℝ → ℝ} (hlib : Spec.Accurate lib) (hatan : Spec.Atan2Accurate lib)
    (hpow : Spec.PowAccurate lib) (htan : Spec.TanAccurate tan) (hln : Spec.LogAccurate ln) (p : RK4) {R h : ℝ} {N : ℕ}
    {clock : ℕ → ℝ → ℝ} {f : ℕ → ℝ → Spec.Phase → Spec.Phase} {x v : ℕ → Vec3}
    (hT : F64.Trajectory p h N clock f x v) (hh : p.step_size = h) (hb : Spec.IsBinary64 h) (h0 : 0 < h) (h1 : h ≤ 301)
    (hsrp : p.state.srp_scalar = 0) (hpert : p.state.use_perturbations = true) (hR : 6378 ≤ R)
    (heng : Spec.EngineOk p.m_dot p.m0 p.isp SEA_LEVEL_G h p.thrust_direction)
    (e0 : 1 + 0.004 * N ≤ p.state.epoch.value) (e1 : p.state.epoch.value ≤ 131072 - 0.004 * N)
    (hV : p.state.velocity.magnitude + 0.011 * (N * h) ≤ 12)
    (hc : ∀ q : Vec3, (q.minus p.state.position).magnitude ≤ N * h * (p.state.velocity.magnitude + 0.011 * (N * h)) →
      Spec.Midlatitude R q)
    (hE : Spec.runBound Earth.MU R 3.28e-9 h N / Spec.growthRate Earth.MU R ≤ 0.01) :
    ∃ q, F64.rk4Steps lib tan ln N p = .ok q ∧ q = { p with state := q.state } ∧
      q.state.epoch = ⟨(F64.step h)^[N] p.state.epoch.value⟩ ∧
      (q.state.position.minus (x N)).magnitude ≤ Spec.runBound Earth.MU R 3.28e-9 h N / Spec.growthRate Earth.MU R ∧
      (q.state.velocity.minus (v N)).magnitude ≤ Spec.runBound Earth.MU R 3.28e-9 h N := by
  have hep := F64.clocks_near hT hb h0 h1 e0 e1
  rw [← hT.velocity] at hV hc
  rw [← hT.position] at hc
  obtain ⟨r1, r2, -⟩ := F64.run_reach hlib hatan hpow htan hln hT h0 hR heng hep hc N le_rfl
  refine C146_steps hlib hatan hpow htan hln p hT hh hb h0 h1 hsrp hpert hR heng e0 e1 (fun k hk => (r2 k hk.le).trans ?_) r1 hE
  have : (k : ℝ) ≤ N := by exact_mod_cast hk.le
  refine le_trans ?_ hV
  gcongr

theorem F64.step_size_le {t e : ℝ} (h : e < t) : 0 < F64.numSteps t e ∧ 0 < F64.rnd (F64.span t e / F64.numSteps t e) ∧
    F64.rnd (F64.span t e / F64.numSteps t e) ≤ 301 := by
  have hu := F64.u_pos
  have hu' := F64.u_tiny
  have s0 : 0 < F64.span t e := by
    have := F64.rnd_pos (sub_pos.mpr h)
    exact F64.rnd_pos (by positivity)
  have r0 : 0 < F64.rnd (F64.span t e / 300) := F64.rnd_pos (by positivity)
  have n0 : 0 < F64.numSteps t e := by
    rw [F64.numSteps, Nat.ceil_pos, abs_of_pos r0]; exact r0
  have n1 : (0 : ℝ) < F64.numSteps t e := by exact_mod_cast n0
  refine ⟨n0, F64.rnd_pos (by positivity), ?_⟩
  have n2 : F64.rnd (F64.span t e / 300) ≤ F64.numSteps t e := by
    refine (le_abs_self _).trans ?_
    rw [F64.numSteps]; exact Nat.le_ceil _
  obtain ⟨S, hS⟩ : ∃ S, S = F64.span t e := ⟨_, rfl⟩
  obtain ⟨n, hn⟩ : ∃ n : ℝ, n = F64.numSteps t e := ⟨_, rfl⟩
  rw [← hS, ← hn] at n2 ⊢
  rw [← hS] at s0
  rw [← hn] at n1
  have k1 := abs_le.mp (F64.rnd_u (S / 300))
  rw [abs_of_pos (by positivity)] at k1
  have k2 : F64.u * (S / 300) ≤ 12 / 10 ^ 17 * (S / 300) := by gcongr
  have k3 : S / n ≤ 300.5 := by
    rw [div_le_iff₀ n1]
    norm_num at k2 ⊢
    linarith
  have k4 := abs_le.mp (F64.rnd_u (S / n))
  rw [abs_of_pos (by positivity)] at k4
  have k5 : F64.u * (S / n) ≤ 12 / 10 ^ 17 * 300.5 := by gcongr
  norm_num at k3 k5 ⊢
  linarith

/-- `step_to_epoch` to a later epoch: the same for the steps that it takes; it leaves the step size as it was. -/
theorem C146_step_to_epoch {lib : F64.Libm} {tan ln : ℝ → ℝ} (hlib : Spec.Accurate lib) (hatan : Spec.Atan2Accurate lib)
    (hpow : Spec.PowAccurate lib) (htan : Spec.TanAccurate tan) (hln : Spec.LogAccurate ln) (p : RK4) {R h t : ℝ} {N : ℕ}
    {clock : ℕ → ℝ → ℝ} {f : ℕ → ℝ → Spec.Phase → Spec.Phase} {x v : ℕ → Vec3} (ht : p.state.epoch.value < t)
    (hN : N = F64.numSteps t p.state.epoch.value) (hh : h = F64.rnd (F64.span t p.state.epoch.value / N))
    (hT : F64.Trajectory p h N clock f x v)
    (hsrp : p.state.srp_scalar = 0) (hpert : p.state.use_perturbations = true) (hR : 6378 ≤ R)
    (heng : Spec.EngineOk p.m_dot p.m0 p.isp SEA_LEVEL_G h p.thrust_direction)
    (e0 : 1 + 0.004 * N ≤ p.state.epoch.value) (e1 : p.state.epoch.value ≤ 131072 - 0.004 * N)
    (hV : ∀ k < N, (v k).magnitude ≤ 12)
    (hc : ∀ k < N, ∀ r u, Spec.phase r u ∈ Spec.rk4Points (f k) 0 h (Spec.phase (x k) (v k)) → Spec.Midlatitude R r)
    (hE : Spec.runBound Earth.MU R 3.28e-9 h N / Spec.growthRate Earth.MU R ≤ 0.01) :
    ∃ q, F64.rk4StepToEpoch lib tan ln t p = .ok q ∧ q = { p with state := q.state } ∧
      q.state.epoch = ⟨F64.stepToEpoch t p.state.epoch.value⟩ ∧
      (q.state.position.minus (x N)).magnitude ≤ Spec.runBound Earth.MU R 3.28e-9 h N / Spec.growthRate Earth.MU R ∧
      (q.state.velocity.minus (v N)).magnitude ≤ Spec.runBound Earth.MU R 3.28e-9 h N := by
  obtain ⟨n0, h0, h1⟩ := F64.step_size_le ht
  rw [← hN] at n0 h0 h1
  rw [← hh] at h0 h1
  have hb : Spec.IsBinary64 h := by rw [hh]; exact F64.rnd_binary64 _
  obtain ⟨q, q1, q2, q3, q4, q5⟩ := C146_steps hlib hatan hpow htan hln { p with step_size := h } (x := x) (v := v) (R := R)
    (h := h) (N := N) (clock := clock) (f := f) ⟨hT.position, hT.velocity, hT.epochs, hT.force, hT.step⟩ rfl hb h0 h1 hsrp hpert
    hR heng e0 e1 hV hc hE
  refine ⟨{ q with step_size := p.step_size }, ?_, ?_, ?_, q4, q5⟩
  · simp only [F64.rk4StepToEpoch, ← hN, ← hh, gt_iff_lt, n0, if_true, q1, ok_bind, pure_eq_ok]
  · conv_lhs => rw [q2]
  · rw [F64.stepToEpoch, ← hN, ← hh]
    exact q3

theorem F64.exists_phase (y : Spec.Phase) : ∃ a b, y = Spec.phase a b := by
  refine ⟨⟨y.1 0, y.1 1, y.1 2⟩, ⟨y.2 0, y.2 1, y.2 2⟩, ?_⟩
  ext i <;> fin_cases i <;> rfl

/-- every propagator has such a trajectory -/
theorem F64.exists_trajectory (p : RK4) {h : ℝ} (h0 : h ≠ 0) (N : ℕ) : ∃ clock f x v, F64.Trajectory p h N clock f x v := by
  have hclock : ∀ k, ∃ c, F64.Clock c h ((F64.step h)^[k] p.state.epoch.value) := fun k => F64.exists_clock h0
  choose clock hclock using hclock
  have hf : ∀ k, ∃ f, F64.Represents p (clock k) f := fun k => F64.exists_represents p (clock k)
  choose f hf using hf
  obtain ⟨y, hy0, hy⟩ : ∃ y : ℕ → Spec.Phase, y 0 = Spec.phase p.state.position p.state.velocity ∧
      ∀ k, y (k + 1) = Spec.rk4 (f k) 0 h (y k) :=
    ⟨fun k => Nat.rec (Spec.phase p.state.position p.state.velocity) (fun k z => Spec.rk4 (f k) 0 h z) k, rfl, fun _ => rfl⟩
  have hx : ∀ k, ∃ a b, y k = Spec.phase a b := fun k => F64.exists_phase (y k)
  choose x v hxv using hx
  have h00 := F64.phase_injective ((hxv 0).symm.trans hy0)
  exact ⟨clock, f, x, v, h00.1, h00.2, fun k _ => hclock k, fun k _ => hf k, fun k _ => by rw [← hxv, ← hxv, hy]⟩

/-- propagating a geosynchronous satellite by 1/256 of a day, in two steps, is right to a centimetre -/
example : ∃ clock f x v q, F64.Trajectory geoExample 168.75 2 clock f x v ∧
    F64.rk4StepToEpoch F64.rounded (fun x => F64.rnd (Real.tan x)) Real.log (59932 + 1 / 256) geoExample = .ok q ∧
    (q.state.position.minus (x 2)).magnitude ≤ 1e-5 := by
  obtain ⟨m1, m2, -, -⟩ := geoExample_data
  have hlog : Spec.LogAccurate Real.log := fun x _ => by rw [sub_self, abs_zero]; positivity
  obtain ⟨clock, f, x, v, hT⟩ := F64.exists_trajectory geoExample (h := 168.75) (by norm_num) 2
  have hb : Spec.IsBinary64 168.75 := ⟨1350, -3, by norm_num, by norm_num⟩
  have hep : geoExample.state.epoch.value = 59932 := rfl
  have dbl : ∀ {y : ℝ}, Spec.IsBinary64 y → F64.rnd y = y := fun h => (F64.isDouble_iff _).mpr h
  have hspan : F64.span (59932 + 1 / 256) 59932 = 337.5 := by
    rw [F64.span, show (59932 + 1 / 256 - 59932 : ℝ) = 1 / 256 by norm_num,
      dbl (y := 1 / 256) ⟨1, -8, by norm_num, by norm_num⟩,
      dbl ⟨675, -1, by norm_num, by norm_num⟩]
    norm_num
  have hN : F64.numSteps (59932 + 1 / 256) 59932 = 2 := by
    rw [F64.numSteps, hspan, dbl ⟨9, -3, by norm_num, by norm_num⟩,
      abs_of_pos (by norm_num), Nat.ceil_eq_iff (by norm_num)]
    norm_num
  have hh : (168.75 : ℝ) = F64.rnd (F64.span (59932 + 1 / 256) 59932 / (2 : ℕ)) := by
    rw [hspan, dbl ⟨1350, -3, by norm_num, by norm_num⟩]
    norm_num
  have w1 : Spec.growthRate Earth.MU 38000 ≤ 2e-4 := by
    rw [Spec.growthRate, Real.sqrt_le_left (by norm_num)]; norm_num [Earth.MU]
  have w0 : 1e-4 ≤ Spec.growthRate Earth.MU 38000 := by
    rw [Spec.growthRate]; exact Real.le_sqrt_of_sq_le (by norm_num [Earth.MU])
  have bound : Spec.runBound Earth.MU 38000 3.28e-9 168.75 2 / Spec.growthRate Earth.MU 38000 ≤ 1e-5 := by
    have hx : rexp (1.001 * (Spec.growthRate Earth.MU 38000 * ((2 : ℕ) * 168.75))) ≤ 1.2 := by
      have k1 : 1.001 * (Spec.growthRate Earth.MU 38000 * ((2 : ℕ) * 168.75)) ≤ 0.1 := by
        push_cast; norm_num at w1 ⊢; linarith
      have k2 := Real.abs_exp_sub_one_le (x := 0.1) (by norm_num)
      have k3 := (le_abs_self _).trans k2
      have := Real.exp_le_exp.mpr k1
      rw [abs_of_pos (by norm_num)] at k3
      refine this.trans ?_
      norm_num at k3 ⊢
      linarith
    rw [div_le_iff₀ (by norm_num at w0 ⊢; linarith), Spec.runBound]
    calc _ ≤ (1.2 : ℝ) * ((2 : ℕ) * (2 * (168.75 * (3.28e-9 * (Earth.MU / 38000 ^ 2) + 5e-15) + 4e-11 * 2e-4 + 8e-15))) := by
          have : 0 ≤ Earth.MU := by norm_num [Earth.MU]
          gcongr
      _ ≤ 1e-5 * 1e-4 := by norm_num [Earth.MU]
      _ ≤ _ := by gcongr
  have clocks := F64.clocks_near hT hb (by norm_num) (by norm_num) (by rw [hep]; norm_num) (by rw [hep]; norm_num)
  have hpos : geoExample.state.position = ⟨42164, 0, 0⟩ := rfl
  obtain ⟨r1, r2, -⟩ := F64.run_reach F64.rounded_accurate.1 F64.rounded_accurate.2 F64.rounded_pow F64.rounded_tan hlog hT
    (R := 38000) (by norm_num) (by norm_num) (Or.inl rfl) clocks (by
      intro q hq
      rw [hT.position, hT.velocity, m2, hpos] at hq
      have hq2 : (q.minus ⟨42164, 0, 0⟩).magnitude ≤ 2300 := hq.trans (by norm_num)
      have hm : (⟨42164, 0, 0⟩ : Vec3).magnitude = 42164 := m1
      obtain ⟨k1, -, k2⟩ := F64.component_le (q.minus ⟨42164, 0, 0⟩)
      have k3 := abs_le.mp (F64.magnitude_sub_le q ⟨42164, 0, 0⟩)
      rw [hm] at k3
      have k1' : |q.x - 42164| ≤ 2300 := k1.trans hq2
      have k2' : |q.z - 0| ≤ 2300 := k2.trans hq2
      have hx : 39000 ≤ q.x := by have := abs_le.mp k1'; linarith
      refine ⟨by linarith, by linarith, ?_⟩
      have : 39000 ≤ √(q.x ^ 2 + q.y ^ 2) := Real.le_sqrt_of_sq_le (by nlinarith [sq_nonneg q.y])
      rw [sub_zero] at k2'
      linarith) 2 le_rfl
  obtain ⟨q, q1, -, -, q4, -⟩ := C146_step_to_epoch F64.rounded_accurate.1 F64.rounded_accurate.2 F64.rounded_pow F64.rounded_tan
    hlog geoExample (R := 38000) (t := 59932 + 1 / 256) (by rw [hep]; norm_num) (by rw [hep, hN]) (by rw [hep]; exact hh) hT rfl rfl
    (by norm_num) (Or.inl rfl) (by rw [hep]; norm_num) (by rw [hep]; norm_num)
    (fun k hk => (r2 k hk.le).trans (by
      rw [hT.velocity, m2]
      have : (k : ℝ) ≤ 2 := by exact_mod_cast hk.le
      norm_num; linarith)) r1
    (bound.trans (by norm_num))
  exact ⟨clock, f, x, v, q, hT, q1, q4.trans bound⟩

end Openspace
