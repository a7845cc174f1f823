import Verif.Lemmas.DoubleBurn
import Verif.Props.Propagation

/-! # C142: finite burns in double precision -/

namespace Openspace

open Real

/-- The property is false: a slow engine whose burn is evaluated a very short time after its start.  The quotient of the
masses is rounded to one, and its logarithm is a divisor. -/
theorem C142_raises {ln : ℝ → ℝ} (hln : Spec.LogAccurate ln) (p : RK4) (dt : ℝ) (hm : p.m_dot ≠ 0) (h0 : 0 < p.m0)
    (hd : p.thrust_direction ≠ ⟨0, 0, 0⟩) (ht : 0 < p.m_dot * dt) (ht' : p.m_dot * dt ≤ p.m0 / 2 ^ 55) :
    F64.thrustVector ln p.m_dot p.m0 p.isp p.thrust_direction dt = .error .zeroDivision := by
  have hdt : dt ≠ 0 := by rintro rfl; simp at ht
  obtain ⟨n, hn, -⟩ := F64.normalized_error hd
  have hmt : F64.rnd (p.m0 - F64.rnd (p.m_dot * dt)) ≠ 0 := by
    have h1 := F64.mass_near ht.le (ht'.trans (by norm_num; linarith)) h0
    obtain ⟨h2, -⟩ := F64.near_inv h1 (by
      have : p.m_dot * dt ≤ p.m0 / 2 := ht'.trans (by norm_num; linarith)
      linarith) (by norm_num) (by norm_num)
    exact h2
  simp only [F64.thrustVector, hm, ne_eq, not_false_eq_true, if_true, hdt, if_false, F64.div_ok h0.ne', ok_bind,
    F64.ratio_one ht ht' h0, F64.mathLog, if_neg (not_le.mpr one_pos), F64.ln_one hln, hn, F64.div_ok hm, F64.div_ok hmt]
  simp [F64.div, pyDiv]

/-- An ion engine with a flow of 5e-8 kg/s on a spacecraft of 1000 kg, evaluated in the middle of the shortest step that
the clock of an epoch can resolve: in exact arithmetic there is a thrust. -/
theorem C142_violated {ln : ℝ → ℝ} (hln : Spec.LogAccurate ln) :
    ∃ (p : RK4) (dt : ℝ), 0 < p.m_dot ∧ 0 < p.m0 ∧ p.thrust_direction ≠ ⟨0, 0, 0⟩ ∧ 0 < dt ∧ p.m_dot * dt ≤ 0.9 * p.m0 ∧
      (∃ a, p.thrustVector dt = .ok a) ∧
      F64.thrustVector ln p.m_dot p.m0 p.isp p.thrust_direction dt = .error .zeroDivision := by
  have hd : (⟨1, 0, 0⟩ : Vec3) ≠ ⟨0, 0, 0⟩ := by simp [Vec3.ext_iff]
  refine ⟨{ RK4.new (GCRF.new ⟨60000⟩ ⟨42164, 0, 0⟩ ⟨0, 3, 0⟩) with
    m_dot := 5e-8, m0 := 1000, thrust_direction := ⟨1, 0, 0⟩, isp := 3000 }, 3e-7, by norm_num, by norm_num, hd, by norm_num,
    by norm_num, ?_, ?_⟩
  · obtain ⟨u, -, h⟩ := C43_thrust { RK4.new (GCRF.new ⟨60000⟩ ⟨42164, 0, 0⟩ ⟨0, 3, 0⟩) with
      m_dot := 5e-8, m0 := 1000, thrust_direction := ⟨1, 0, 0⟩, isp := 3000 } 3e-7 (by norm_num) (by norm_num)
      (by norm_num) hd
    exact ⟨_, h⟩
  · exact C142_raises hln _ _ (by norm_num) (by norm_num) hd (by norm_num) (by norm_num)

/-- The rounded thrust at the start of a step, or as soon as a share of `2 ^ -52` of the mass is spent, until nine tenths
of the mass are spent. -/
theorem C142_thrust_partial {ln : ℝ → ℝ} (hln : Spec.LogAccurate ln) (p : RK4) (dt : ℝ) (hm : 0 < p.m_dot) (h0 : 0 < p.m0)
    (hd : p.thrust_direction ≠ ⟨0, 0, 0⟩) (ht : dt = 0 ∨ p.m0 / 2 ^ 52 ≤ p.m_dot * dt) (ht' : p.m_dot * dt ≤ 0.9 * p.m0) :
    ∃ a' a, F64.thrustVector ln p.m_dot p.m0 p.isp p.thrust_direction dt = .ok a' ∧ p.thrustVector dt = .ok a ∧
      (a'.minus a).magnitude ≤ 4e-15 * a.magnitude := by
  have hu := F64.u_pos
  have hu' := F64.u_tiny
  obtain ⟨n, hn, en⟩ := F64.normalized_error hd
  obtain ⟨w, hw, ha⟩ := C43_thrust p dt hm.ne' h0 (by norm_num at ht'; linarith) hd
  rw [Vec3.normalized_ok hd, Except.ok.injEq] at hw
  subst hw
  obtain ⟨v, hv⟩ : ∃ v, v = p.thrust_direction.scaled (1 / p.thrust_direction.magnitude) := ⟨_, rfl⟩
  rw [← hv] at ha en
  have hf := F64.force_near p.m_dot p.isp
  by_cases hz : dt = 0
  · subst hz
    obtain ⟨-, hk⟩ := hf.div' (F64.Near.refl p.m0) h0.ne' le_rfl (by norm_num) (by norm_num) (by norm_num)
    have h1 := F64.scaled_error en (hk.round' (by norm_num) (by norm_num)) (by norm_num) (by norm_num) (by norm_num)
      (by norm_num)
    refine ⟨_, _, by
      simp only [F64.thrustVector, hm.ne', ne_eq, not_false_eq_true, if_true, hn, ok_bind, F64.div_ok h0.ne', pure_eq_ok]
      rfl, ha, ?_⟩
    rw [mul_zero, sub_zero]
    refine h1.trans ?_
    have := (v.scaled (p.m_dot * p.isp * SEA_LEVEL_G / p.m0)).magnitude_nonneg
    gcongr
    norm_num at hu' ⊢
    linarith
  · have ht1 := ht.resolve_left hz
    have hw0 : 0 < p.m_dot * dt := lt_of_lt_of_le (by positivity) ht1
    obtain ⟨r1, r2⟩ := F64.ratio_bounds ht1 ht' h0
    obtain ⟨x, hx⟩ : ∃ x, x = F64.rnd (1 - F64.rnd (F64.rnd (p.m_dot * dt) / p.m0)) := ⟨_, rfl⟩
    rw [← hx] at r1 r2
    have hl := F64.ln_neg hln r1 r2
    obtain ⟨l, hle⟩ : ∃ l, l = ln x := ⟨_, rfl⟩
    rw [← hle] at hl
    have hmt : p.m0 - p.m_dot * dt ≠ 0 := by norm_num at ht'; linarith
    have em := F64.mass_near hw0.le ht' h0
    obtain ⟨m1, k1⟩ := (F64.Near.refl p.m_dot).div' em hmt (by norm_num) le_rfl (by norm_num) (by norm_num)
    obtain ⟨-, k2⟩ := (F64.near_minus hf).div' (F64.Near.refl p.m_dot) hm.ne' le_rfl (by norm_num) (by norm_num) (by norm_num)
    have k3 := ((k2.round' (by norm_num) (by norm_num)).mul' (F64.Near.refl l) le_rfl (by norm_num) (by norm_num)
      (by norm_num)).round' (by norm_num) (by norm_num)
    have k4 := ((k1.round' (by norm_num) (by norm_num)).mul' (F64.near_rnd (1 / -l)) (by norm_num) (by norm_num) (by norm_num)
      (by norm_num)).round' (by norm_num) (by norm_num)
    have h1 := F64.scaled_error en k3 (by norm_num) (by norm_num) (by norm_num) (by norm_num)
    have h2 := F64.scaled_error h1 k4 (by norm_num) (by norm_num) (by norm_num) (by norm_num)
    have ev : (v.scaled (-(p.m_dot * p.isp * SEA_LEVEL_G) / p.m_dot * l)).scaled (p.m_dot / (p.m0 - p.m_dot * dt) * (1 / -l)) =
        v.scaled (p.m_dot * p.isp * SEA_LEVEL_G / (p.m0 - p.m_dot * dt)) := by
      have := hm.ne'
      have := hl.ne
      ext <;> simp only [Vec3.scaled] <;> field_simp
    rw [ev] at h2
    refine ⟨_, _, by
      simp only [F64.thrustVector, hm.ne', ne_eq, not_false_eq_true, if_true, hz, if_false, F64.div_ok h0.ne', ok_bind,
        ← hx, F64.mathLog, if_neg (not_le.mpr r1), ← hle, hn, F64.div_ok hm.ne', F64.div_ok m1,
        F64.div_ok (neg_ne_zero.mpr hl.ne), pure_eq_ok], ha, h2.trans ?_⟩
    have := (v.scaled (p.m_dot * p.isp * SEA_LEVEL_G / (p.m0 - p.m_dot * dt))).magnitude_nonneg
    gcongr
    norm_num at hu' ⊢
    linarith

/-- The rounded burn time is wrong by at most 2.5e-15 of the time in which the engine would burn the whole spacecraft. -/
theorem C142_duration {lib : F64.Libm} (hlib : Spec.PowAccurate lib) (dv : Vec3) {m_dot m0 isp : ℝ} (hm : 0 < m_dot)
    (h0 : 0 < m0) (hi : 0 < isp) :
    ∃ t' t, F64.burnDuration lib dv m_dot m0 isp = .ok t' ∧ RK4.burnDuration dv m_dot m0 isp = .ok t ∧
      |t' - t| ≤ 2.5e-15 * (m0 / m_dot) := by
  have hu := F64.u_pos
  have hu' := F64.u_tiny
  have hg := g_pos
  have hs : 0 < m_dot / m0 := by positivity
  obtain ⟨ms, hms⟩ : ∃ ms, ms = F64.rnd (m_dot / m0) := ⟨_, rfl⟩
  have hms0 : 0 < ms := by rw [hms]; exact F64.rnd_pos hs
  -- the time of the whole spacecraft
  have n1 : F64.Near ms (m_dot / m0) 1 := by rw [hms]; exact F64.near_rnd _
  obtain ⟨-, n2⟩ := (F64.Near.refl 1).div' n1 hs.ne' (by norm_num) le_rfl (by norm_num) (by norm_num)
  have n3 := n2.round' (by norm_num) (by norm_num)
  -- the exponent
  have n4 := ((F64.Near.refl ms).mul' (F64.magnitude_near dv) (by norm_num) le_rfl (by norm_num) (by norm_num)).round'
    (by norm_num) (by norm_num)
  have n5 := ((F64.near_rnd (-isp * ms)).mul' F64.g_near (by norm_num) (by norm_num) (by norm_num) (by norm_num)).round'
    (by norm_num) (by norm_num)
  have hden : -isp * ms * SEA_LEVEL_G ≠ 0 := by
    have := mul_pos (mul_pos hi hms0) hg
    intro h; nlinarith
  obtain ⟨d1, n6⟩ := n4.div' n5 hden (by norm_num) (by norm_num) (by norm_num) (by norm_num)
  have n7 := n6.round' (by norm_num) (by norm_num)
  have ex : ms * dv.magnitude / (-isp * ms * SEA_LEVEL_G) = -dv.magnitude / (isp * SEA_LEVEL_G) := by
    field_simp
  rw [ex] at n7
  obtain ⟨x, hx⟩ : ∃ x, x = F64.rnd (F64.rnd (ms * F64.magnitude dv) / F64.rnd (F64.rnd (-isp * ms) * F64.seaLevelG)) :=
    ⟨_, rfl⟩
  rw [← hx] at n7
  obtain ⟨e0, e1⟩ := F64.log_euler
  have e2 : F64.Near (Real.log F64.euler) 1 1.1 := by unfold F64.Near; rw [abs_one, mul_one]; exact e1
  have n8 := e2.mul' n7 (by norm_num) (by norm_num) (by norm_num) (by norm_num)
  rw [one_mul] at n8
  have hx0 : -dv.magnitude / (isp * SEA_LEVEL_G) ≤ 0 := by
    have := dv.magnitude_nonneg
    exact div_nonpos_of_nonpos_of_nonneg (by linarith) (by positivity)
  obtain ⟨p1, p2⟩ := F64.exp_near n8 hx0 (by norm_num) (by norm_num)
  have p3 := hlib F64.euler x e0
  rw [Real.rpow_def_of_pos e0] at p3
  obtain ⟨E, hE⟩ : ∃ E, E = exp (-dv.magnitude / (isp * SEA_LEVEL_G)) := ⟨_, rfl⟩
  obtain ⟨P, hP⟩ : ∃ P, P = lib.pow F64.euler x := ⟨_, rfl⟩
  obtain ⟨X, hX⟩ : ∃ X, X = exp (Real.log F64.euler * x) := ⟨_, rfl⟩
  rw [← hE, ← hX] at p1
  rw [← hP, ← hX] at p3
  rw [← hX] at p2
  have hX0 : 0 < X := by rw [hX]; exact exp_pos _
  have hE0 : 0 < E := by rw [hE]; exact exp_pos _
  have hE1 : E ≤ 1 := by rw [hE]; exact Real.exp_le_one_iff.mpr hx0
  refine ⟨_, _, by
    simp only [F64.burnDuration, F64.div_ok h0.ne', ← hms, ok_bind, F64.div_ok hms0.ne', F64.div_ok d1, ← hx, ← hP, pure_eq_ok]
    rfl, burnDuration_ok dv hm.ne' h0.ne' hi.ne', ?_⟩
  rw [Spec.burnTime, ← hE]
  rw [show (1 : ℝ) / (m_dot / m0) = m0 / m_dot by field_simp] at n3
  exact F64.burn_product_error (n3.mono (by norm_num)) (by positivity) (p1.trans (by gcongr; norm_num)) p3 hX0.le p2 hE0.le hE1

/-- the exact logarithm and the exact power are as accurate as required -/
example : Spec.LogAccurate Real.log ∧ Spec.PowAccurate { F64.rounded with pow := fun x y => x ^ y } := by
  refine ⟨fun x _ => ?_, fun x y hx => ?_⟩
  · simp
  · have := Real.rpow_pos_of_pos hx y
    simp [this.le]

/-- a chemical engine of 0.1 kg/s on a spacecraft of 1000 kg after half of the longest step -/
example : ∃ a' a, F64.thrustVector Real.log 0.1 1000 300 ⟨1, 2, 2⟩ 150 = .ok a' ∧
    ({ RK4.new (GCRF.new ⟨60000⟩ ⟨42164, 0, 0⟩ ⟨0, 3, 0⟩) with
      m_dot := 0.1, m0 := 1000, thrust_direction := ⟨1, 2, 2⟩, isp := 300 } : RK4).thrustVector 150 = .ok a ∧
    (a'.minus a).magnitude ≤ 4e-15 * a.magnitude :=
  C142_thrust_partial (fun x _ => by simp) { RK4.new (GCRF.new ⟨60000⟩ ⟨42164, 0, 0⟩ ⟨0, 3, 0⟩) with
    m_dot := 0.1, m0 := 1000, thrust_direction := ⟨1, 2, 2⟩, isp := 300 } 150 (by norm_num) (by norm_num)
    (by simp [Vec3.ext_iff]) (by right; norm_num) (by norm_num)

end Openspace
