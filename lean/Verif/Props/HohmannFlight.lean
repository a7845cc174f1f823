import Verif.Props.OrbitThrough
import Verif.Props.Maneuvers
import Verif.Props.Planning
import Verif.Props.Forces

/-!
# Property C136: a planned Hohmann transfer, flown
-/

namespace Openspace

open Real Spec

/-- the velocity across the position, from the momentum -/
theorem momentum_cross {p v : Vec3} (h : p.dot v = 0) : (p.cross v).cross p = v.scaled (p.dot p) := by
  simp only [Vec3.dot] at h
  ext <;> simp only [Vec3.cross, Vec3.scaled, Vec3.dot]
  · linear_combination -p.x * h
  · linear_combination -p.y * h
  · linear_combination -p.z * h

theorem momentum_magnitude {p v : Vec3} (h : p.dot v = 0) : (p.cross v).magnitude = p.magnitude * v.magnitude := by
  apply Vec3.magnitude_of_dot (mul_nonneg p.magnitude_nonneg v.magnitude_nonneg)
  rw [Vec3.lagrange, h, ← Vec3.magnitude_sq_dot, ← Vec3.magnitude_sq_dot]; ring

/-- the velocity half a turn after an apse -/
theorem turned_velocity {q v q' v' : Vec3} {r1 r2 : ℝ} (h1 : 0 < r1) (h2 : 0 < r2) (hp : q.magnitude = r1)
    (hpv : q.dot v = 0) (hpvT : q'.dot v' = 0) (hm : q'.cross v' = q.cross v) (hpT : q' = q.scaled (-(r2 / r1))) :
    v' = v.scaled (-(r1 / r2)) := by
  have c0 := momentum_cross hpv
  have cT := momentum_cross hpvT
  rw [hm, hpT] at cT
  have q0 : q.dot q = r1 ^ 2 := by rw [← Vec3.magnitude_sq_dot, hp]
  have e1 : (q.scaled (-(r2 / r1))).dot (q.scaled (-(r2 / r1))) = r2 ^ 2 := by
    rw [Vec3.dot_scaled_left, Vec3.dot_scaled_right, q0]; field_simp
  have e2 : (q.cross v).cross (q.scaled (-(r2 / r1)))
      = ((q.cross v).cross q).scaled (-(r2 / r1)) := by
    ext <;> simp only [Vec3.cross, Vec3.scaled] <;> ring
  rw [e1, e2, c0, q0] at cT
  have x := congrArg Vec3.x cT
  have y := congrArg Vec3.y cT
  have z := congrArg Vec3.z cT
  simp only [Vec3.scaled] at x y z
  have key : ∀ {u w : ℝ}, u * r1 ^ 2 * -(r2 / r1) = w * r2 ^ 2 → w = u * -(r1 / r2) := by
    intro u w h
    have h3 : r2 ^ 2 * w = r2 ^ 2 * (u * -(r1 / r2)) := by
      rw [mul_comm, ← h]; field_simp
    exact mul_left_cancel₀ (by positivity) h3
  ext
  · exact key x
  · exact key y
  · exact key z

/-- half a revolution after an apse: the opposite apse -/
theorem half_turn {I : Set ℝ} (hI : I.OrdConnected) {s : ℝ → State}
    (h : TwoBody Earth.MU I (fun t => (s t).position.toE) (fun t => (s t).velocity.toE)) {t0 T r1 r2 : ℝ} (ht0 : t0 ∈ I)
    (hT : T = π * √(((r1 + r2) / 2) ^ 3 / Earth.MU)) (ht : t0 + T ∈ I) (h1 : 0 < r1) (h2 : 0 < r2)
    (hp : (s t0).position.magnitude = r1) (hpv : (s t0).position.dot (s t0).velocity = 0)
    (hen : (s t0).velocity.magnitude ^ 2 / 2 - Earth.MU / r1 = -Earth.MU / (r1 + r2)) :
    (s (t0 + T)).position = (s t0).position.scaled (-(r2 / r1)) ∧
    (s (t0 + T)).velocity = (s t0).velocity.scaled (-(r1 / r2)) := by
  have hmu := mu_pos
  have hv2 : (s t0).velocity.magnitude ^ 2 = 2 * Earth.MU * r2 / (r1 * (r1 + r2)) := by
    rw [show (s t0).velocity.magnitude ^ 2 = 2 * (-Earth.MU / (r1 + r2) + Earth.MU / r1) by linarith]
    field_simp; ring
  have hv0 : 0 < (s t0).velocity.magnitude := by
    rcases (s t0).velocity.magnitude_nonneg.lt_or_eq with h | h
    · exact h
    · rw [← h] at hv2
      have : 0 < 2 * Earth.MU * r2 / (r1 * (r1 + r2)) := by positivity
      rw [← hv2] at this
      norm_num at this
  have hh : (s t0).position.cross (s t0).velocity ≠ ⟨0, 0, 0⟩ := by
    rw [← Vec3.magnitude_pos, momentum_magnitude hpv, hp]; positivity
  have hb : (s t0).velocity.magnitude ^ 2 / 2 < Earth.MU / (s t0).position.magnitude := by
    rw [hp]
    have : -Earth.MU / (r1 + r2) < 0 := by rw [neg_div]; exact neg_neg_of_pos (by positivity)
    linarith
  obtain ⟨el, E, n, ha, he, he', hne, hE, hs⟩ := motion_on_orbit hI h ht0 hh hb
  obtain ⟨a, hae⟩ : ∃ a, a = el.semimajor_axis := ⟨_, rfl⟩
  obtain ⟨e, hee⟩ : ∃ e, e = el.eccentricity := ⟨_, rfl⟩
  rw [← hee] at he he' hE
  rw [← hae] at ha hne
  have hD := one_sub_e_cos_pos he he' (E t0)
  have h2e : (0 : ℝ) < 1 - e * e := by nlinarith
  obtain ⟨b, hbe⟩ : ∃ b, b = √(1 - e * e) := ⟨_, rfl⟩
  have hss : b * b = 1 - e * e := by rw [hbe]; exact Real.mul_self_sqrt h2e.le
  have hn3 : 0 < Earth.MU / a ^ 3 := by positivity
  have hn : 0 < n := by rw [hne]; exact Real.sqrt_pos.mpr hn3
  have hnn : n * n = Earth.MU / a ^ 3 := by rw [hne]; exact Real.mul_self_sqrt hn3.le
  have hcs := sin_sq_add_cos_sq (E t0)
  have hp0 := (hs t0 ht0).1
  have hv0' := (hs t0 ht0).2
  rw [orbitPos, ← hae, ← hee, ← hbe] at hp0
  rw [orbitVel, ← hae, ← hee, ← hbe] at hv0'
  -- the apse
  have hes : e * sin (E t0) = 0 := by
    rw [hp0, hv0', comb_dot el.dirP_unit el.dirQ_unit el.dirP_dirQ] at hpv
    have : n * a ^ 2 * (e * sin (E t0)) = 0 := by
      rw [← hpv]
      field_simp
      linear_combination -(sin (E t0) * cos (E t0)) * hss
    exact (mul_eq_zero.mp this).resolve_left (by positivity)
  have hr1 : r1 = a * (1 - e * cos (E t0)) := by
    rw [← hp, hp0]
    apply Vec3.magnitude_of_dot (by positivity)
    rw [comb_dot el.dirP_unit el.dirQ_unit el.dirP_dirQ]
    linear_combination a ^ 2 * (sin (E t0)) ^ 2 * hss + a ^ 2 * (1 - e ^ 2) * hcs
  have hvv : (s t0).velocity.magnitude ^ 2 = n ^ 2 * a ^ 2 * (1 - (e * cos (E t0)) ^ 2) / (1 - e * cos (E t0)) ^ 2 := by
    rw [Vec3.magnitude_sq_dot, hv0', comb_dot el.dirP_unit el.dirQ_unit el.dirP_dirQ]
    field_simp
    linear_combination (cos (E t0)) ^ 2 * hss + hcs
  have hA : a = (r1 + r2) / 2 := by
    have hec : 0 < 1 + e * cos (E t0) := by nlinarith [neg_one_le_cos (E t0)]
    rw [hvv, show n ^ 2 = Earth.MU / a ^ 3 by rw [sq, hnn]] at hv2
    have hx : 1 - e * cos (E t0) = r1 / a := by rw [hr1]; field_simp
    have hy : e * cos (E t0) = 1 - r1 / a := by rw [← hx]; ring
    rw [hx, hy] at hv2
    field_simp at hv2
    have : r1 * r1 * (2 * a - (r1 + r2)) = 0 := by linear_combination hv2
    have := (mul_eq_zero.mp this).resolve_left (by positivity)
    linarith
  have hr2 : r2 = a * (1 + e * cos (E t0)) := by linarith
  -- half a revolution
  have hnT : n * T = π := by
    rw [hT, ← hA, hne, mul_left_comm, ← Real.sqrt_mul hn3.le, show Earth.MU / a ^ 3 * (a ^ 3 / Earth.MU) = 1 by field_simp,
      Real.sqrt_one, mul_one]
  have hET : E (t0 + T) = E t0 + π := by
    apply kepler_injective he he'
    have := hE (t0 + T)
    unfold kepler
    rw [this, sin_add_pi, show t0 + T - t0 = T by ring, hnT]
    linarith
  have hpT : (s (t0 + T)).position = (s t0).position.scaled (-(r2 / r1)) := by
    have := (hs (t0 + T) ht).1
    rw [orbitPos, ← hae, ← hee, ← hbe, hET, cos_add_pi, sin_add_pi] at this
    rw [this, hp0, hr2, hr1]
    have hk : a * (1 + e * cos (E t0)) / (a * (1 - e * cos (E t0))) = (1 + e * cos (E t0)) / (1 - e * cos (E t0)) := by
      field_simp
    rw [hk]
    have k1 : a * (-cos (E t0) - e) = a * (cos (E t0) - e) * -((1 + e * cos (E t0)) / (1 - e * cos (E t0))) := by
      rw [← neg_div, mul_div_assoc', eq_div_iff hD.ne']
      linear_combination a * (2 * e * hcs - 2 * sin (E t0) * hes)
    have k2 : a * b * -sin (E t0) = a * b * sin (E t0) * -((1 + e * cos (E t0)) / (1 - e * cos (E t0))) := by
      rw [← neg_div, mul_div_assoc', eq_div_iff hD.ne']
      linear_combination a * b * (2 * cos (E t0) * hes)
    rw [k1, k2]
    ext <;> simp only [Vec3.scaled, Vec3.plus] <;> ring
  refine ⟨hpT, ?_⟩
  have hm := momentum_const hI (p := fun t => (s t).position) (v := fun t => (s t).velocity) h ht ht0
  have hpvT : (s (t0 + T)).position.dot (s (t0 + T)).velocity = 0 := by
    rw [(hs (t0 + T) ht).1, (hs (t0 + T) ht).2, orbitPos, orbitVel, ← hae, ← hee, ← hbe, hET, cos_add_pi, sin_add_pi,
      comb_dot el.dirP_unit el.dirQ_unit el.dirP_dirQ]
    have hz : -(sin (E t0) * cos (E t0)) - e * sin (E t0) + b ^ 2 * (sin (E t0) * cos (E t0)) = 0 := by
      linear_combination (sin (E t0) * cos (E t0)) * hss - (1 + e * cos (E t0)) * hes
    linear_combination (n * a ^ 2 / (1 - e * -cos (E t0))) * hz
  exact turned_velocity h1 h2 hp hpv hpvT hm hpT

/-- the in-track direction at an apse is that of the velocity -/
theorem apse_burn {ι : Type} [DecidableEq ι] (w : World ι) (i : ι) (d : ℝ) {p v : Vec3}
    (hp : (w i).propagator.state.position = p) (hv : (w i).propagator.state.velocity = v) (hpv : p.dot v = 0)
    (hp0 : 0 < p.magnitude) (hv0 : 0 < v.magnitude) :
    ∃ w', Spacecraft.impulsiveManeuver i ⟨0, d, 0⟩ w = (.ok (), w') ∧ (w' i).propagator.state.position = p ∧
      (w' i).propagator.state.velocity = v.scaled (1 + d / v.magnitude) ∧
      (w' i).propagator.state.epoch = (w i).propagator.state.epoch := by
  have hh : p.cross v ≠ ⟨0, 0, 0⟩ := by
    rw [← Vec3.magnitude_pos, momentum_magnitude hpv]; positivity
  have hnd : (w i).propagator.state.NonDegenerate := by rw [nonDegenerate_iff, hp, hv]; exact hh
  obtain ⟨w', M, h1, hM, h2, h3, h4, -⟩ := C34_impulse w i ⟨0, d, 0⟩ hnd
  obtain ⟨M', hM', -, hr1, hr3, hr2, -⟩ := C33_frame _ hnd
  have : M' = M := by rw [hM, Except.ok.injEq] at hM'; exact hM'.symm
  subst this
  rw [hp] at hr1 h2
  rw [hp, hv] at hr3
  rw [momentum_magnitude hpv] at hr3
  refine ⟨w', h1, h2, ?_, h3⟩
  have hrow : M'.row2.scaled v.magnitude = v := by
    have c := momentum_cross hpv
    rw [← hr3] at c
    have e1 : (M'.row3.scaled (p.magnitude * v.magnitude)).cross p
        = (M'.row3.cross M'.row1).scaled (p.magnitude * v.magnitude * p.magnitude) := by
      have x := congrArg Vec3.x hr1
      have y := congrArg Vec3.y hr1
      have z := congrArg Vec3.z hr1
      simp only [Vec3.scaled] at x y z
      ext <;> simp only [Vec3.cross, Vec3.scaled]
      · linear_combination -(p.magnitude * v.magnitude) * (M'.row3.y * z - M'.row3.z * y)
      · linear_combination -(p.magnitude * v.magnitude) * (M'.row3.z * x - M'.row3.x * z)
      · linear_combination -(p.magnitude * v.magnitude) * (M'.row3.x * y - M'.row3.y * x)
    rw [e1, ← hr2, ← Vec3.magnitude_sq_dot] at c
    have x := congrArg Vec3.x c
    have y := congrArg Vec3.y c
    have z := congrArg Vec3.z c
    simp only [Vec3.scaled] at x y z
    have hpp : p.magnitude ^ 2 ≠ 0 := by positivity
    ext <;> simp only [Vec3.scaled] <;> apply mul_right_cancel₀ hpp
    · linear_combination x
    · linear_combination y
    · linear_combination z
  rw [h4, hv]
  have x := congrArg Vec3.x hrow
  have y := congrArg Vec3.y hrow
  have z := congrArg Vec3.z hrow
  simp only [Vec3.scaled] at x y z
  ext <;> simp only [Vec3.scaled, Vec3.plus]
  · rw [← x]; field_simp; ring
  · rw [← y]; field_simp; ring
  · rw [← z]; field_simp; ring

/-- the radius of a motion that starts circular -/
theorem circular_stays {I : Set ℝ} (hI : I.OrdConnected) {s : ℝ → State}
    (h : TwoBody Earth.MU I (fun t => (s t).position.toE) (fun t => (s t).velocity.toE)) {t0 r : ℝ} (ht0 : t0 ∈ I)
    (hr : 0 < r) (hp : (s t0).position.magnitude = r) (hpv : (s t0).position.dot (s t0).velocity = 0)
    (hv : (s t0).velocity.magnitude ^ 2 = Earth.MU / r) {t : ℝ} (ht : t ∈ I) : (s t).position.magnitude = r := by
  have hmu := mu_pos
  have hv0 : 0 < (s t0).velocity.magnitude := by
    rcases (s t0).velocity.magnitude_nonneg.lt_or_eq with h | h
    · exact h
    · rw [← h] at hv
      have : 0 < Earth.MU / r := by positivity
      rw [← hv] at this
      norm_num at this
  have hh : (s t0).position.cross (s t0).velocity ≠ ⟨0, 0, 0⟩ := by
    rw [← Vec3.magnitude_pos, momentum_magnitude hpv, hp]; positivity
  have h0 : ∀ t ∈ I, (s t).position ≠ ⟨0, 0, 0⟩ := fun t ht hz => by
    have := momentum_const hI (p := fun t => (s t).position) (v := fun t => (s t).velocity) h ht ht0
    rw [hz] at this
    exact hh (by rw [← this]; simp [Vec3.cross])
  have hen : ∀ t ∈ I, (s t).velocity.magnitude ^ 2 / 2 - Earth.MU / (s t).position.magnitude = -Earth.MU / (2 * r) :=
    fun t ht => by
      rw [energy_const hI (p := fun t => (s t).position) (v := fun t => (s t).velocity) h h0 ht ht0, hp, hv]
      field_simp; ring
  have hn3 : 0 < Earth.MU / r ^ 3 := by positivity
  obtain ⟨n, hne⟩ : ∃ n, n = √(Earth.MU / r ^ 3) := ⟨_, rfl⟩
  have hn : 0 < n := by rw [hne]; exact Real.sqrt_pos.mpr hn3
  have hnn : n * n = Earth.MU / r ^ 3 := by rw [hne]; exact Real.mul_self_sqrt hn3.le
  have key := (anomaly_turn hr hn (by rw [hnn]; field_simp) hI (p := fun t => (s t).position)
    (v := fun t => (s t).velocity) h h0 hen ht ht0 rfl rfl).1
  simp only [hp, hpv, div_self hr.ne', sub_self, zero_mul, zero_div] at key
  field_simp at key
  linarith

variable {ι : Type} [DecidableEq ι]

/-- **C136.** A spacecraft on a circular orbit of radius `r1` performs the first burn of `Hohmann(r1, r2)`, in track,
with `impulsive_maneuver`; there is a two-body motion through the resulting state; after half a revolution of the
transfer ellipse every such motion has arrived at distance `r2`, opposite to the start; the second burn, in track there,
puts the spacecraft on the circular orbit of radius `r2` in the same plane and sense, and every two-body motion from then
on stays at distance `r2`. -/
theorem C136_transfer (w : World ι) (i : ι) (r1 r2 : ℝ) (h2 : 0 < r2)
    (hp : (w i).propagator.state.position.magnitude = r1) (h1 : 0 < r1)
    (hpv : (w i).propagator.state.position.dot (w i).propagator.state.velocity = 0)
    (hv : (w i).propagator.state.velocity.magnitude ^ 2 = Earth.MU / r1) :
    ∃ h w1, Hohmann.new r1 r2 = .ok h ∧ Spacecraft.impulsiveManeuver i ⟨0, h.delta_v_1, 0⟩ w = (.ok (), w1) ∧
      (∃ s : ℝ → State, TwoBody Earth.MU Set.univ (fun t => (s t).position.toE) (fun t => (s t).velocity.toE) ∧
        (s 0).position = (w1 i).propagator.state.position ∧ (s 0).velocity = (w1 i).propagator.state.velocity) ∧
      ∀ (I : Set ℝ) (s : ℝ → State) (t0 t1 : ℝ), I.OrdConnected → t0 ∈ I → t1 ∈ I →
        TwoBody Earth.MU I (fun t => (s t).position.toE) (fun t => (s t).velocity.toE) →
        (s t0).position = (w1 i).propagator.state.position → (s t0).velocity = (w1 i).propagator.state.velocity →
        t1 - t0 = π * √(((r1 + r2) / 2) ^ 3 / Earth.MU) →
        (s t1).position = (w i).propagator.state.position.scaled (-(r2 / r1)) ∧
        (s t1).velocity.magnitude = h.transfer_velocity_2 ∧
        ∀ w2 : World ι, (w2 i).propagator.state.position = (s t1).position →
          (w2 i).propagator.state.velocity = (s t1).velocity →
          ∃ w3, Spacecraft.impulsiveManeuver i ⟨0, h.delta_v_2, 0⟩ w2 = (.ok (), w3) ∧
            (w3 i).propagator.state.position = (s t1).position ∧
            (w3 i).propagator.state.position.magnitude = r2 ∧
            (w3 i).propagator.state.position.dot (w3 i).propagator.state.velocity = 0 ∧
            (w3 i).propagator.state.velocity.magnitude ^ 2 = Earth.MU / r2 ∧
            (∃ c > 0, (w3 i).propagator.state.position.cross (w3 i).propagator.state.velocity
              = ((w i).propagator.state.position.cross (w i).propagator.state.velocity).scaled c) ∧
            ∀ (J : Set ℝ) (s' : ℝ → State) (t2 : ℝ), J.OrdConnected → t2 ∈ J →
              TwoBody Earth.MU J (fun t => (s' t).position.toE) (fun t => (s' t).velocity.toE) →
              (s' t2).position = (w3 i).propagator.state.position →
              (s' t2).velocity = (w3 i).propagator.state.velocity → ∀ t ∈ J, (s' t).position.magnitude = r2 := by
  have hmu := mu_pos
  obtain ⟨h, hh⟩ := (C69_defined r1 r2).mpr ⟨h1, h2⟩
  obtain ⟨l1, l2, l3, l4, l5, l6, l7, p1, p2, p3, p4⟩ := C69_laws r1 r2 h hh
  obtain ⟨p, hpe⟩ : ∃ p, p = (w i).propagator.state.position := ⟨_, rfl⟩
  obtain ⟨v, hve⟩ : ∃ v, v = (w i).propagator.state.velocity := ⟨_, rfl⟩
  rw [← hpe] at hp hpv ⊢
  rw [← hve] at hpv hv ⊢
  have hvi : v.magnitude = h.initial_velocity := by
    have : v.magnitude ^ 2 = h.initial_velocity ^ 2 := by
      rw [hv, show h.initial_velocity ^ 2 = h.initial_velocity ^ 2 / r1 * r1 by field_simp, l1]; field_simp
    exact Vec3.eq_of_sq_eq v.magnitude_nonneg p1.le this
  have hv0 : 0 < v.magnitude := by rw [hvi]; exact p1
  have hp0 : 0 < p.magnitude := by rw [hp]; exact h1
  obtain ⟨w1, b1, b2, b3, -⟩ := apse_burn w i h.delta_v_1 hpe.symm hve.symm hpv hp0 hv0
  obtain ⟨k, hk⟩ : ∃ k, k = 1 + h.delta_v_1 / v.magnitude := ⟨_, rfl⟩
  have hkv : k * v.magnitude = h.transfer_velocity_1 := by
    rw [hk, add_mul, one_mul, div_mul_cancel₀ _ hv0.ne', hvi, l6]
  have hk0 : 0 < k := by
    by_contra hc
    have : k * v.magnitude ≤ 0 := mul_nonpos_of_nonpos_of_nonneg (not_lt.mp hc) hv0.le
    linarith
  rw [← hk] at b3
  have m1 : (v.scaled k).magnitude = h.transfer_velocity_1 := by
    rw [Vec3.magnitude_scaled_abs, abs_of_pos hk0, hkv]
  have d1 : p.dot (v.scaled k) = 0 := by rw [Vec3.dot_scaled_right, hpv, mul_zero]
  have hen : (v.scaled k).magnitude ^ 2 / 2 - Earth.MU / r1 = -Earth.MU / (r1 + r2) := by rw [m1]; exact l4
  refine ⟨h, w1, hh, b1, ?_, ?_⟩
  · obtain ⟨s, hs, e1, e2⟩ := exists_motion (State.new ⟨0⟩ p (v.scaled k)) (by
      show p.cross (v.scaled k) ≠ _
      rw [← Vec3.magnitude_pos, momentum_magnitude d1, hp, m1]; positivity) (by
      show (v.scaled k).magnitude ^ 2 / 2 < Earth.MU / p.magnitude
      rw [hp]
      have : -Earth.MU / (r1 + r2) < 0 := by rw [neg_div]; exact neg_neg_of_pos (by positivity)
      linarith) 0
    exact ⟨s, hs, e1.trans b2.symm, e2.trans b3.symm⟩
  intro I s t0 t1 hI ht0 ht1 hT e1 e2 hdt
  rw [b2] at e1
  rw [b3] at e2
  have ht1' : t1 = t0 + (t1 - t0) := by ring
  obtain ⟨q1, q2⟩ := half_turn hI hT ht0 hdt (by rw [← ht1']; exact ht1) h1 h2 (by rw [e1, hp]) (by rw [e1, e2, d1])
    (by rw [e2]; exact hen)
  rw [← ht1', e1] at q1
  rw [← ht1', e2] at q2
  have hr : 0 < r2 / r1 := by positivity
  have hr' : 0 < r1 / r2 := by positivity
  have mp : (s t1).position.magnitude = r2 := by
    rw [q1, Vec3.magnitude_scaled_abs, abs_neg, abs_of_pos hr, hp]; field_simp
  have mv : (s t1).velocity.magnitude = h.transfer_velocity_2 := by
    rw [q2, Vec3.magnitude_scaled_abs, abs_neg, abs_of_pos hr', m1]
    field_simp; linarith
  have dT : (s t1).position.dot (s t1).velocity = 0 := by
    rw [q1, q2, Vec3.dot_scaled_left, Vec3.dot_scaled_right, d1]; ring
  refine ⟨q1, mv, fun w2 f1 f2 => ?_⟩
  obtain ⟨w3, c1, c2, c3, -⟩ := apse_burn w2 i h.delta_v_2 f1 f2 dT (by rw [mp]; exact h2) (by rw [mv]; exact p3)
  obtain ⟨k', hk'⟩ : ∃ k', k' = 1 + h.delta_v_2 / (s t1).velocity.magnitude := ⟨_, rfl⟩
  have hkv' : k' * (s t1).velocity.magnitude = h.final_velocity := by
    rw [hk', add_mul, one_mul, div_mul_cancel₀ _ (by rw [mv]; exact p3.ne'), mv, l7]
  have hk0' : 0 < k' := by
    by_contra hc
    have : k' * (s t1).velocity.magnitude ≤ 0 :=
      mul_nonpos_of_nonpos_of_nonneg (not_lt.mp hc) (s t1).velocity.magnitude_nonneg
    linarith
  rw [← hk'] at c3
  have g1 : (w3 i).propagator.state.position.magnitude = r2 := by rw [c2, mp]
  have g2 : (w3 i).propagator.state.position.dot (w3 i).propagator.state.velocity = 0 := by
    rw [c2, c3, Vec3.dot_scaled_right, dT, mul_zero]
  have g3 : (w3 i).propagator.state.velocity.magnitude ^ 2 = Earth.MU / r2 := by
    rw [c3, Vec3.magnitude_scaled_abs, abs_of_pos hk0', hkv',
      show h.final_velocity ^ 2 = h.final_velocity ^ 2 / r2 * r2 by field_simp, l2]
    field_simp
  refine ⟨w3, c1, c2, g1, g2, g3, ⟨k * k', by positivity, ?_⟩, ?_⟩
  · rw [c2, c3, q1, q2]
    have : r2 / r1 * (r1 / r2) = 1 := by field_simp
    ext <;> simp only [Vec3.cross, Vec3.scaled]
    · linear_combination (k * k' * (p.y * v.z - p.z * v.y)) * this
    · linear_combination (k * k' * (p.z * v.x - p.x * v.z)) * this
    · linear_combination (k * k' * (p.x * v.y - p.y * v.x)) * this
  · intro J s' t2 hJ ht2 hT' e1 e2 t ht
    exact circular_stays hJ hT' ht2 h2 (by rw [e1, g1]) (by rw [e1, e2, g2]) (by rw [e2, g3]) ht

/-- a circular orbit 300 km above the equator -/
noncomputable def parking : GCRF := GCRF.new ⟨25000⟩ ⟨6678, 0, 0⟩ ⟨0, √(Earth.MU / 6678), 0⟩

/-- a spacecraft made by the constructor on that orbit, raised to the geosynchronous orbit -/
example : ∃ w w1 : World (Fin 1), ∃ h, Spacecraft.Fresh w ∧ Hohmann.new 6678 42164 = .ok h ∧
    Spacecraft.impulsiveManeuver 0 ⟨0, h.delta_v_1, 0⟩ w = (.ok (), w1) ∧
    ∃ s : ℝ → State, (s 0).position = (w1 0).propagator.state.position ∧
      (s (π * √(((6678 + 42164) / 2) ^ 3 / Earth.MU))).position = ⟨-42164, 0, 0⟩ := by
  obtain ⟨w, hw, hg⟩ := exists_fresh (ι := Fin 1) fun _ => parking
  have hp : (w 0).propagator = RK4.new parking := by
    obtain ⟨s, h1, -, -, h2, -⟩ := new_ok (ι := Fin 1) parking
    rw [hg 0] at h1
    cases h1
    exact h2
  have hmu := mu_pos
  have e1 : (w 0).propagator.state.position = ⟨6678, 0, 0⟩ := by rw [hp]; rfl
  have e2 : (w 0).propagator.state.velocity = ⟨0, √(Earth.MU / 6678), 0⟩ := by rw [hp]; rfl
  obtain ⟨h, w1, hh, hb, ⟨s, hs, s1, s2⟩, hall⟩ := C136_transfer w 0 6678 42164 (by norm_num)
    (by rw [e1]; exact Vec3.magnitude_of_dot (by norm_num) (by simp [Vec3.dot]; norm_num)) (by norm_num)
    (by rw [e1, e2]; simp [Vec3.dot])
    (by
      rw [e2, Vec3.magnitude_sq_dot]
      simp only [Vec3.dot, mul_zero, zero_add, add_zero]
      exact Real.mul_self_sqrt (by positivity))
  refine ⟨w, w1, h, hw, hh, hb, s, s1, ?_⟩
  have := (hall Set.univ s 0 _ Set.ordConnected_univ trivial trivial hs s1 s2 (sub_zero _)).1
  rw [this, e1]
  ext <;> norm_num [Vec3.scaled]

end Openspace
