import Verif.Lemmas.KeplerMotion
import Verif.Props.ElementsState

/-!
# Properties C123, C124, C125: classical elements along two-body motion
-/

namespace Openspace

open Real Spec

/-- shape, plane and eccentric anomaly of two states of one motion -/
theorem fromIjk_pair {I : Set ℝ} (hI : I.OrdConnected) {s : ℝ → State}
    (h : TwoBody Earth.MU I (fun t => (s t).position.toE) (fun t => (s t).velocity.toE)) {t t0 : ℝ} (ht : t ∈ I)
    (ht0 : t0 ∈ I) (hh : (s t0).position.cross (s t0).velocity ≠ ⟨0, 0, 0⟩)
    (hb : (s t0).velocity.magnitude ^ 2 / 2 < Earth.MU / (s t0).position.magnitude) :
    ∃ el0 el E0 E nu0 nu w n, ClassicalElements.fromIjk (s t0) = .ok el0 ∧ ClassicalElements.fromIjk (s t) = .ok el ∧
      el.semimajor_axis = el0.semimajor_axis ∧ el.eccentricity = el0.eccentricity ∧
      el.inclination = el0.inclination ∧ el.raan = el0.raan ∧ 0 < el0.semimajor_axis ∧ 0 ≤ el0.eccentricity ∧
      el0.eccentricity < 1 ∧ 0 ≤ E0 ∧ E0 < 2 * π ∧ 0 ≤ E ∧ E < 2 * π ∧
      el0.mean_anomaly = maFromEaE E0 el0.eccentricity ∧ el.mean_anomaly = maFromEaE E el.eccentricity ∧
      nuFromEEa el0.eccentricity E0 = .ok nu0 ∧ nuFromEEa el.eccentricity E = .ok nu ∧ w.dot w = 1 ∧
      el0.inclination = incFromW w ∧ el0.raan = raanFromW w ∧
      el0.argument_of_perigee = wFromUNu (uFromRW (s t0).position w) nu0 ∧
      el.argument_of_perigee = wFromUNu (uFromRW (s t).position w) nu ∧
      (s t0).position.cross (s t0).velocity
        = w.scaled (√(Earth.MU * (el0.semimajor_axis * (1 - el0.eccentricity ^ 2)))) ∧
      n = √(Earth.MU / el0.semimajor_axis ^ 3) ∧ 0 < n ∧
      Earth.MU = n * n * (el0.semimajor_axis * el0.semimajor_axis * el0.semimajor_axis) ∧
      (∀ t ∈ I, (s t).position ≠ ⟨0, 0, 0⟩) ∧
      (∀ t ∈ I, (s t).position.cross (s t).velocity = (s t0).position.cross (s t0).velocity) ∧
      (∀ t ∈ I, (s t).velocity.magnitude ^ 2 / 2 - Earth.MU / (s t).position.magnitude
        = -Earth.MU / (2 * el0.semimajor_axis)) ∧
      (s t0).position.magnitude = el0.semimajor_axis * (1 - el0.eccentricity * cos E0) ∧
      (s t0).position.dot (s t0).velocity = n * (el0.semimajor_axis * el0.semimajor_axis) * (el0.eccentricity * sin E0) ∧
      (s t).position.magnitude = el0.semimajor_axis * (1 - el0.eccentricity * cos E) ∧
      (s t).position.dot (s t).velocity = n * (el0.semimajor_axis * el0.semimajor_axis) * (el0.eccentricity * sin E) ∧
      (el0.eccentricity = 0 → E0 = 0) ∧ (el.eccentricity = 0 → E = 0) := by
  have hmu := mu_pos
  have hmom : ∀ t ∈ I, (s t).position.cross (s t).velocity = (s t0).position.cross (s t0).velocity :=
    fun t ht => momentum_const hI (p := fun t => (s t).position) (v := fun t => (s t).velocity) h ht ht0
  have hr : ∀ t ∈ I, (s t).position ≠ ⟨0, 0, 0⟩ := fun t ht h0 => by
    have := hmom t ht
    rw [h0] at this
    exact hh (by rw [← this]; simp [Vec3.cross])
  have hE : ∀ t ∈ I, (s t).velocity.magnitude ^ 2 / 2 - Earth.MU / (s t).position.magnitude
      = (s t0).velocity.magnitude ^ 2 / 2 - Earth.MU / (s t0).position.magnitude :=
    fun t ht => energy_const hI (p := fun t => (s t).position) (v := fun t => (s t).velocity) h hr ht ht0
  obtain ⟨el0, E0, nu0, w0, a1, -, ha0, he0, he0', hen0, hr0, hq0, hE00, hE01, hM0, hnu0, hw0, hcr0, hi0, hO0, hp0, hz0⟩ :=
    fromIjk_bound (s t0) (hr t0 ht0) hh hb
  obtain ⟨el, E, nu, w, b1, -, ha, he, he', hen, hrt, hq, hEt0, hEt1, hM, hnu, hw, hcr, hi, hO, hp, hz⟩ :=
    fromIjk_bound (s t) (hr t ht) (by rw [hmom t ht]; exact hh) (by have := hE t ht; linarith)
  have hA : el.semimajor_axis = el0.semimajor_axis := by
    rw [hE t ht, hen0, div_eq_div_iff (by positivity) (by positivity)] at hen
    have : Earth.MU * (2 * el.semimajor_axis - 2 * el0.semimajor_axis) = 0 := by linarith
    have := (mul_eq_zero.mp this).resolve_left hmu.ne'
    linarith
  rw [hA] at hcr hrt hq
  have hsq : el.eccentricity ^ 2 = el0.eccentricity ^ 2 := by
    have k0 : 0 ≤ Earth.MU * (el0.semimajor_axis * (1 - el0.eccentricity ^ 2)) := by
      have : 0 ≤ 1 - el0.eccentricity ^ 2 := by nlinarith
      positivity
    have k1 : 0 ≤ Earth.MU * (el0.semimajor_axis * (1 - el.eccentricity ^ 2)) := by
      have : 0 ≤ 1 - el.eccentricity ^ 2 := by nlinarith
      positivity
    have m0 := congrArg (fun v => Vec3.magnitude v ^ 2) hcr0
    have m1 := congrArg (fun v => Vec3.magnitude v ^ 2) hcr
    simp only [Vec3.magnitude_scaled, Vec3.magnitude_unit hw0, Vec3.magnitude_unit hw, mul_one, sq_abs,
      Real.sq_sqrt k0, Real.sq_sqrt k1] at m0 m1
    rw [hmom t ht, m0] at m1
    have := mul_left_cancel₀ ha0.ne' (mul_left_cancel₀ hmu.ne' m1)
    linarith
  have hEc : el.eccentricity = el0.eccentricity := Vec3.eq_of_sq_eq he he0 hsq
  rw [hEc] at hcr hrt hq
  have h2e : (0 : ℝ) < 1 - el0.eccentricity ^ 2 := by nlinarith
  have hpp : 0 < Earth.MU * (el0.semimajor_axis * (1 - el0.eccentricity ^ 2)) := by positivity
  have hH := Real.sqrt_pos.mpr hpp
  have hWW : w = w0 := by
    rw [hmom t ht, hcr0] at hcr
    have x := congrArg Vec3.x hcr
    have y := congrArg Vec3.y hcr
    have z := congrArg Vec3.z hcr
    simp only [Vec3.scaled] at x y z
    ext
    · exact (mul_right_cancel₀ hH.ne' x).symm
    · exact (mul_right_cancel₀ hH.ne' y).symm
    · exact (mul_right_cancel₀ hH.ne' z).symm
  subst hWW
  have hn3 : 0 < Earth.MU / el0.semimajor_axis ^ 3 := by positivity
  have hn0 := Real.sqrt_pos.mpr hn3
  have hnn := Real.mul_self_sqrt hn3.le
  have hmn : Earth.MU = √(Earth.MU / el0.semimajor_axis ^ 3) * √(Earth.MU / el0.semimajor_axis ^ 3)
      * (el0.semimajor_axis * el0.semimajor_axis * el0.semimajor_axis) := by
    rw [hnn]; field_simp
  have hsa : √(Earth.MU * el0.semimajor_axis)
      = √(Earth.MU / el0.semimajor_axis ^ 3) * (el0.semimajor_axis * el0.semimajor_axis) := by
    rw [show Earth.MU * el0.semimajor_axis
        = (√(Earth.MU / el0.semimajor_axis ^ 3) * (el0.semimajor_axis * el0.semimajor_axis))
          * (√(Earth.MU / el0.semimajor_axis ^ 3) * (el0.semimajor_axis * el0.semimajor_axis)) by
      linear_combination el0.semimajor_axis * hmn]
    exact Real.sqrt_mul_self (by positivity)
  rw [hsa] at hq hq0
  exact ⟨el0, el, E0, E, nu0, nu, w, _, a1, b1, hA, hEc, hi.trans hi0.symm, hO.trans hO0.symm, ha0, he0, he0', hE00,
    hE01, hEt0, hEt1, hM0, hM, hnu0, hnu, hw0, hi0, hO0, hp0, hp, hcr0, rfl, hn0, hmn, hr, hmom,
    fun t ht => (hE t ht).trans hen0, hr0, hq0, hrt, hq, hz0, hz⟩

/-- the eccentric anomalies of two states of one motion satisfy Kepler's equation -/
theorem anomaly_advance {e E0 E nt : ℝ} (he : 0 < e)
    (hc : e * cos E = e * cos E0 * cos (nt + (e * sin E - e * sin E0))
      - e * sin E0 * sin (nt + (e * sin E - e * sin E0)))
    (hs : e * sin E = e * cos E0 * sin (nt + (e * sin E - e * sin E0))
      + e * sin E0 * cos (nt + (e * sin E - e * sin E0))) :
    ∃ k : ℤ, E - e * sin E = E0 - e * sin E0 + nt + 2 * π * k := by
  obtain ⟨k, hk⟩ : ∃ k : ℤ, E = (E0 + (nt + (e * sin E - e * sin E0))) + 2 * π * k := by
    apply exists_turn
    · apply mul_left_cancel₀ he.ne'
      rw [hc, cos_add E0]; ring
    · apply mul_left_cancel₀ he.ne'
      rw [sin_add E0]; linarith
  exact ⟨k, by linarith⟩

/-- Along two-body motion on an interval of times, starting bound and not radial, `from_ijk` succeeds and returns the
same semi-major axis, eccentricity, inclination and node at all times. Unless the orbit is circular the mean anomaly
grows with the time at the rate `sqrt(mu / a³)`, modulo full turns. -/
theorem C124_mean_anomaly (s : ℝ → State) (I : Set ℝ) (hI : I.OrdConnected)
    (h : TwoBody Earth.MU I (fun t => (s t).position.toE) (fun t => (s t).velocity.toE)) (t0 : ℝ) (ht0 : t0 ∈ I)
    (hb : (s t0).velocity.magnitude ^ 2 / 2 < Earth.MU / (s t0).position.magnitude)
    (hh : (s t0).position.cross (s t0).velocity ≠ ⟨0, 0, 0⟩) :
    ∃ el0, ClassicalElements.fromIjk (s t0) = .ok el0 ∧ ∀ t ∈ I, ∃ el, ClassicalElements.fromIjk (s t) = .ok el ∧
      el.semimajor_axis = el0.semimajor_axis ∧ el.eccentricity = el0.eccentricity ∧
      el.inclination = el0.inclination ∧ el.raan = el0.raan ∧
      (el0.eccentricity ≠ 0 → ∃ k : ℤ, el.mean_anomaly
        = el0.mean_anomaly + √(Earth.MU / el0.semimajor_axis ^ 3) * (t - t0) + 2 * π * k) := by
  obtain ⟨el0, -, -, -, -, -, -, -, h0, -⟩ := fromIjk_pair hI h ht0 ht0 hh hb
  refine ⟨el0, h0, fun t ht => ?_⟩
  obtain ⟨el0', el, E0, E, nu0, nu, w, n, h0', h1, hA, hEc, hinc, hO, ha, he, he', hE00, hE01, hE0, hE1, hM0, hM, -, -,
    -, -, -, -, -, -, hne, hn, hmn, hr, hmom, hen, hr0, hq0, hrt, hqt, -, -⟩ := fromIjk_pair hI h ht ht0 hh hb
  have : el0' = el0 := by rw [h0, Except.ok.injEq] at h0'; exact h0'.symm
  subst this
  refine ⟨el, h1, hA, hEc, hinc, hO, fun hz => ?_⟩
  have hpos : 0 < el0'.eccentricity := lt_of_le_of_ne he (Ne.symm hz)
  have key := anomaly_turn ha hn hmn hI (p := fun t => (s t).position) (v := fun t => (s t).velocity) h hr hen ht ht0
    rfl rfl
  simp only [hr0, hq0, hrt, hqt] at key
  obtain ⟨a, hae⟩ : ∃ a, a = el0'.semimajor_axis := ⟨_, rfl⟩
  obtain ⟨e, hee⟩ : ∃ e, e = el0'.eccentricity := ⟨_, rfl⟩
  have e1 : ∀ x, 1 - a * (1 - e * x) / a = e * x := fun x => by
    have : a ≠ 0 := by rw [hae]; exact ha.ne'
    field_simp; ring
  have e2 : ∀ x, n * (a * a) * (e * x) / (n * (a * a)) = e * x := fun x => by
    have : a ≠ 0 := by rw [hae]; exact ha.ne'
    field_simp
  rw [← hae, ← hee] at key
  simp only [e1, e2] at key
  obtain ⟨k, hk⟩ := anomaly_advance (hee ▸ hpos) key.1 key.2
  obtain ⟨k1, hk1⟩ := exists_wrapNeg (E - e * sin E)
  obtain ⟨k2, hk2⟩ := exists_wrapNeg (E0 - e * sin E0)
  refine ⟨k + k1 - k2, ?_⟩
  rw [hM, hM0, hEc, ← hne, ← hee]
  unfold maFromEaE pySin
  rw [hk1, hk2, hk]
  push_cast; ring

/-- position and velocity of a state from the parts of its elements, when the plane is not equatorial -/
theorem state_exact {el : ClassicalElements} {p v w : Vec3} {E nu n : ℝ} (ha : 0 < el.semimajor_axis)
    (he : 0 ≤ el.eccentricity) (he' : el.eccentricity < 1) (hn : 0 < n)
    (hmn : Earth.MU = n * n * (el.semimajor_axis * el.semimajor_axis * el.semimajor_axis)) (hwu : w.dot w = 1)
    (hx : w.x ≠ 0 ∨ w.y ≠ 0) (hi : el.inclination = incFromW w) (hO : el.raan = raanFromW w)
    (haop : el.argument_of_perigee = wFromUNu (uFromRW p w) nu) (hnu : nuFromEEa el.eccentricity E = .ok nu)
    (hcr : p.cross v = w.scaled (√(Earth.MU * (el.semimajor_axis * (1 - el.eccentricity ^ 2)))))
    (hr : p.magnitude = el.semimajor_axis * (1 - el.eccentricity * cos E))
    (hq : p.dot v = n * (el.semimajor_axis * el.semimajor_axis) * (el.eccentricity * sin E)) :
    p = (el.dirP.scaled (el.semimajor_axis * (cos E - el.eccentricity))).plus
        (el.semilatusRectumVector.scaled (el.semimajor_axis * √(1 - el.eccentricity * el.eccentricity) * sin E)) ∧
    v = (el.dirP.scaled (-(n * el.semimajor_axis) * sin E / (1 - el.eccentricity * cos E))).plus
        (el.semilatusRectumVector.scaled
          (n * el.semimajor_axis * √(1 - el.eccentricity * el.eccentricity) * cos E
            / (1 - el.eccentricity * cos E))) := by
  have hmu := mu_pos
  obtain ⟨nu', hnu', -, -, -, hc, hsn⟩ := C19_true_anomaly el.semimajor_axis el.eccentricity E he he'
  have : nu' = nu := by rw [hnu, Except.ok.injEq] at hnu'; exact hnu'.symm
  subst this
  have hX := perigee_to_node el (uFromRW p w) nu' haop p.magnitude
  rw [hr, hc, hsn, ← hr, hO, hi] at hX
  have hW : el.dirW = w := by
    obtain ⟨f1, f2, f3, f4⟩ := frame_of_normal hwu
    rw [← hi, ← hO] at f3 f4
    rw [← hi] at f2
    ext
    · exact f3
    · simp only [ClassicalElements.dirW]; rw [f4]; ring
    · exact f2
  have hPW : w.cross el.dirP = el.semilatusRectumVector := hW ▸ el.dirW_cross_dirP
  have hQW : w.cross el.semilatusRectumVector = el.dirP.scaled (-1) := hW ▸ el.dirW_cross_dirQ
  have hD := one_sub_e_cos_pos he he' E
  have hrr : p.dot p = p.magnitude ^ 2 := (Vec3.magnitude_sq_dot _).symm
  have h2e : (0 : ℝ) < 1 - el.eccentricity * el.eccentricity := by nlinarith
  have hss := Real.mul_self_sqrt h2e.le
  have hb0 := Real.sqrt_pos.mpr h2e
  rw [sq] at hX
  have hsq2 : √(Earth.MU * (el.semimajor_axis * (1 - el.eccentricity ^ 2)))
      = n * el.semimajor_axis * el.semimajor_axis * √(1 - el.eccentricity * el.eccentricity) := by
    rw [show Earth.MU * (el.semimajor_axis * (1 - el.eccentricity ^ 2))
        = (n * el.semimajor_axis * el.semimajor_axis * √(1 - el.eccentricity * el.eccentricity))
          * (n * el.semimajor_axis * el.semimajor_axis * √(1 - el.eccentricity * el.eccentricity)) by
      rw [hmn]
      linear_combination -(n * el.semimajor_axis * el.semimajor_axis) ^ 2 * hss]
    exact Real.sqrt_mul_self (by positivity)
  have hH : 0 < √(Earth.MU * (el.semimajor_axis * (1 - el.eccentricity ^ 2))) := by rw [hsq2]; positivity
  have hort : p.dot w = 0 := by
    have := Vec3.dot_cross_left p v
    rw [hcr, Vec3.dot_scaled_right] at this
    exact (mul_eq_zero.mp this).resolve_left hH.ne'
  have hp := position_of_latitude hwu hort hx
  rw [← hX] at hp
  have hpp0 : p.dot p ≠ 0 := by rw [hrr, hr]; positivity
  have hv := velocity_split hcr hpp0
  refine ⟨hp, ?_⟩
  rw [hq, hrr, hr, hsq2] at hv
  have ho := orbit_velocity hPW hQW (κ := n * el.semimajor_axis) (E := E) ha hss rfl hD
  rw [← hp] at ho
  rw [← ho, show n * el.semimajor_axis * el.semimajor_axis * (el.eccentricity * sin E)
    = n * (el.semimajor_axis * el.semimajor_axis) * (el.eccentricity * sin E) by ring]
  exact hv

/-- the eccentricity vector points to the perigee -/
theorem apse_eq {P Q W : Vec3} (hP : P.dot P = 1) (hQ : Q.dot Q = 1) (hPQ : P.dot Q = 0) (hW : P.cross Q = W)
    {a e b n E D : ℝ} (ha : 0 < a) (hss : b * b = 1 - e * e) (hDe : D = 1 - e * cos E) (hD : 0 < D) {p v : Vec3}
    (hp : p = (P.scaled (a * (cos E - e))).plus (Q.scaled (a * b * sin E)))
    (hv : v = (P.scaled (-(n * a) * sin E / D)).plus (Q.scaled (n * a * b * cos E / D))) :
    p.magnitude = a * D →
    (v.cross (p.cross v)).minus (p.scaled (n * n * (a * a * a) / p.magnitude)) = P.scaled (n * n * (a * a * a) * e) := by
  intro hm
  have hcs := sin_sq_add_cos_sq E
  have hc : p.cross v = W.scaled (n * a * a * b) := by
    rw [hp, hv, comb_cross, hW]
    congr 1
    field_simp
    linear_combination n * b * (hcs - hDe)
  have hPW : P.cross W = Q.scaled (-1) := by
    rw [← hW]
    simp only [Vec3.dot] at hP hPQ
    ext <;> simp only [Vec3.cross, Vec3.scaled]
    · linear_combination P.x * hPQ - Q.x * hP
    · linear_combination P.y * hPQ - Q.y * hP
    · linear_combination P.z * hPQ - Q.z * hP
  have hQW : Q.cross W = P := by
    rw [← hW]
    simp only [Vec3.dot] at hQ hPQ
    ext <;> simp only [Vec3.cross]
    · linear_combination P.x * hQ - Q.x * hPQ
    · linear_combination P.y * hQ - Q.y * hPQ
    · linear_combination P.z * hQ - Q.z * hPQ
  have hvc : v.cross (W.scaled (n * a * a * b))
      = (P.scaled (n * a * b * cos E / D * (n * a * a * b))).plus
        (Q.scaled ((n * a) * sin E / D * (n * a * a * b))) := by
    have c1 := congrArg Vec3.x hPW
    have c2 := congrArg Vec3.y hPW
    have c3 := congrArg Vec3.z hPW
    have c4 := congrArg Vec3.x hQW
    have c5 := congrArg Vec3.y hQW
    have c6 := congrArg Vec3.z hQW
    simp only [Vec3.cross, Vec3.scaled] at c1 c2 c3 c4 c5 c6
    have e1 : -(n * a) * sin E / D = -(n * a * sin E / D) := by ring
    rw [hv, e1]
    obtain ⟨A, hA⟩ : ∃ A, A = n * a * sin E / D := ⟨_, rfl⟩
    obtain ⟨B, hB⟩ : ∃ B, B = n * a * b * cos E / D := ⟨_, rfl⟩
    rw [← hA, ← hB]
    ext <;> simp only [Vec3.cross, Vec3.plus, Vec3.scaled]
    · linear_combination (n * a * a * b) * (-A * c1 + B * c4)
    · linear_combination (n * a * a * b) * (-A * c2 + B * c5)
    · linear_combination (n * a * a * b) * (-A * c3 + B * c6)
  rw [hc, hvc, hm, hp]
  have k1 : n * a * b * cos E / D * (n * a * a * b) - a * (cos E - e) * (n * n * (a * a * a) / (a * D))
      = n * n * (a * a * a) * e := by
    field_simp
    linear_combination n ^ 2 * (cos E * hss - e * hDe)
  have k2 : (n * a) * sin E / D * (n * a * a * b) - a * b * sin E * (n * n * (a * a * a) / (a * D)) = 0 := by
    field_simp; ring
  ext <;> simp only [Vec3.plus, Vec3.minus, Vec3.scaled]
  · linear_combination P.x * k1 + Q.x * k2
  · linear_combination P.y * k1 + Q.y * k2
  · linear_combination P.z * k1 + Q.z * k2

/-- perigee direction and semi-latus-rectum direction in the frame of the node -/
theorem node_components (el : ClassicalElements) :
    (nodeN el.raan).dot el.dirP = cos el.argument_of_perigee ∧
    (nodeM el.raan el.inclination).dot el.dirP = sin el.argument_of_perigee ∧
    (nodeN el.raan).dot el.semilatusRectumVector = -sin el.argument_of_perigee ∧
    (nodeM el.raan el.inclination).dot el.semilatusRectumVector = cos el.argument_of_perigee := by
  have ho := sin_sq_add_cos_sq el.raan
  have hi := sin_sq_add_cos_sq el.inclination
  simp only [nodeN, nodeM, ClassicalElements.dirP, ClassicalElements.semilatusRectumVector, Vec3.dot, pySin, pyCos]
  refine ⟨?_, ?_, ?_, ?_⟩
  · linear_combination cos el.argument_of_perigee * ho
  · linear_combination sin el.argument_of_perigee * (cos el.inclination ^ 2 * ho + hi)
  · linear_combination -sin el.argument_of_perigee * ho
  · linear_combination cos el.argument_of_perigee * (cos el.inclination ^ 2 * ho + hi)

/-- the same two vectors from the frame of the node -/
theorem node_frame (el : ClassicalElements) :
    el.dirP = ((nodeN el.raan).scaled (cos el.argument_of_perigee)).plus
      ((nodeM el.raan el.inclination).scaled (sin el.argument_of_perigee)) ∧
    el.semilatusRectumVector = ((nodeN el.raan).scaled (-sin el.argument_of_perigee)).plus
      ((nodeM el.raan el.inclination).scaled (cos el.argument_of_perigee)) := by
  constructor <;> ext <;>
    simp only [nodeN, nodeM, ClassicalElements.dirP, ClassicalElements.semilatusRectumVector, Vec3.plus, Vec3.scaled,
      pySin, pyCos] <;> ring

theorem VDeriv.const_dot {f : ℝ → Vec3} {f' : Vec3} {t : ℝ} (hf : VDeriv f f' t) (c : Vec3) :
    HasDerivAt (fun t => c.dot (f t)) (c.dot f') t := by
  have := ((hf.x.const_mul c.x).add (hf.y.const_mul c.y)).add (hf.z.const_mul c.z)
  exact this

/-- everything about two states of one motion outside the equatorial plane -/
theorem perigee_pair {I : Set ℝ} (hI : I.OrdConnected) {s : ℝ → State}
    (h : TwoBody Earth.MU I (fun t => (s t).position.toE) (fun t => (s t).velocity.toE)) {t t0 : ℝ} (ht : t ∈ I)
    (ht0 : t0 ∈ I) (hp : ((s t0).position.cross (s t0).velocity).x ≠ 0 ∨ ((s t0).position.cross (s t0).velocity).y ≠ 0)
    (hb : (s t0).velocity.magnitude ^ 2 / 2 < Earth.MU / (s t0).position.magnitude) :
    ∃ el0 el E n, ClassicalElements.fromIjk (s t0) = .ok el0 ∧ ClassicalElements.fromIjk (s t) = .ok el ∧
      n = √(Earth.MU / el0.semimajor_axis ^ 3) ∧ 0 < n ∧
      Earth.MU = n * n * (el0.semimajor_axis * el0.semimajor_axis * el0.semimajor_axis) ∧
      0 < el0.semimajor_axis ∧ 0 ≤ el0.eccentricity ∧ el0.eccentricity < 1 ∧
      el.semimajor_axis = el0.semimajor_axis ∧ el.eccentricity = el0.eccentricity ∧
      el.inclination = el0.inclination ∧ el.raan = el0.raan ∧
      (∃ k : ℤ, el.mean_anomaly = E - el0.eccentricity * sin E + 2 * π * k) ∧
      (el0.eccentricity = 0 → E = 0 ∧ el0.mean_anomaly = 0 ∧ el.mean_anomaly = 0) ∧
      (el0.eccentricity ≠ 0 → el.argument_of_perigee = el0.argument_of_perigee) ∧
      (s t).position = (el.dirP.scaled (el.semimajor_axis * (cos E - el.eccentricity))).plus
        (el.semilatusRectumVector.scaled (el.semimajor_axis * √(1 - el.eccentricity * el.eccentricity) * sin E)) ∧
      (s t).velocity = (el.dirP.scaled (-(n * el.semimajor_axis) * sin E / (1 - el.eccentricity * cos E))).plus
        (el.semilatusRectumVector.scaled
          (n * el.semimajor_axis * √(1 - el.eccentricity * el.eccentricity) * cos E
            / (1 - el.eccentricity * cos E))) := by
  have hh : (s t0).position.cross (s t0).velocity ≠ ⟨0, 0, 0⟩ := by
    intro h; rw [h] at hp; simp at hp
  obtain ⟨el0, el, E0, E, nu0, nu, w, n, h0, h1, hA, hEc, hinc, hO, ha, he, he', hE00, hE01, hE0, hE1, hM0, hM, hnu0,
    hnu, hwu, hi, hO0, hp0, hpt, hcr, hne, hn, hmn, hr, hmom, hen, hr0, hq0, hrt, hqt, hz0, hz⟩ :=
    fromIjk_pair hI h ht ht0 hh hb
  have hx : w.x ≠ 0 ∨ w.y ≠ 0 := by
    rw [hcr] at hp
    exact hp.imp (fun h => left_ne_zero_of_mul h) (fun h => left_ne_zero_of_mul h)
  obtain ⟨p0, v0⟩ := state_exact ha he he' hn hmn hwu hx hi hO0 hp0 hnu0 hcr hr0 hq0
  have hcrt : (s t).position.cross (s t).velocity
      = w.scaled (√(Earth.MU * (el.semimajor_axis * (1 - el.eccentricity ^ 2)))) := by
    rw [hmom t ht, hA, hEc]; exact hcr
  have hrt' := hrt
  have hqt' := hqt
  rw [← hA, ← hEc] at hrt' hqt'
  obtain ⟨pt, vt⟩ := state_exact (el := el) (hA ▸ ha) (hEc ▸ he) (hEc ▸ he') hn (hA ▸ hmn) hwu hx (hinc.trans hi)
    (hO.trans hO0) hpt hnu hcrt hrt' hqt'
  refine ⟨el0, el, E, n, h0, h1, hne, hn, hmn, ha, he, he', hA, hEc, hinc, hO, ?_, ?_, ?_, pt, vt⟩
  · obtain ⟨k, hk⟩ := exists_wrapNeg (E - el0.eccentricity * sin E)
    refine ⟨k, ?_⟩
    rw [hM, hEc]; exact hk
  · intro he0
    have hEz := hz (hEc.trans he0)
    refine ⟨hEz, ?_, ?_⟩
    · rw [hM0, hz0 he0, he0]; simp [maFromEaE, wrapNeg_of_nonneg, pySin]
    · rw [hM, hEz, hEc, he0]; simp [maFromEaE, wrapNeg_of_nonneg, pySin]
  · intro he0
    have hap := apse_const hI (p := fun t => (s t).position) (v := fun t => (s t).velocity) h hr ht ht0
    have h2e : (0 : ℝ) < 1 - el0.eccentricity * el0.eccentricity := by nlinarith
    have h2e' : (0 : ℝ) < 1 - el.eccentricity * el.eccentricity := by rw [hEc]; exact h2e
    have a0 := apse_eq el0.dirP_unit el0.dirQ_unit el0.dirP_dirQ rfl ha (Real.mul_self_sqrt h2e.le) rfl
      (one_sub_e_cos_pos he he' E0) p0 v0 hr0
    have a1 := apse_eq el.dirP_unit el.dirQ_unit el.dirP_dirQ rfl (hA ▸ ha) (Real.mul_self_sqrt h2e'.le) rfl
      (one_sub_e_cos_pos (hEc ▸ he) (hEc ▸ he') E) pt vt hrt'
    rw [hA, hEc, ← hmn] at a1
    rw [← hmn] at a0
    rw [a0, a1] at hap
    have hce : Earth.MU * el0.eccentricity ≠ 0 := mul_ne_zero mu_pos.ne' he0
    have hP : el.dirP = el0.dirP := by
      have x := congrArg Vec3.x hap
      have y := congrArg Vec3.y hap
      have z := congrArg Vec3.z hap
      simp only [Vec3.scaled] at x y z
      ext
      · exact mul_right_cancel₀ hce x
      · exact mul_right_cancel₀ hce y
      · exact mul_right_cancel₀ hce z
    obtain ⟨c0, s0, -, -⟩ := node_components el0
    obtain ⟨c1, s1, -, -⟩ := node_components el
    rw [hP, hO, c0] at c1
    rw [hP, hO, hinc, s0] at s1
    have u0 := C20_ranges.2.1 (s t0).position w
    have ut := C20_ranges.2.1 (s t).position w
    have n0 := C20_ranges.2.2.2.1 _ _ _ hnu0
    have nt := C20_ranges.2.2.2.1 _ _ _ hnu
    have r0 := C20_ranges.2.2.2.2.2.1 _ _ u0.1 u0.2 n0.1 n0.2
    have rt := C20_ranges.2.2.2.2.2.1 _ _ ut.1 ut.2 nt.1 nt.2
    rw [← hp0] at r0
    rw [← hpt] at rt
    exact angle_eq_of_cos_sin rt.1 rt.2 r0.1 r0.2 c1.symm s1.symm

/-- Outside the equatorial plane the argument of perigee of an elliptic orbit is constant too. For a circular orbit the
library reports a zero mean anomaly and it is the argument of perigee that grows with the time. -/
theorem C124_perigee (s : ℝ → State) (I : Set ℝ) (hI : I.OrdConnected)
    (h : TwoBody Earth.MU I (fun t => (s t).position.toE) (fun t => (s t).velocity.toE)) (t0 : ℝ) (ht0 : t0 ∈ I)
    (hb : (s t0).velocity.magnitude ^ 2 / 2 < Earth.MU / (s t0).position.magnitude)
    (hp : ((s t0).position.cross (s t0).velocity).x ≠ 0 ∨ ((s t0).position.cross (s t0).velocity).y ≠ 0) :
    ∃ el0, ClassicalElements.fromIjk (s t0) = .ok el0 ∧ ∀ t ∈ I, ∃ el, ClassicalElements.fromIjk (s t) = .ok el ∧
      (el0.eccentricity ≠ 0 → el.argument_of_perigee = el0.argument_of_perigee) ∧
      (el0.eccentricity = 0 → el0.mean_anomaly = 0 ∧ el.mean_anomaly = 0 ∧ ∃ k : ℤ, el.argument_of_perigee
        = el0.argument_of_perigee + √(Earth.MU / el0.semimajor_axis ^ 3) * (t - t0) + 2 * π * k) := by
  obtain ⟨el0, -, -, -, h0, -⟩ := perigee_pair hI h ht0 ht0 hp hb
  refine ⟨el0, h0, fun t ht => ?_⟩
  obtain ⟨el0', el, E, n, h0', h1, hne, hn, hmn, ha, he, he', hA, hEc, hinc, hO, hM, hcirc, hper, hpt, hvt⟩ :=
    perigee_pair hI h ht ht0 hp hb
  have : el0' = el0 := by rw [h0, Except.ok.injEq] at h0'; exact h0'.symm
  subst this
  refine ⟨el, h1, hper, fun hz => ⟨(hcirc hz).2.1, (hcirc hz).2.2, ?_⟩⟩
  have key : ∀ t ∈ I, ∃ el, ClassicalElements.fromIjk (s t) = .ok el ∧
      (nodeN el0'.raan).dot (s t).position = el0'.semimajor_axis * cos el.argument_of_perigee ∧
      (nodeM el0'.raan el0'.inclination).dot (s t).position = el0'.semimajor_axis * sin el.argument_of_perigee ∧
      (nodeN el0'.raan).dot (s t).velocity = n * el0'.semimajor_axis * -sin el.argument_of_perigee ∧
      (nodeM el0'.raan el0'.inclination).dot (s t).velocity = n * el0'.semimajor_axis * cos el.argument_of_perigee := by
    intro t ht
    obtain ⟨l0, l, F, n', g0, g1, gne, -, -, -, -, -, gA, gEc, ginc, gO, -, gcirc, -, gpt, gvt⟩ :=
      perigee_pair hI h ht ht0 hp hb
    have hl : l0 = el0' := by rw [h0, Except.ok.injEq] at g0; exact g0.symm
    rw [hl] at gne gA gEc ginc gO gcirc
    have hn' : n' = n := by rw [hne, gne]
    obtain ⟨c1, c2, c3, c4⟩ := node_components l
    rw [gO] at c1 c3
    rw [gO, ginc] at c2 c4
    rw [(gcirc hz).1, gEc, hz, gA] at gpt gvt
    simp only [cos_zero, sin_zero, mul_zero, sub_zero, mul_one, Real.sqrt_one, div_one, hn'] at gpt gvt
    refine ⟨l, g1, ?_, ?_, ?_, ?_⟩
    · rw [gpt, Vec3.dot_plus_right, Vec3.dot_scaled_right, Vec3.dot_scaled_right, c1]; ring
    · rw [gpt, Vec3.dot_plus_right, Vec3.dot_scaled_right, Vec3.dot_scaled_right, c2]; ring
    · rw [gvt, Vec3.dot_plus_right, Vec3.dot_scaled_right, Vec3.dot_scaled_right, c3]; ring
    · rw [gvt, Vec3.dot_plus_right, Vec3.dot_scaled_right, Vec3.dot_scaled_right, c4]; ring
  have dx : ∀ t ∈ I, HasDerivAt (fun t => (nodeN el0'.raan).dot (s t).position)
      (-n * (nodeM el0'.raan el0'.inclination).dot (s t).position) t := by
    intro t ht
    obtain ⟨el, -, k1, k2, k3, k4⟩ := key t ht
    refine ((twoBody_vderiv (p := fun t => (s t).position) (v := fun t => (s t).velocity) h ht).1.const_dot _).congr_deriv ?_
    rw [k2]; simp only [k3]; ring
  have dy : ∀ t ∈ I, HasDerivAt (fun t => (nodeM el0'.raan el0'.inclination).dot (s t).position)
      (n * (nodeN el0'.raan).dot (s t).position) t := by
    intro t ht
    obtain ⟨el, -, k1, k2, k3, k4⟩ := key t ht
    refine ((twoBody_vderiv (p := fun t => (s t).position) (v := fun t => (s t).velocity) h ht).1.const_dot _).congr_deriv ?_
    rw [k1]; simp only [k4]; ring
  obtain ⟨t1, t2⟩ := turn_const hI (th := fun t => n * t) (om := fun _ => n) dx dy
    (fun t _ => by simpa using (hasDerivAt_id t).const_mul n) ht ht0
  obtain ⟨l0, g0, k1, k2, -, -⟩ := key t0 ht0
  obtain ⟨l1, g1, m1, m2, -, -⟩ := key t ht
  have : l0 = el0' := by rw [h0, Except.ok.injEq] at g0; exact g0.symm
  subst this
  have : l1 = el := by rw [h1, Except.ok.injEq] at g1; exact g1.symm
  subst this
  rw [k1, k2, m1] at t1
  rw [k1, k2, m2] at t2
  rw [← hne, show n * (t - t0) = n * t - n * t0 by ring]
  apply exists_turn
  · apply mul_left_cancel₀ ha.ne'
    rw [t1, cos_add]; ring
  · apply mul_left_cancel₀ ha.ne'
    rw [t2, sin_add]; ring

/-- point and velocity at eccentric anomaly `E` of the orbit described by elements -/
noncomputable def orbitPos (el : ClassicalElements) (E : ℝ) : Vec3 :=
  (el.dirP.scaled (el.semimajor_axis * (cos E - el.eccentricity))).plus
    (el.semilatusRectumVector.scaled (el.semimajor_axis * √(1 - el.eccentricity * el.eccentricity) * sin E))

noncomputable def orbitVel (el : ClassicalElements) (n E : ℝ) : Vec3 :=
  (el.dirP.scaled (-(n * el.semimajor_axis) * sin E / (1 - el.eccentricity * cos E))).plus
    (el.semilatusRectumVector.scaled
      (n * el.semimajor_axis * √(1 - el.eccentricity * el.eccentricity) * cos E / (1 - el.eccentricity * cos E)))

/-- what `to_ijk` returns is near the state at any exact solution of Kepler's equation -/
theorem toIjk_near {el : ClassicalElements} (ha : 0 < el.semimajor_axis) (he : 0 ≤ el.eccentricity)
    (he' : el.eccentricity < 1) {n : ℝ} (hne : n = √(Earth.MU / el.semimajor_axis ^ 3)) {fuel : ℕ} {s' : State}
    (h : el.toIjk fuel = .ok s') {E : ℝ} {k : ℤ} (hE : E - el.eccentricity * sin E = el.mean_anomaly + 2 * π * k) :
    (s'.position.minus (orbitPos el E)).magnitude ≤ el.semimajor_axis * (5e-25 / (1 - el.eccentricity)) ∧
    (s'.velocity.minus (orbitVel el n E)).magnitude
      ≤ √(Earth.MU / el.semimajor_axis) * (5e-25 / (1 - el.eccentricity) ^ 3) := by
  have hmu := mu_pos
  obtain ⟨E', hE'⟩ : ∃ E', eaFromMaE fuel el.mean_anomaly el.eccentricity = .ok E' := by
    simp only [ClassicalElements.toIjk, el.perigeeVector_eq, ClassicalElements.eccentricAnomaly, ok_bind,
      bind_eq_ok] at h
    obtain ⟨E, hE, _⟩ := h
    exact ⟨E, hE⟩
  rw [toIjk_eq fuel el ha he he' hE', Except.ok.injEq] at h
  obtain ⟨k', -, Es, ⟨hEs, hEs2⟩, -⟩ := C16_solution fuel _ _ E' he he' hE'
  have hEE : Es = E + 2 * π * ((k' - k : ℤ) : ℝ) := by
    apply kepler_injective he he'
    unfold kepler
    rw [sin_turn, hEs]
    push_cast
    linear_combination -hE
  rw [hEE] at hEs2
  have h2e : (0 : ℝ) < 1 - el.eccentricity * el.eccentricity := by nlinarith
  have hss := Real.mul_self_sqrt h2e.le
  have hbb : √(1 - el.eccentricity * el.eccentricity) * √(1 - el.eccentricity * el.eccentricity) ≤ 1 := by
    rw [hss]; nlinarith
  have hκ : √(Earth.MU / el.semimajor_axis) = n * el.semimajor_axis := by
    have hn3 : 0 ≤ Earth.MU / el.semimajor_axis ^ 3 := by positivity
    have hnn := Real.mul_self_sqrt hn3
    rw [← hne] at hnn
    have hn0 : 0 ≤ n := by rw [hne]; exact Real.sqrt_nonneg _
    rw [show Earth.MU / el.semimajor_axis = (n * el.semimajor_axis) * (n * el.semimajor_axis) by
      rw [show (n * el.semimajor_axis) * (n * el.semimajor_axis)
        = n * n * (el.semimajor_axis * el.semimajor_axis) by ring, hnn]
      field_simp]
    exact Real.sqrt_mul_self (by positivity)
  have hκ0 := Real.sqrt_nonneg (Earth.MU / el.semimajor_axis)
  have hD' := one_sub_e_cos_pos he he' E'
  constructor
  · have := position_close el.dirP_unit el.dirQ_unit el.dirP_dirQ (e := el.eccentricity) ha hbb hEs2
    rw [cos_turn, sin_turn] at this
    rw [← h]
    exact this
  · have := velocity_close el.dirP_unit el.dirQ_unit el.dirP_dirQ hκ0 he he' hbb hEs2
    rw [cos_turn, sin_turn, div_div, ← pow_succ'] at this
    rw [← h]
    simp only [State.new, orbitVel, ← hκ]
    rw [coef_sin ha hD', coef_cos ha hD']
    exact this

/-- a motion outside the equatorial plane, from the elements at one time -/
theorem motion_of_elements {I : Set ℝ} (hI : I.OrdConnected) {s : ℝ → State}
    (h : TwoBody Earth.MU I (fun t => (s t).position.toE) (fun t => (s t).velocity.toE)) {t t0 : ℝ} (ht : t ∈ I)
    (ht0 : t0 ∈ I) (hp : ((s t0).position.cross (s t0).velocity).x ≠ 0 ∨ ((s t0).position.cross (s t0).velocity).y ≠ 0)
    (hb : (s t0).velocity.magnitude ^ 2 / 2 < Earth.MU / (s t0).position.magnitude) {el0 : ClassicalElements}
    (h0 : ClassicalElements.fromIjk (s t0) = .ok el0) :
    0 < el0.semimajor_axis ∧ 0 ≤ el0.eccentricity ∧ el0.eccentricity < 1 ∧ ∃ E : ℝ, ∃ k : ℤ,
      E - el0.eccentricity * sin E
        = el0.mean_anomaly + √(Earth.MU / el0.semimajor_axis ^ 3) * (t - t0) + 2 * π * k ∧
      (s t).position = orbitPos el0 E ∧ (s t).velocity = orbitVel el0 (√(Earth.MU / el0.semimajor_axis ^ 3)) E := by
  have hh : (s t0).position.cross (s t0).velocity ≠ ⟨0, 0, 0⟩ := by
    intro h; rw [h] at hp; simp at hp
  obtain ⟨l0, el, E, n, g0, h1, hne, hn, hmn, ha, he, he', hA, hEc, hinc, hO, ⟨k, hM⟩, hcirc, hper, hpt, hvt⟩ :=
    perigee_pair hI h ht ht0 hp hb
  have : l0 = el0 := by rw [h0, Except.ok.injEq] at g0; exact g0.symm
  subst this
  refine ⟨ha, he, he', ?_⟩
  rw [← hne]
  by_cases hz : l0.eccentricity = 0
  · obtain ⟨l1, g1, c⟩ := C124_perigee s I hI h t0 ht0 hb hp
    have : l1 = l0 := by rw [h0, Except.ok.injEq] at g1; exact g1.symm
    subst this
    obtain ⟨l2, g2, -, c2⟩ := c t ht
    have : l2 = el := by rw [h1, Except.ok.injEq] at g2; exact g2.symm
    subst this
    obtain ⟨z1, z2, j, hj⟩ := c2 hz
    rw [← hne] at hj
    obtain ⟨q1, q2⟩ := node_frame l1
    obtain ⟨r1, r2⟩ := node_frame l2
    rw [hj, cos_turn, sin_turn, cos_add, sin_add, hO, hinc] at r1 r2
    refine ⟨n * (t - t0), 0, by rw [hz, z1]; push_cast; ring, ?_, ?_⟩
    · rw [hpt, (hcirc hz).1, hEc, hA, orbitPos, hz, r1, r2, q1, q2]
      ext <;> simp [Vec3.plus, Vec3.scaled] <;> ring
    · rw [hvt, (hcirc hz).1, hEc, hA, orbitVel, hz, r1, r2, q1, q2]
      ext <;> simp [Vec3.plus, Vec3.scaled] <;> ring
  · obtain ⟨l1, g1, c⟩ := C124_mean_anomaly s I hI h t0 ht0 hb hh
    have : l1 = l0 := by rw [h0, Except.ok.injEq] at g1; exact g1.symm
    subst this
    obtain ⟨l2, g2, -, -, -, -, c2⟩ := c t ht
    have : l2 = el := by rw [h1, Except.ok.injEq] at g2; exact g2.symm
    subst this
    obtain ⟨j, hj⟩ := c2 hz
    rw [← hne] at hj
    have hP : l2.dirP = l1.dirP := by simp only [ClassicalElements.dirP, hper hz, hinc, hO]
    have hQ : l2.semilatusRectumVector = l1.semilatusRectumVector := by
      simp only [ClassicalElements.semilatusRectumVector, hper hz, hinc, hO]
    refine ⟨E, j - k, ?_, ?_, ?_⟩
    · push_cast; linarith
    · rw [hpt, hP, hQ, hA, hEc, orbitPos]
    · rw [hvt, hP, hQ, hA, hEc, orbitVel]

/-- **C125.** The elements at one time predict the state at every other time of a two-body motion: with the mean
anomaly advanced by `sqrt(mu / a³)` times the time, reduced by any full turns into `[-2π, 2π]`, `to_ijk` returns the
state the motion has then, within the tolerance of the solver of Kepler's equation. -/
theorem C125_prediction (s : ℝ → State) (I : Set ℝ) (hI : I.OrdConnected)
    (h : TwoBody Earth.MU I (fun t => (s t).position.toE) (fun t => (s t).velocity.toE)) (t0 : ℝ) (ht0 : t0 ∈ I)
    (hb : (s t0).velocity.magnitude ^ 2 / 2 < Earth.MU / (s t0).position.magnitude)
    (hp : ((s t0).position.cross (s t0).velocity).x ≠ 0 ∨ ((s t0).position.cross (s t0).velocity).y ≠ 0) :
    ∃ el0, ClassicalElements.fromIjk (s t0) = .ok el0 ∧ ∀ t ∈ I, ∀ (k : ℤ) (m : ℝ),
      m = el0.mean_anomaly + √(Earth.MU / el0.semimajor_axis ^ 3) * (t - t0) + 2 * π * k →
      -(2 * π) ≤ m → m ≤ 2 * π →
      ∃ s' N, (∀ fuel, N ≤ fuel → ({el0 with mean_anomaly := m} : ClassicalElements).toIjk fuel = .ok s') ∧
        (s'.position.minus (s t).position).magnitude ≤ el0.semimajor_axis * (5e-25 / (1 - el0.eccentricity)) ∧
        (s'.velocity.minus (s t).velocity).magnitude
          ≤ √(Earth.MU / el0.semimajor_axis) * (5e-25 / (1 - el0.eccentricity) ^ 3) := by
  obtain ⟨el0, -, -, -, h0, -⟩ := perigee_pair hI h ht0 ht0 hp hb
  refine ⟨el0, h0, fun t ht k m hm m1 m2 => ?_⟩
  obtain ⟨ha, he, he', E, j, hE, hpos, hvel⟩ := motion_of_elements hI h ht ht0 hp hb h0
  obtain ⟨s', N, hN⟩ := C22_returns {el0 with mean_anomaly := m} ha he he' m1 m2
  have := toIjk_near (el := {el0 with mean_anomaly := m}) ha he he' rfl (hN N le_rfl) (E := E) (k := j - k)
    (by push_cast; rw [hE, hm]; ring)
  rw [hpos, hvel]
  exact ⟨s', N, hN, this⟩

/-! ## C123 -/

/-- derivative of the solution of Kepler's equation -/
theorem kepler_inverse {e : ℝ} (he : 0 ≤ e) (he' : e < 1) :
    ∃ g : ℝ → ℝ, (∀ M, g M - e * sin (g M) = M) ∧ ∀ M, HasDerivAt g (1 - e * cos (g M))⁻¹ M := by
  choose g hg _ using fun M => kepler_exists he he' M
  refine ⟨g, hg, fun M => ?_⟩
  have hc : Continuous g := by
    have : LipschitzWith ⟨1 / (1 - e), by have : 0 < 1 - e := by linarith
                                          positivity⟩ g := by
      apply LipschitzWith.of_dist_le_mul
      intro x y
      have := kepler_expand he he' (g x) (g y)
      rw [hg, hg] at this
      rw [Real.dist_eq, Real.dist_eq]
      show |g x - g y| ≤ 1 / (1 - e) * |x - y|
      rw [one_div, ← div_eq_inv_mul, le_div_iff₀ (by linarith)]
      linarith
    exact this.continuous
  have hd : HasDerivAt (kepler e) (1 - e * cos (g M)) (g M) := by
    have := (hasDerivAt_id (g M)).sub ((hasDerivAt_sin (g M)).const_mul e)
    exact this
  exact HasDerivAt.of_local_left_inverse hc.continuousAt hd (one_sub_e_cos_pos he he' _).ne'
    (Filter.Eventually.of_forall hg)

/-- the point at the solution of Kepler's equation is in two-body motion -/
theorem kepler_motion (el : ClassicalElements) (ha : 0 < el.semimajor_axis) (he : 0 ≤ el.eccentricity)
    (he' : el.eccentricity < 1) {n : ℝ} (hne : n = √(Earth.MU / el.semimajor_axis ^ 3)) :
    ∃ E : ℝ → ℝ, (∀ t, E t - el.eccentricity * sin (E t) = el.mean_anomaly + n * t) ∧
      TwoBody Earth.MU Set.univ (fun t => (orbitPos el (E t)).toE) (fun t => (orbitVel el n (E t)).toE) := by
  have hmu := mu_pos
  obtain ⟨g, hg, hd⟩ := kepler_inverse he he'
  have hn3 : 0 ≤ Earth.MU / el.semimajor_axis ^ 3 := by positivity
  have hnn := Real.mul_self_sqrt hn3
  rw [← hne] at hnn
  have hmn : Earth.MU = n * n * el.semimajor_axis ^ 3 := by rw [hnn]; field_simp
  refine ⟨fun t => g (el.mean_anomaly + n * t), fun t => hg _, ?_⟩
  have hE : ∀ t, HasDerivAt (fun t => g (el.mean_anomaly + n * t))
      (n / (1 - el.eccentricity * cos (g (el.mean_anomaly + n * t)))) t := fun t => by
    have h1 : HasDerivAt (fun t => el.mean_anomaly + n * t) n t := by
      simpa using ((hasDerivAt_id t).const_mul n).const_add el.mean_anomaly
    have := (hd (el.mean_anomaly + n * t)).comp t h1
    rw [← div_eq_inv_mul] at this
    exact this
  obtain ⟨G, hG⟩ : ∃ G : ℝ → ℝ, G = fun t => g (el.mean_anomaly + n * t) := ⟨_, rfl⟩
  have hE' : ∀ t, HasDerivAt G (n / (1 - el.eccentricity * cos (G t))) t := fun t => by rw [hG]; exact hE t
  have hDp : ∀ t, 0 < 1 - el.eccentricity * cos (G t) := fun t => one_sub_e_cos_pos he he' _
  have h2e : (0 : ℝ) < 1 - el.eccentricity * el.eccentricity := by nlinarith
  have hss := Real.mul_self_sqrt h2e.le
  have hmag : ∀ E, (orbitPos el E).magnitude = el.semimajor_axis * (1 - el.eccentricity * cos E) := fun E => by
    have := one_sub_e_cos_pos he he' E
    apply Vec3.magnitude_of_dot (by positivity)
    rw [orbitPos, comb_dot el.dirP_unit el.dirQ_unit el.dirP_dirQ]
    linear_combination el.semimajor_axis ^ 2 * (sin E) ^ 2 * hss
      + el.semimajor_axis ^ 2 * (1 - el.eccentricity ^ 2) * sin_sq_add_cos_sq E
  -- derivatives of the four coefficients
  obtain ⟨a, hae⟩ : ∃ a, a = el.semimajor_axis := ⟨_, rfl⟩
  obtain ⟨e, hee⟩ : ∃ e, e = el.eccentricity := ⟨_, rfl⟩
  obtain ⟨b, hbe⟩ : ∃ b, b = √(1 - e * e) := ⟨_, rfl⟩
  rw [← hee] at hE' hDp
  have d1 : ∀ t, HasDerivAt (fun t => a * (cos (G t) - e)) (-(n * a) * sin (G t) / (1 - e * cos (G t))) t := fun t => by
    refine (((hE' t).cos.sub_const e).const_mul a).congr_deriv ?_
    ring
  have d2 : ∀ t, HasDerivAt (fun t => a * b * sin (G t)) (n * a * b * cos (G t) / (1 - e * cos (G t))) t := fun t => by
    refine (((hE' t).sin).const_mul (a * b)).congr_deriv ?_
    ring
  have dD : ∀ t, HasDerivAt (fun t => 1 - e * cos (G t)) (e * sin (G t) * (n / (1 - e * cos (G t)))) t := fun t => by
    refine (((hE' t).cos.const_mul e).const_sub 1).congr_deriv ?_
    ring
  have d3 : ∀ t, HasDerivAt (fun t => -(n * a) * sin (G t) / (1 - e * cos (G t)))
      (-(n * n / (1 - e * cos (G t)) ^ 3) * (a * (cos (G t) - e))) t := fun t => by
    refine ((((hE' t).sin).const_mul (-(n * a))).div (dD t) (hDp t).ne').congr_deriv ?_
    have hD0 := hDp t
    have hs := sin_sq_add_cos_sq (G t)
    obtain ⟨D, hD⟩ : ∃ D, D = 1 - e * cos (G t) := ⟨_, rfl⟩
    rw [← hD] at hD0 ⊢
    field_simp
    linear_combination n ^ 2 * a * (e * hs - cos (G t) * hD)
  have d4 : ∀ t, HasDerivAt (fun t => n * a * b * cos (G t) / (1 - e * cos (G t)))
      (-(n * n / (1 - e * cos (G t)) ^ 3) * (a * b * sin (G t))) t := fun t => by
    refine ((((hE' t).cos).const_mul (n * a * b)).div (dD t) (hDp t).ne').congr_deriv ?_
    have := hDp t
    field_simp
    ring
  have vd1 : ∀ t, VDeriv (fun t => orbitPos el (G t)) (orbitVel el n (G t)) t := fun t => by
    simp only [orbitPos, orbitVel, ← hae, ← hee, ← hbe]
    exact ⟨((d1 t).const_mul _).add ((d2 t).const_mul _), ((d1 t).const_mul _).add ((d2 t).const_mul _),
      ((d1 t).const_mul _).add ((d2 t).const_mul _)⟩
  have vd2 : ∀ t, VDeriv (fun t => orbitVel el n (G t))
      ((orbitPos el (G t)).scaled (-(n * n / (1 - e * cos (G t)) ^ 3))) t := fun t => by
    simp only [orbitPos, orbitVel, ← hae, ← hee, ← hbe]
    refine ⟨(((d3 t).const_mul el.dirP.x).add ((d4 t).const_mul el.semilatusRectumVector.x)).congr_deriv ?_,
      (((d3 t).const_mul el.dirP.y).add ((d4 t).const_mul el.semilatusRectumVector.y)).congr_deriv ?_,
      (((d3 t).const_mul el.dirP.z).add ((d4 t).const_mul el.semilatusRectumVector.z)).congr_deriv ?_⟩ <;>
    simp only [Vec3.plus, Vec3.scaled] <;> ring
  rw [← hG]
  refine ⟨fun t _ => toE_of_vderiv (vd1 t), fun t _ => ?_⟩
  have := toE_of_vderiv (vd2 t)
  rw [toE_scaled] at this
  have hk : Earth.MU / ‖(orbitPos el (G t)).toE‖ ^ 3 = n * n / (1 - e * cos (G t)) ^ 3 := by
    rw [Vec3.norm_toE, hmag, hmn, ← hee]
    have := hDp t
    field_simp
  rw [hk]
  exact this

/-- **C123.** The states of an elliptic orbit whose mean anomaly grows at the rate `sqrt(mu / a³)` are in two-body
motion: there is one for which `to_ijk`, at any time and with the mean anomaly reduced by any full turns, can only
return the state at that time within the tolerance of the solver of Kepler's equation; it does return when the mean
anomaly is in `[-2π, 2π]`. -/
theorem C123_two_body (el : ClassicalElements) (ha : 0 < el.semimajor_axis) (he : 0 ≤ el.eccentricity)
    (he' : el.eccentricity < 1) :
    ∃ s : ℝ → State, TwoBody Earth.MU Set.univ (fun t => (s t).position.toE) (fun t => (s t).velocity.toE) ∧
      ∀ (t : ℝ) (k : ℤ) (m : ℝ), m = el.mean_anomaly + √(Earth.MU / el.semimajor_axis ^ 3) * t + 2 * π * k →
        (∀ fuel s', ({el with mean_anomaly := m} : ClassicalElements).toIjk fuel = .ok s' →
          (s'.position.minus (s t).position).magnitude ≤ el.semimajor_axis * (5e-25 / (1 - el.eccentricity)) ∧
          (s'.velocity.minus (s t).velocity).magnitude
            ≤ √(Earth.MU / el.semimajor_axis) * (5e-25 / (1 - el.eccentricity) ^ 3)) ∧
        (-(2 * π) ≤ m → m ≤ 2 * π →
          ∃ s' N, ∀ fuel, N ≤ fuel → ({el with mean_anomaly := m} : ClassicalElements).toIjk fuel = .ok s') := by
  obtain ⟨E, hE, hT⟩ := kepler_motion el ha he he' rfl
  refine ⟨fun t => State.new el.epoch (orbitPos el (E t)) (orbitVel el (√(Earth.MU / el.semimajor_axis ^ 3)) (E t)), hT,
    fun t k m hm => ⟨fun fuel s' hs => ?_, fun m1 m2 => ?_⟩⟩
  · exact toIjk_near (el := {el with mean_anomaly := m}) ha he he' rfl hs (E := E t) (k := -k)
      (by push_cast; rw [hE, hm]; ring)
  · exact C22_returns {el with mean_anomaly := m} ha he he' m1 m2

/-- a Molniya orbit meets the hypotheses of C123, and the motion C123 gives meets those of C124 and C125 -/
example : ∃ s : ℝ → State,
    TwoBody Earth.MU Set.univ (fun t => (s t).position.toE) (fun t => (s t).velocity.toE) ∧
    (s 0).velocity.magnitude ^ 2 / 2 < Earth.MU / (s 0).position.magnitude ∧
    (((s 0).position.cross (s 0).velocity).x ≠ 0 ∨ ((s 0).position.cross (s 0).velocity).y ≠ 0) ∧
    ∃ el0, ClassicalElements.fromIjk (s 0) = .ok el0 ∧ el0.eccentricity ≠ 0 := by
  have hmu := mu_pos
  obtain ⟨el, hel⟩ : ∃ el : ClassicalElements, el = ⟨⟨0⟩, 26600, 0.74, 1.1, 2, 3, 0⟩ := ⟨_, rfl⟩
  have ha : el.semimajor_axis = 26600 := by rw [hel]
  have he : el.eccentricity = 0.74 := by rw [hel]
  have he0 : 0 ≤ el.eccentricity := by rw [he]; norm_num
  have he1 : el.eccentricity < 1 := by rw [he]; norm_num
  obtain ⟨E, hE, hT⟩ := kepler_motion el (by rw [ha]; norm_num) he0 he1 rfl
  have hE0 : E 0 = 0 := by
    apply kepler_injective he0 he1
    have := hE 0
    simp only [kepler]
    rw [this, hel]; simp
  obtain ⟨n, hne⟩ : ∃ n, n = √(Earth.MU / el.semimajor_axis ^ 3) := ⟨_, rfl⟩
  have hn3 : 0 < Earth.MU / el.semimajor_axis ^ 3 := by rw [ha]; positivity
  have hn0 : 0 < n := by rw [hne]; exact Real.sqrt_pos.mpr hn3
  have hnn : n * n = Earth.MU / 26600 ^ 3 := by rw [hne, Real.mul_self_sqrt hn3.le, ha]
  have hb : (0 : ℝ) < 1 - 0.74 * 0.74 := by norm_num
  have hbb := Real.mul_self_sqrt hb.le
  have hb0 := Real.sqrt_pos.mpr hb
  obtain ⟨b, hbe⟩ : ∃ b, b = √(1 - (0.74 : ℝ) * 0.74) := ⟨_, rfl⟩
  rw [← hbe] at hbb hb0
  rw [← hne] at hT
  have hp : orbitPos el (E 0) = el.dirP.scaled 6916 := by
    rw [orbitPos, hE0, ha, he]
    ext <;> simp [Vec3.plus, Vec3.scaled] <;> left <;> norm_num
  have hv : orbitVel el n (E 0) = el.semilatusRectumVector.scaled (n * 26600 * b / 0.26) := by
    rw [orbitVel, hE0, ha, he, ← hbe]
    ext <;> simp [Vec3.plus, Vec3.scaled] <;> left <;> norm_num
  have hpm : (orbitPos el (E 0)).magnitude = 6916 := by
    rw [hp, Vec3.magnitude_scaled, Vec3.magnitude_unit el.dirP_unit]; norm_num
  have hvm : (orbitVel el n (E 0)).magnitude ^ 2 = 1.74 * Earth.MU / 6916 := by
    rw [hv, Vec3.magnitude_scaled, Vec3.magnitude_unit el.dirQ_unit, mul_one, sq_abs,
      show (n * 26600 * b / 0.26) ^ 2 = (n * n) * (b * b) * (26600 / 0.26) ^ 2 by ring, hnn, hbb]
    norm_num
    ring
  have hbound : (orbitVel el n (E 0)).magnitude ^ 2 / 2 < Earth.MU / (orbitPos el (E 0)).magnitude := by
    rw [hvm, hpm]
    have : Earth.MU / 6916 = (1 / 6916) * Earth.MU := by ring
    rw [this]; linarith
  have hcx : ((orbitPos el (E 0)).cross (orbitVel el n (E 0))).x ≠ 0 := by
    have e1 : ((orbitPos el (E 0)).cross (orbitVel el n (E 0))).x
        = (el.dirP.cross el.semilatusRectumVector).x * (6916 * (n * 26600 * b / 0.26)) := by
      rw [hp, hv]; simp only [Vec3.cross, Vec3.scaled]; ring
    rw [e1, el.dirP_cross_dirQ, hel]
    have := pi_gt_three
    have s1 : 0 < sin (1.1 : ℝ) := sin_pos_of_pos_of_lt_pi (by norm_num) (by linarith)
    have s2 : 0 < sin (2 : ℝ) := sin_pos_of_pos_of_lt_pi (by norm_num) (by linarith)
    simp only [ClassicalElements.dirW]
    positivity
  have hcr : (orbitPos el (E 0)).cross (orbitVel el n (E 0)) ≠ ⟨0, 0, 0⟩ := fun h => hcx (by rw [h])
  have hr0 : orbitPos el (E 0) ≠ ⟨0, 0, 0⟩ := fun h => hcr (by rw [h]; simp [Vec3.cross])
  refine ⟨fun t => State.new ⟨0⟩ (orbitPos el (E t)) (orbitVel el n (E t)), hT, hbound, Or.inl hcx, ?_⟩
  obtain ⟨el0, F, nu, w, h1, -, g1, -, -, g2, g3, -⟩ :=
    fromIjk_bound (State.new ⟨0⟩ (orbitPos el (E 0)) (orbitVel el n (E 0))) hr0 hcr hbound
  refine ⟨el0, h1, fun hz => ?_⟩
  rw [hz] at g3
  simp only [State.new, Vec3.copy_eq, hpm, hvm, zero_mul, sub_zero, mul_one] at g2 g3
  rw [← g3] at g2
  linarith

end Openspace
