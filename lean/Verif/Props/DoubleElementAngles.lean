import Verif.Props.DoubleElements
import Verif.Lemmas.DoubleAnomalies

/-!
# Property C148: the angles among the classical elements in double precision
-/

namespace Openspace

open Real

/-- sine of the inclination -/
theorem sin_inclination {w : Vec3} (hw : w.dot w = 1) : sin (incFromW w) = √(w.x * w.x + w.y * w.y) := by
  have h := mul_sin_atan2 (√(w.x * w.x + w.y * w.y)) w.z
  rw [Real.mul_self_sqrt (add_nonneg (mul_self_nonneg _) (mul_self_nonneg _))] at h
  simp only [Vec3.dot] at hw
  rw [show w.z * w.z + (w.x * w.x + w.y * w.y) = 1 by linarith, Real.sqrt_one, one_mul] at h
  exact h

/-- For a bound state with an eccentricity from 2e-7 to 0.9, `ClassicalElements.from_ijk` in double precision gives the
inclination up to 4e-15, the mean anomaly up to whole turns and 5e-14 / e, and, unless the plane is equatorial, the node up
to 4.1e-15 / sin i and the argument of perigee up to 4.5e-15 / sin i + 7.1e-13 / e. -/
theorem C148_angles (lib : F64.Libm) (hlib : Spec.Accurate lib) (hatan : Spec.Atan2Accurate lib) (s : State) (el : ClassicalElements)
    (hh : s.position.cross s.velocity ≠ ⟨0, 0, 0⟩)
    (hb : s.velocity.magnitude ^ 2 / 2 < Earth.MU / s.position.magnitude)
    (hel : ClassicalElements.fromIjk s = .ok el) (h1 : 2e-7 ≤ el.eccentricity) (h2 : el.eccentricity ≤ 0.9) :
    ∃ el', F64.fromIjk lib s = .ok el' ∧ |el'.eccentricity - el.eccentricity| ≤ 2e-14 / el.eccentricity ∧
      |el'.inclination - el.inclination| ≤ 4e-15 ∧
      Spec.AngleNear el'.mean_anomaly el.mean_anomaly (5e-14 / el.eccentricity) ∧
      (1e-12 ≤ sin el.inclination →
        Spec.AngleNear el'.raan el.raan (4.1e-15 / sin el.inclination) ∧
        Spec.AngleNear el'.argument_of_perigee el.argument_of_perigee
          (4.5e-15 / sin el.inclination + 7.1e-13 / el.eccentricity)) := by
  have hr : s.position ≠ ⟨0, 0, 0⟩ := by
    intro h; rw [h] at hh; simp [Vec3.cross] at hh
  have hmu := mu_pos
  have hu := F64.u_pos
  have hu' := F64.u_tiny
  obtain ⟨a', e', n', ea', nu', w', k1, kw, kn, kn0, kE, knu, ka0, ke0, ke1, ka1, -⟩ :=
    F64.fromIjk_parts lib s el hh hb hel h1 (h2.trans (by norm_num))
  obtain ⟨el₀, E, nu, w, g1, g2, ha, he, he', hen, hrE, hqE, hE0, hE1, hM, hnu, hwu, hc, hi, hO, haop, -⟩ :=
    fromIjk_bound s hr hh hb
  have : el₀ = el := by rw [hel, Except.ok.injEq] at g1; exact g1.symm
  subst this
  obtain ⟨e, hed⟩ : ∃ e, e = el₀.eccentricity := ⟨_, rfl⟩
  obtain ⟨a, had⟩ : ∃ a, a = el₀.semimajor_axis := ⟨_, rfl⟩
  simp only [← hed, ← had] at h1 h2 ke1 ka1 ha he he' hen hrE hqE hM hnu hc ⊢
  have e0 : 0 < e := lt_of_lt_of_le (by norm_num) h1
  have se : e ^ 2 ≤ 0.81 := by
    have : e ^ 2 ≤ 0.9 ^ 2 := by gcongr
    norm_num at this ⊢; linarith
  -- the shape
  have ee : |e' - e| ≤ 2e-14 / e := by
    rw [le_div_iff₀ e0]
    have f : |e' ^ 2 - e ^ 2| = |e' - e| * (e' + e) := by
      rw [← abs_of_nonneg (show 0 ≤ e' + e by linarith), ← abs_mul]; congr 1; ring
    rw [f] at ke1
    refine le_trans ?_ ke1
    gcongr
    linarith
  -- the anomalies
  obtain ⟨E1, E2, E3⟩ := F64.eccentricAnomaly_error hatan ha h1 h2 ka0 hE0 hE1 hrE hen hqE ka1 kn kE
  have hε : 121 * F64.u / e ≤ 1.46e-14 / e := by gcongr; norm_num at hu' ⊢; linarith
  have hie : 1 / e ≤ 5e6 := by rw [div_le_iff₀ e0]; norm_num at h1 ⊢; linarith
  have hie' : 1.1 ≤ 1 / e := by rw [le_div_iff₀ e0]; norm_num at h2 ⊢; linarith
  have d1 : ∀ c : ℝ, c / e = c * (1 / e) := fun c => by ring
  have M1 := F64.meanAnomaly_error hlib e0.le h2 (ε := 1.46e-14 / e) (η := 2e-14 / e) (by rw [d1]; norm_num at hie ⊢; linarith)
    (by rw [d1]; norm_num at hie ⊢; linarith) (E1.mono hε) E2 E3 ee
  rw [← hM] at M1
  obtain ⟨N1, N2, N3⟩ := F64.trueAnomaly_error hlib hatan h1 h2 ke0 (E1.mono hε) ee ke1 hnu knu
  -- the plane
  have hk : 0 < √(Earth.MU * (a * (1 - e ^ 2))) := Real.sqrt_pos.mpr (mul_pos hmu (mul_pos ha (by norm_num at se; linarith)))
  have hB : s.position.magnitude * s.velocity.magnitude ≤ 2.3 * (s.position.cross s.velocity).magnitude := by
    have q0 : 0 < 1 - e * cos E := by
      have := Vec3.magnitude_pos.mpr hr
      rw [hrE] at this
      exact pos_of_mul_pos_right this ha.le
    have b1 := F64.distance_speed_le ha q0 hrE hen
    have hm := congrArg (fun v : Vec3 => v.magnitude ^ 2) hc
    simp only [Vec3.magnitude_scaled, Vec3.magnitude_unit hwu, mul_one, sq_abs] at hm
    rw [Real.sq_sqrt (mul_nonneg hmu.le (mul_nonneg ha.le (by norm_num at se; linarith)))] at hm
    refine (abs_le_of_sq_le_sq' ?_ (mul_nonneg (by norm_num) (Vec3.magnitude_nonneg _))).2
    rw [mul_pow 2.3, hm]
    have : Earth.MU * a * 0.19 ≤ Earth.MU * a * (1 - e ^ 2) := by gcongr; norm_num at se ⊢; linarith
    have : 0 < Earth.MU * a := by positivity
    norm_num at *
    linarith
  have W := F64.normal_error hh hwu hk hc hB kw
  refine ⟨_, k1, ee, ?_, M1.mono ?_, fun hs => ⟨?_, ?_⟩⟩
  · show |F64.incFromW lib w' - el₀.inclination| ≤ 4e-15
    rw [hi]
    refine (F64.inclination_error hatan hwu W).trans ?_
    norm_num at hu' ⊢; linarith
  · rw [d1 1.46e-14, d1 2e-14, d1 5e-14]; linarith
  · show Spec.AngleNear (F64.raanFromW lib w') el₀.raan _
    rw [hi, sin_inclination hwu] at hs ⊢
    have ρ1 : √(w.x * w.x + w.y * w.y) ≤ 1 := by rw [← sin_inclination hwu]; exact Real.sin_le_one _
    have ρ0 : 0 < √(w.x * w.x + w.y * w.y) := lt_of_lt_of_le (by norm_num) hs
    rw [hO]
    refine (F64.node_error hatan hs ρ1 (Real.mul_self_sqrt (add_nonneg (mul_self_nonneg _) (mul_self_nonneg _))).symm W).mono ?_
    gcongr
    norm_num at hu' ⊢; linarith
  · show Spec.AngleNear (F64.wFromUNu (F64.uFromRW lib s.position w') nu') el₀.argument_of_perigee _
    rw [hi, sin_inclination hwu] at hs ⊢
    have ρ1 : √(w.x * w.x + w.y * w.y) ≤ 1 := by rw [← sin_inclination hwu]; exact Real.sin_le_one _
    have ρ0 : 0 < √(w.x * w.x + w.y * w.y) := lt_of_lt_of_le (by norm_num) hs
    have pw : s.position.dot w = 0 := by
      have := Vec3.dot_cross_left s.position s.velocity
      rw [hc, Vec3.dot_scaled_right] at this
      exact (mul_eq_zero.mp this).resolve_left hk.ne'
    have U := F64.latitude_error hatan hs ρ1 hr pw hwu
      (Real.mul_self_sqrt (add_nonneg (mul_self_nonneg _) (mul_self_nonneg _))).symm W
    have R := F64.atan2_range hatan s.position.z (F64.rnd (F64.rnd (-s.position.x * w'.y) + F64.rnd (s.position.y * w'.x)))
    have P := F64.perigee_error U N1 R.1 R.2 N2 N3
    rw [haop]
    refine P.mono ?_
    have i1 : 37 * F64.u / √(w.x * w.x + w.y * w.y) ≤ 4.5e-15 / √(w.x * w.x + w.y * w.y) := by
      gcongr; norm_num at hu' ⊢; linarith
    have i2 : 7e-13 / e + 16 * F64.u ≤ 7.1e-13 / e := by
      rw [d1 7e-13, d1 7.1e-13]; linarith
    linarith

/-- an inclined elliptic orbit meets the hypotheses -/
example : ∃ el el', ClassicalElements.fromIjk (State.new ⟨0⟩ ⟨7000, 0, 0⟩ ⟨0, 6, 5⟩) = .ok el ∧
    F64.fromIjk F64.rounded (State.new ⟨0⟩ ⟨7000, 0, 0⟩ ⟨0, 6, 5⟩) = .ok el' ∧ Spec.AngleNear el'.raan el.raan 7e-15 := by
  obtain ⟨s, hs⟩ : ∃ s : State, s = State.new ⟨0⟩ ⟨7000, 0, 0⟩ ⟨0, 6, 5⟩ := ⟨_, rfl⟩
  obtain ⟨hh, hb, el, g1, b3, b2⟩ := sample_orbit s hs
  have hsp : s.position = ⟨7000, 0, 0⟩ := by rw [hs]; rfl
  have hsv : s.velocity = ⟨0, 6, 5⟩ := by rw [hs]; rfl
  obtain ⟨el₀, E, nu, w, g1', -, ha, -, he1, -, -, -, -, -, -, -, hwu, hc, hi, -⟩ := fromIjk_bound s (by rw [hsp]; norm_num) hh hb
  have : el₀ = el := by rw [g1, Except.ok.injEq] at g1'; exact g1'.symm
  subst this
  obtain ⟨el', h, -, -, -, h4⟩ :=
    C148_angles F64.rounded F64.rounded_accurate.1 F64.rounded_accurate.2 s el₀ hh hb g1 (by linarith) (by linarith)
  have hsin : 0.6 ≤ sin el₀.inclination := by
    rw [hi, sin_inclination hwu]
    refine Real.le_sqrt_of_sq_le ?_
    rw [hsp, hsv] at hc
    have k0 : 0 < √(Earth.MU * (el₀.semimajor_axis * (1 - el₀.eccentricity ^ 2))) :=
      Real.sqrt_pos.mpr (mul_pos mu_pos (mul_pos ha (by nlinarith)))
    obtain ⟨k, hk⟩ : ∃ k, k = √(Earth.MU * (el₀.semimajor_axis * (1 - el₀.eccentricity ^ 2))) := ⟨_, rfl⟩
    rw [← hk] at hc k0
    simp only [Vec3.cross, Vec3.scaled, Vec3.mk.injEq] at hc
    obtain ⟨hx, hy, hz⟩ := hc
    have yz : w.y = -(5 / 6) * w.z := by
      refine mul_right_cancel₀ k0.ne' ?_
      linarith
    simp only [Vec3.dot] at hwu
    rw [yz] at hwu ⊢
    nlinarith [mul_self_nonneg w.x]
  refine ⟨el₀, el', hs ▸ g1, hs ▸ h, (h4 (by linarith)).1.mono ?_⟩
  rw [div_le_iff₀ (by linarith)]
  linarith

end Openspace
