import Verif.Lemmas.DoubleGaussAngles
import Verif.Props.DoubleIod
import Verif.Props.GaussRecovers

/-!
# C152: the elements found by Gauss's method in double precision
-/

namespace Openspace

open Real Spec

namespace Gauss

/-- the second anomaly is less than a turn ahead of the first -/
theorem same_turn {el : ClassicalElements} (ha : 0 < el.semimajor_axis) (he : 0 ≤ el.eccentricity) (he' : el.eccentricity < 1)
    {Ea Eb dt : ℝ} (hdt : 0 < dt) (hkep : (Eb - el.eccentricity * sin Eb) - (Ea - el.eccentricity * sin Ea) =
      √(Earth.MU / el.semimajor_axis ^ 3) * dt) (hK : 0 < gaussK (orbitPos el Ea) (orbitPos el Eb))
    (hm : gaussM (orbitPos el Ea) (orbitPos el Eb) dt ≤ 1 / 10) : Ea ≤ Eb ∧ Eb < Ea + 2 * π := by
  have hmu := mu_pos
  obtain ⟨n0, hn0⟩ : ∃ n0, n0 = √(Earth.MU / el.semimajor_axis ^ 3) := ⟨_, rfl⟩
  rw [← hn0] at hkep
  have hn3 : 0 < Earth.MU / el.semimajor_axis ^ 3 := by positivity
  have hn0p : 0 < n0 := by rw [hn0]; exact sqrt_pos.mpr hn3
  have hnn : n0 ^ 2 = Earth.MU / el.semimajor_axis ^ 3 := by rw [hn0, sq_sqrt hn3.le]
  have hA := orbitPos_mag ha he he' Ea
  have hB := orbitPos_mag ha he he' Eb
  have hturn : n0 * dt < 2 * π := by
    have hL := L_nonneg hK
    rw [gaussM] at hm
    rw [gaussL, hA, hB] at hL
    linarith [pi_gt_three, less_than_turn ha he he' (neg_one_le_cos Ea) (neg_one_le_cos Eb) hK hL hm hnn]
  have hmono := kepler_strictMono he he'
  constructor
  · apply hmono.le_iff_le.mp
    unfold kepler
    have := mul_pos hn0p hdt
    linarith
  · apply hmono.lt_iff_lt.mp
    unfold kepler
    rw [sin_add_two_pi]
    linarith

/-- the ratio of the areas of sector and triangle -/
theorem exists_ratio {p D c : ℝ} (hp : 0 < p) (hD : 0 < D) (hc : 0 < c) : ∃ r, 0 < r ∧ p = (D * r) ^ 2 / c ^ 2 := by
  refine ⟨c * √p / D, by positivity, ?_⟩
  rw [mul_div_cancel₀ _ hD.ne', mul_pow, sq_sqrt hp.le]
  field_simp

/-- height and horizontal coordinate of a point of the orbit, from the argument of latitude -/
theorem latitude_coords {el : ClassicalElements} (ha : 0 < el.semimajor_axis) (he : 0 ≤ el.eccentricity)
    (he' : el.eccentricity < 1) {ν E : ℝ} (h : IsEccentricAnomaly el.eccentricity ν E) (hr : orbitPoint el ν = orbitPos el E) :
    (orbitPos el E).z = (orbitPos el E).magnitude * sin el.inclination * sin (el.argument_of_perigee + ν) ∧
    -(orbitPos el E).x * el.dirW.y + (orbitPos el E).y * el.dirW.x =
      (orbitPos el E).magnitude * sin el.inclination * cos (el.argument_of_perigee + ν) := by
  obtain ⟨pa, -, -⟩ := anomaly_coords el.semimajor_axis he he' h
  have hv : 0 < 1 + el.eccentricity * cos ν := by nlinarith [neg_one_le_cos ν]
  obtain ⟨A, hA⟩ : ∃ A, A = (orbitPos el E).magnitude := ⟨_, rfl⟩
  rw [← orbitPos_mag ha he he', ← hA] at pa
  rw [← hA, ← hr, orbitPoint, ← pa, mul_div_cancel_right₀ _ hv.ne']
  simp only [latitudeDir, Vec3.scaled, ClassicalElements.dirW]
  constructor
  · ring
  · linear_combination A * sin el.inclination * cos (el.argument_of_perigee + ν) * sin_sq_add_cos_sq el.raan

end Gauss

/-- **C152.**  Two positions of an object on a Kepler orbit, the second `d` further in true anomaly and `dt` seconds later.  For
eccentricities up to 0.9, when the sine of `d` is at least 0.01, the auxiliary numbers of the positions satisfy `m ≤ 0.0999` and
`1e-13 ≤ l ≤ 0.58 m`, and the first position is not too close to the semi-latus rectum (`e |cos ν| ≥ 1e-4`), the method in double
precision returns the elements of the orbit: eccentricity and relative semi-major axis up to `ζ` and `10 ζ` with
`ζ = 1.72e-11 / sin d + 1.5e-15 / (e |cos ν|)`, mean anomaly up to `1.7e-9 / (e sin d) + 1e-13 / (e |cos ν|)`, the inclination up to
`8e-15 / sin d` and, outside the equatorial plane, the node up to `7.5e-15 / (sin d sin i)` and the argument of perigee up to
`6.5e-15 / (sin d sin i) + 1.76e-11 / (e sin d)`. -/
theorem C152_elements {lib : F64.Libm} (hlib : Accurate lib) (hatan : Atan2Accurate lib) (hulp : UlpAccurate lib)
    (hpow : PowAccurate lib) {el : ClassicalElements} (ha : 0 < el.semimajor_axis) (he : el.eccentricity ≤ 0.9)
    {ν d Ea Eb t1 t2 dt : ℝ} (hdt : dt = (t2 - t1) * 86400) (hdt0 : 0 < dt) (hEa : IsEccentricAnomaly el.eccentricity ν Ea)
    (hEb : IsEccentricAnomaly el.eccentricity (ν + d) Eb)
    (hkep : (Eb - el.eccentricity * sin Eb) - (Ea - el.eccentricity * sin Ea) = √(Earth.MU / el.semimajor_axis ^ 3) * dt)
    (hd : 0.01 ≤ sin d) (hγ : 1e-4 ≤ el.eccentricity * |cos ν|)
    (hm : gaussM (orbitPoint el ν) (orbitPoint el (ν + d)) dt ≤ 0.0999)
    (hl0 : 1e-13 ≤ gaussL (orbitPoint el ν) (orbitPoint el (ν + d)))
    (hl : gaussL (orbitPoint el ν) (orbitPoint el (ν + d)) ≤ 0.58 * gaussM (orbitPoint el ν) (orbitPoint el (ν + d)) dt)
    {fuel : ℕ} (hf : 60 ≤ fuel) :
    ∃ ce, F64.gaussCoes lib fuel (orbitPoint el ν) (orbitPoint el (ν + d)) ⟨t1⟩ ⟨t2⟩ = .ok ce ∧ ce.epoch = ⟨t1⟩ ∧
      |ce.eccentricity - el.eccentricity| ≤ 1.72e-11 / sin d + 1.5e-15 / (el.eccentricity * |cos ν|) ∧
      |ce.semimajor_axis - el.semimajor_axis| ≤
        10 * (1.72e-11 / sin d + 1.5e-15 / (el.eccentricity * |cos ν|)) * el.semimajor_axis ∧
      AngleNear ce.mean_anomaly (Ea - el.eccentricity * sin Ea)
        (1.7e-9 / (el.eccentricity * sin d) + 1e-13 / (el.eccentricity * |cos ν|)) ∧
      (0 ≤ sin el.inclination → AngleNear ce.inclination el.inclination (8e-15 / sin d)) ∧
      (1e-10 ≤ sin el.inclination →
        AngleNear ce.raan el.raan (7.5e-15 / (sin d * sin el.inclination)) ∧
        AngleNear ce.argument_of_perigee el.argument_of_perigee
          (6.5e-15 / (sin d * sin el.inclination) + 1.76e-11 / (el.eccentricity * sin d))) := by
  have hmu := mu_pos
  have hu := F64.u_pos
  have hu' := F64.u_tiny
  obtain ⟨e, hed⟩ : ∃ e, e = el.eccentricity := ⟨_, rfl⟩
  obtain ⟨s, hsd⟩ : ∃ s, s = sin d := ⟨_, rfl⟩
  have cν := abs_cos_le_one ν
  have cν0 := abs_nonneg (cos ν)
  have e0 : 1e-4 ≤ e := by
    rw [← hed] at hγ
    by_contra h
    have h1 : e < 1e-4 := not_le.mp h
    rcases le_or_gt e 0 with h2 | h2
    · have := mul_nonpos_of_nonpos_of_nonneg h2 cν0
      norm_num at hγ; linarith
    · have : e * |cos ν| ≤ e * 1 := by gcongr
      linarith
  have ep : 0 < e := lt_of_lt_of_le (by norm_num) e0
  have he0 : 0 ≤ el.eccentricity := by rw [← hed]; exact ep.le
  have he1 : el.eccentricity < 1 := by norm_num at he; linarith
  have hra := Gauss.orbitPoint_eq he0 he1 hEa
  have hrb := Gauss.orbitPoint_eq he0 he1 hEb
  obtain ⟨hs, hc⟩ := Gauss.area_eq ha he0 he1 hEa hEb
  obtain ⟨pa, -, -⟩ := Gauss.anomaly_coords el.semimajor_axis he0 he1 hEa
  obtain ⟨pb, -, -⟩ := Gauss.anomaly_coords el.semimajor_axis he0 he1 hEb
  rw [← Gauss.orbitPos_mag ha he0 he1] at pa pb
  have hA0 : 0 < (orbitPos el Ea).magnitude := by
    rw [Gauss.orbitPos_mag ha he0 he1]; exact mul_pos ha (one_sub_e_cos_pos he0 he1 Ea)
  have hB0 : 0 < (orbitPos el Eb).magnitude := by
    rw [Gauss.orbitPos_mag ha he0 he1]; exact mul_pos ha (one_sub_e_cos_pos he0 he1 Eb)
  have sp : 0 < s := by rw [hsd]; norm_num at hd; linarith
  have hcr := Gauss.orbitPos_cross el Ea Eb
  have hD : 0 < Gauss.area el Ea Eb := by rw [← hs, ← hsd]; positivity
  obtain ⟨r, hr0, hpr⟩ := Gauss.exists_ratio (p := el.semimajor_axis * (1 - el.eccentricity ^ 2)) (D := Gauss.area el Ea Eb)
    (c := √Earth.MU * dt) (mul_pos ha (by nlinarith)) hD (mul_pos (sqrt_pos.mpr hmu) hdt0)
  -- the ratio
  have hz : gaussK (orbitPoint el ν) (orbitPoint el (ν + d)) ≠ 0 := by
    intro h
    rw [gaussL, h] at hl0
    norm_num at hl0
  rw [hra, hrb] at hm hl hl0 hz ⊢
  have hK : 0 < gaussK (orbitPos el Ea) (orbitPos el Eb) := lt_of_le_of_ne (sqrt_nonneg _) hz.symm
  obtain ⟨o1, o2⟩ := Gauss.same_turn ha he0 he1 hdt0 hkep hK (hm.trans (by norm_num))
  have hroot := Gauss.true_root ha he0 he1 hdt0 o1 o2 hD hkep hr0 (by rw [hpr, mul_pow (√Earth.MU), sq_sqrt hmu.le])
  obtain ⟨r', n, ⟨r1, r2⟩, f1, -, e2, hn⟩ := C151_ratio hulp hpow hdt (Vec3.magnitude_pos.mp hA0) (Vec3.magnitude_pos.mp hB0) hm hl0 hl hf
  have hM0 : 0 < gaussM (orbitPos el Ea) (orbitPos el Eb) dt := by
    rw [gaussM]; positivity
  have hrr : r' = r := Gauss.root_unique (by linarith) hr0 hM0 f1 hroot
  subst hrr
  have nn : F64.Near n r' 15800 := by
    unfold F64.Near
    rw [abs_of_pos hr0]
    refine hn.trans ?_
    have : (1.75e-12 : ℝ) ≤ 15800 * F64.u * 1 := by unfold F64.u; norm_num
    refine this.trans ?_
    gcongr
  -- the plane
  have hw : (orbitPos el Ea).cross (orbitPos el Eb) = el.dirW.scaled ((orbitPos el Ea).magnitude * (orbitPos el Eb).magnitude * s) := by
    rw [hcr, hsd, hs]
  have hs1 : s ≤ 1 := by rw [hsd]; exact sin_le_one d
  rw [← hsd] at hd ⊢
  obtain ⟨pl, g1, g2, g3, g4, g5, g6, g7, g8, g9⟩ := F64.plane_near (lib := lib) (ra := orbitPos el Ea) (rb := orbitPos el Eb) hA0 rfl rfl
    hB0 hd hs1 (by rw [hsd]; exact sin_sq_add_cos_sq d) hc.symm hw
  have ht : F64.Near (F64.gaussTau t1 t2) (√Earth.MU * dt) 5.1 := by
    have := F64.tau_near t1 t2
    rwa [mul_assoc, ← hdt] at this
  have hEa' := hEa
  rw [← hed] at he hEa hpr pa pb hγ ⊢
  have γe : e * |cos ν| = |e * cos ν| := by rw [abs_mul, abs_of_pos ep]
  rw [γe] at hγ ⊢
  obtain ⟨ce, z', x', k1, k2, k3, k4, k5, k6, k7, k8, k9⟩ := F64.elements_near hlib hatan ⟨t1⟩ (pl := pl) (rb := orbitPos el Eb)
    (r := r') (e := e) (ν := ν) (d := d) (a := el.semimajor_axis) (τ := √Earth.MU * dt)
    (by rw [g2]; exact F64.magnitude_near _) (by rw [g3]; exact F64.magnitude_near _) g4 g5 hA0 hB0 hd hsd rfl nn ht
    (mul_pos (sqrt_pos.mpr hmu) hdt0) ep.le he ha
    (by rw [← sq, hpr, ← hs, ← hsd]; ring) (by rw [pa]; ring) (by rw [pb]; ring) hγ le_rfl
  obtain ⟨γ, hγd⟩ : ∃ γ, γ = |e * cos ν| := ⟨_, rfl⟩
  rw [← hγd] at hγ k5 k6 ⊢
  obtain ⟨θ1, θ2, ta⟩ := F64.gauss_true_anomaly hatan e0 he hd hs1 k7
  have R := F64.atan2_range hatan z' x'
  refine ⟨ce, by simp only [F64.gaussCoes, g1, ok_bind, g2, g3, e2, k1], k2, k5, k6, ?_, fun hi => ?_, fun hi => ?_⟩
  · obtain ⟨b1, b2, b3⟩ := F64.budget_mean e0 he hd hs1 hγ
    rw [k9]
    exact (F64.gauss_mean hlib hatan ep.le he k5 b1 b2 (ta.mono (by linarith)) (le_trans (by norm_num) θ1)
      (θ2.trans (by norm_num)) hEa).mono b3
  · obtain ⟨b1, b2⟩ := F64.budget_inclination hd hs1
    rw [k3, g8]
    refine (F64.gauss_inclination hatan (w := el.dirW) (i := el.inclination) rfl ?_ hi (by positivity) (b1.trans (by norm_num)) g6).mono b2
    simp only [ClassicalElements.dirW]
    linear_combination sin el.inclination * sin el.inclination * sin_sq_add_cos_sq el.raan
  · obtain ⟨ρ, hρ⟩ : ∃ ρ, ρ = sin el.inclination := ⟨_, rfl⟩
    rw [← hρ] at hi ⊢
    have ρ0 : 0 < ρ := lt_of_lt_of_le (by norm_num) hi
    obtain ⟨b1, -⟩ := F64.budget_inclination hd hs1
    obtain ⟨b2, b3⟩ := F64.budget_node hd hs1 ρ0 (by rw [hρ]; exact sin_le_one _)
    have d2 : 53 * F64.u / s + 3.2 * F64.u ≤ ρ / 100 := by
      norm_num at hu' b1 hi ⊢; linarith
    constructor
    · rw [k4, g9]
      exact (F64.gauss_node hatan ρ0 (w := el.dirW) (Ω := el.raan) (by rw [hρ]; rfl) (by rw [hρ]; rfl) (by positivity)
        (by linarith) g6).mono b2
    · rw [k8, g7]
      obtain ⟨h1, h2⟩ := Gauss.latitude_coords ha he0 he1 hEa' hra
      obtain ⟨L1, L2⟩ := F64.gauss_latitude hatan (p := orbitPos el Ea) (w := el.dirW) (φ := el.argument_of_perigee + ν) ρ0 hA0 rfl
        el.dirW_unit (by rw [hρ]; exact h1) (by rw [hρ]; exact h2)
        (by positivity) (b1.trans (by norm_num)) d2 g6
      have P := F64.gauss_perigee L1 ta L2 R.1 R.2
      rw [add_sub_cancel_right] at P
      exact P.mono (by linarith)

/-- a polar orbit of 10000 km and eccentricity 0.1, seen at perigee and where the eccentric anomaly is 30 degrees -/
example : ∃ (el : ClassicalElements) (ν d t1 t2 : ℝ) (ce : ClassicalElements), el.eccentricity = 0.1 ∧
    F64.gaussCoes F64.rounded 60 (orbitPoint el ν) (orbitPoint el (ν + d)) ⟨t1⟩ ⟨t2⟩ = .ok ce ∧
    |ce.eccentricity - el.eccentricity| ≤ 4e-11 ∧ AngleNear ce.raan el.raan 1.5e-14 := by
  have hmu := mu_pos
  obtain ⟨el, hel⟩ : ∃ el : ClassicalElements, el = ⟨⟨0⟩, 10000, 0.1, π / 2, 0, 0, 0⟩ := ⟨_, rfl⟩
  have ea : el.semimajor_axis = 10000 := by rw [hel]
  have ee : el.eccentricity = 0.1 := by rw [hel]
  have ei : el.inclination = π / 2 := by rw [hel]
  have a0 : 0 < el.semimajor_axis := by rw [ea]; norm_num
  have e0 : 0 ≤ el.eccentricity := by rw [ee]; norm_num
  have e1 : el.eccentricity < 1 := by rw [ee]; norm_num
  have h0 : IsEccentricAnomaly el.eccentricity 0 0 := by constructor <;> simp [add_comm]
  obtain ⟨d, hd⟩ := Gauss.exists_true e0 e1 (π / 6)
  obtain ⟨q, hq⟩ : ∃ q, q = √3 := ⟨_, rfl⟩
  have q1 : 1.732 ≤ q := by rw [hq]; exact Real.le_sqrt_of_sq_le (by norm_num)
  have q2 : q ≤ 1.7321 := by rw [hq]; exact Real.sqrt_le_iff.mpr (by norm_num)
  have qq : q * q = 3 := by rw [hq]; exact Real.mul_self_sqrt (by norm_num)
  obtain ⟨dt, hdt⟩ : ∃ dt, dt = (π / 6 - 0.05) / √(Earth.MU / el.semimajor_axis ^ 3) := ⟨_, rfl⟩
  have hn3 : 0 < Earth.MU / el.semimajor_axis ^ 3 := by positivity
  have hn := sqrt_pos.mpr hn3
  have p1 := Real.pi_gt_d4
  have p2 := Real.pi_lt_d4
  have hdt0 : 0 < dt := by rw [hdt]; refine div_pos ?_ hn; norm_num at p1 ⊢; linarith
  have hdt2 : Earth.MU * dt ^ 2 = (π / 6 - 0.05) ^ 2 * 10000 ^ 3 := by
    rw [hdt, div_pow, sq_sqrt hn3.le, ea]
    field_simp
  have hra := Gauss.orbitPoint_eq e0 e1 h0
  have hrb := Gauss.orbitPoint_eq e0 e1 hd
  have hA : (orbitPos el 0).magnitude = 9000 := by
    rw [Gauss.orbitPos_mag a0 e0 e1, ea, ee, cos_zero]; norm_num
  have hB : (orbitPos el (π / 6)).magnitude = 10000 - 500 * q := by
    rw [Gauss.orbitPos_mag a0 e0 e1, ea, ee, cos_pi_div_six, ← hq]; ring
  have hdot : (orbitPos el 0).dot (orbitPos el (π / 6)) = 9000 * (5000 * q - 1000) := by
    rw [orbitPos, orbitPos, comb_dot el.dirP_unit el.dirQ_unit el.dirP_dirQ, ea, ee, cos_zero, sin_zero, cos_pi_div_six, ← hq]
    ring
  have hK : gaussK (orbitPos el 0) (orbitPos el (π / 6)) = 9000 * √(2 + q) := by
    rw [gaussK, hA, hB, hdot, show 2 * (9000 * (10000 - 500 * q) + 9000 * (5000 * q - 1000)) = 9000 ^ 2 * (2 + q) by ring,
      sqrt_mul (by norm_num), sqrt_sq (by norm_num)]
  obtain ⟨w, hw⟩ : ∃ w, w = √(2 + q) := ⟨_, rfl⟩
  have w1 : 1.9318 ≤ w := by rw [hw]; exact Real.le_sqrt_of_sq_le (by norm_num at q1 ⊢; linarith)
  have w2 : w ≤ 1.9319 := by rw [hw]; exact Real.sqrt_le_iff.mpr (by norm_num at q2 ⊢; linarith)
  rw [← hw] at hK
  have w0 : 0 < w := by linarith
  have hM : gaussM (orbitPos el 0) (orbitPos el (π / 6)) dt = (π / 6 - 0.05) ^ 2 / (0.9 * w) ^ 3 := by
    rw [gaussM, hK, hdt2]
    rw [div_eq_div_iff (by positivity) (by positivity)]
    ring
  have hL : gaussL (orbitPos el 0) (orbitPos el (π / 6)) = (19000 - 500 * q) / (18000 * w) - 1 / 2 := by
    rw [gaussL, hK, hA, hB]; ring
  have m1 : (0.4735 : ℝ) ≤ π / 6 - 0.05 := by norm_num at p1 ⊢; linarith
  have m2 : π / 6 - 0.05 ≤ (0.4737 : ℝ) := by norm_num at p2 ⊢; linarith
  have c1 : (0.9 * 1.9318 : ℝ) ^ 3 ≤ (0.9 * w) ^ 3 := by gcongr
  have c2 : (0.9 * w) ^ 3 ≤ (0.9 * 1.9319 : ℝ) ^ 3 := by gcongr
  have M1 : gaussM (orbitPos el 0) (orbitPos el (π / 6)) dt ≤ 0.05 := by
    rw [hM, div_le_iff₀ (by positivity)]
    have : (π / 6 - 0.05) ^ 2 ≤ (0.4737 : ℝ) ^ 2 := by gcongr
    norm_num at this c1 ⊢; linarith
  have M2 : 0.042 ≤ gaussM (orbitPos el 0) (orbitPos el (π / 6)) dt := by
    rw [hM, le_div_iff₀ (by positivity)]
    have : (0.4735 : ℝ) ^ 2 ≤ (π / 6 - 0.05) ^ 2 := by gcongr
    norm_num at this c2 ⊢; linarith
  have L1 : gaussL (orbitPos el 0) (orbitPos el (π / 6)) ≤ 0.022 := by
    have : (19000 - 500 * q) / (18000 * w) ≤ 0.522 := by
      rw [div_le_iff₀ (by positivity)]; norm_num at q1 w1 ⊢; linarith
    rw [hL]; norm_num at this ⊢; linarith
  have L2 : 0.01 ≤ gaussL (orbitPos el 0) (orbitPos el (π / 6)) := by
    have : 0.51 ≤ (19000 - 500 * q) / (18000 * w) := by
      rw [le_div_iff₀ (by positivity)]; norm_num at q2 w2 ⊢; linarith
    rw [hL]; norm_num at this ⊢; linarith
  have hsin : 0.52 ≤ sin d := by
    obtain ⟨-, -, hs⟩ := Gauss.anomaly_coords el.semimajor_axis e0 e1 hd
    rw [ea, ee, cos_pi_div_six, sin_pi_div_six, ← hq] at hs
    have r1 : (0.99 : ℝ) ≤ √(1 - 0.1 * 0.1) := Real.le_sqrt_of_sq_le (by norm_num)
    by_contra h
    have h1 : sin d < 0.52 := not_le.mp h
    have h2 : 10000 * (1 - 0.1 * (q / 2)) * sin d ≤ 10000 * (1 - 0.1 * (1.732 / 2)) * 0.52 := by
      have : 0 ≤ 10000 * (1 - 0.1 * (q / 2)) := by linarith
      calc 10000 * (1 - 0.1 * (q / 2)) * sin d ≤ 10000 * (1 - 0.1 * (q / 2)) * 0.52 := by gcongr
        _ ≤ _ := by gcongr
    norm_num at h2 hs r1
    linarith
  obtain ⟨ce, k1, -, k2, -, -, -, k3⟩ := C152_elements F64.rounded_accurate.1 F64.rounded_accurate.2 F64.rounded_ulp F64.rounded_pow a0
    (by rw [ee]; norm_num) (ν := 0) (d := d) (Ea := 0) (Eb := π / 6) (t1 := 0) (t2 := dt / 86400) (dt := dt) (by ring) hdt0
    h0 (by rw [zero_add]; exact hd)
    (by rw [hdt, mul_div_cancel₀ _ hn.ne', ee, sin_pi_div_six, sin_zero]; ring)
    (by norm_num at hsin ⊢; linarith) (by rw [ee, cos_zero]; norm_num) (by rw [zero_add, hra, hrb]; norm_num at M1 ⊢; linarith)
    (by rw [zero_add, hra, hrb]; norm_num at L2 ⊢; linarith) (by rw [zero_add, hra, hrb]; norm_num at M2 L1 ⊢; linarith)
    (fuel := 60) le_rfl
  have sp : 0 < sin d := by norm_num at hsin; linarith
  refine ⟨el, 0, d, 0, dt / 86400, ce, ee, k1, k2.trans ?_, ?_⟩
  · rw [ee, cos_zero]
    have : 1.72e-11 / sin d ≤ 3.5e-11 := by
      rw [div_le_iff₀ sp]; norm_num at hsin ⊢; linarith
    norm_num at this ⊢; linarith
  · rw [ei, sin_pi_div_two] at k3
    refine (k3 (by norm_num)).1.mono ?_
    rw [mul_one, div_le_iff₀ sp]; norm_num at hsin ⊢; linarith

end Openspace
