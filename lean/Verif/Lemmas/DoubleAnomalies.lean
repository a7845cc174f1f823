import Verif.Lemmas.DoubleElementAngles

/-!
The anomalies computed by `ClassicalElements.from_ijk` in double precision.
-/

namespace Openspace

open Real Spec

namespace F64

/-- the mean motion -/
theorem meanMotion_near {a n : ℝ} (ha : 0 < a) (h : nFromAMu a mu = .ok n) :
    Near (rnd (rnd (a * a) * n)) (√(Earth.MU * a)) 7.3 := by
  have hmu := mu_pos
  have h1 : Near (rnd (rnd (a * a) * a)) (a * a * a) 2.1 :=
    (((near_rnd (a * a)).mul (Near.refl a) (by norm_num) (by norm_num) (by norm_num) (by norm_num)).round (by norm_num)
      (by norm_num)).mono (by norm_num)
  have p1 : 0 < a * a * a := by positivity
  obtain ⟨h2, h3⟩ := near_inv h1 p1.ne' (by norm_num) (by norm_num)
  have d0 : 0 < rnd (rnd (a * a) * a) := rnd_pos (mul_pos (rnd_pos (by positivity)) ha)
  rw [nFromAMu, div_ok h2] at h
  simp only [ok_bind] at h
  have q0 : 0 < rnd (mu / rnd (rnd (a * a) * a)) := rnd_pos (div_pos mu_pos' d0)
  rw [sqrt_ok q0.le, Except.ok.injEq] at h
  have h4 : Near (rnd (mu / rnd (rnd (a * a) * a))) (Earth.MU / (a * a * a)) 4.2 := by
    have := (mu_near.mul h3 (by norm_num) (by norm_num) (by norm_num) (by norm_num)).round (by norm_num) (by norm_num)
    rw [← mul_div_assoc, mul_one, ← mul_div_assoc, mul_one] at this
    exact this.mono (by norm_num)
  have h5 := (near_sqrt h4 (by positivity) q0.le).round (by norm_num) (by norm_num)
  rw [h] at h5
  have h6 := (((near_rnd (a * a)).mul h5 (by norm_num) (by norm_num) (by norm_num) (by norm_num)).round (by norm_num)
    (by norm_num)).mono (l := 7.3) (by norm_num)
  have e : a * a * √(Earth.MU / (a * a * a)) = √(Earth.MU * a) := by
    rw [← Real.sqrt_sq (by positivity : 0 ≤ a * a * √(Earth.MU / (a * a * a))), mul_pow, Real.sq_sqrt (by positivity)]
    congr 1
    field_simp
  rwa [e] at h6

theorem radial_rate_le {e : ℝ} (he : 0 ≤ e) (he1 : e ≤ 0.9) (E : ℝ) : |e * sin E| ≤ 2.07 * (1 - e * cos E) := by
  have c := Real.sin_sq_add_cos_sq E
  have c1 := Real.cos_le_one E
  obtain ⟨q, hq⟩ : ∃ q, q = 1 - e * cos E := ⟨_, rfl⟩
  have q0 : 0 ≤ q := by
    have : e * cos E ≤ e * 1 := by gcongr
    rw [hq]; linarith
  rw [← hq]
  refine abs_le_of_sq_le_sq ?_ (by positivity)
  have h1 : (e * sin E) ^ 2 * (1 - e ^ 2) ≤ e ^ 2 * q ^ 2 := by
    have : e ^ 2 * q ^ 2 - (e * sin E) ^ 2 * (1 - e ^ 2) = e ^ 2 * (e - cos E) ^ 2 := by
      rw [hq, mul_pow, show sin E ^ 2 = 1 - cos E ^ 2 by linarith]; ring
    have : 0 ≤ e ^ 2 * (e - cos E) ^ 2 := by positivity
    linarith
  have h5 : e ^ 2 ≤ 0.9 ^ 2 := by gcongr
  have h2 : 0.19 ≤ 1 - e ^ 2 := by norm_num at h5 ⊢; linarith
  have h3 : (e * sin E) ^ 2 * 0.19 ≤ (e * sin E) ^ 2 * (1 - e ^ 2) := by gcongr
  have h4 : e ^ 2 * q ^ 2 ≤ 0.9 ^ 2 * q ^ 2 := by gcongr
  have : 0 ≤ q ^ 2 := sq_nonneg _
  norm_num at h1 h3 h4 ⊢
  linarith

theorem distance_speed_le {r V a q : ℝ} (ha : 0 < a) (hq : 0 < q) (hr : r = a * q)
    (hen : V ^ 2 / 2 - Earth.MU / r = -Earth.MU / (2 * a)) : (r * V) ^ 2 ≤ Earth.MU * a := by
  have hmu := mu_pos
  have hV2 : V ^ 2 = Earth.MU * (2 / r - 1 / a) := by
    have : -Earth.MU / (2 * a) = -(Earth.MU * (1 / a)) / 2 := by field_simp
    rw [this] at hen
    have h2 : Earth.MU / r = Earth.MU * (2 / r) / 2 := by ring
    rw [h2] at hen
    linarith
  rw [mul_pow, hV2, hr]
  have : (a * q) ^ 2 * (Earth.MU * (2 / (a * q) - 1 / a)) = Earth.MU * a * (q * (2 - q)) := by field_simp
  rw [this]
  have : q * (2 - q) ≤ 1 := by linarith [sq_nonneg (q - 1)]
  calc Earth.MU * a * (q * (2 - q)) ≤ Earth.MU * a * 1 := by gcongr
    _ = _ := mul_one _

/-- the eccentric anomaly -/
theorem eccentricAnomaly_error {lib : Libm} (hatan : Atan2Accurate lib) {p v : Vec3} {a e E a' n' ea' : ℝ} (ha : 0 < a)
    (he : 2e-7 ≤ e) (he1 : e ≤ 0.9) (ha' : 0 < a') (hE0 : 0 ≤ E) (hE1 : E < 2 * π)
    (hr : p.magnitude = a * (1 - e * cos E)) (hen : v.magnitude ^ 2 / 2 - Earth.MU / p.magnitude = -Earth.MU / (2 * a))
    (hq : p.dot v = √(Earth.MU * a) * (e * sin E)) (hA : |1 / a' - 1 / a| ≤ 40 * u / p.magnitude)
    (hn : nFromAMu a' mu = .ok n') (hea : eaFromRdvRAN lib (dot p v) (magnitude p) a' n' = .ok ea') :
    AngleNear ea' E (121 * u / e) ∧ 0 ≤ ea' ∧ ea' ≤ 6.4 := by
  have hu := u_pos
  have hu' := u_tiny
  have hmu := mu_pos
  have e0 : 0 < e := lt_of_lt_of_le (by norm_num) he
  obtain ⟨r, hrd⟩ : ∃ r, r = p.magnitude := ⟨_, rfl⟩
  obtain ⟨V, hVd⟩ : ∃ V, V = v.magnitude := ⟨_, rfl⟩
  obtain ⟨q, hqd⟩ : ∃ q, q = 1 - e * cos E := ⟨_, rfl⟩
  have hmag := magnitude_near p
  have hdot := dot_near p v
  rw [← hrd] at hr hen hA hmag hdot
  rw [← hVd] at hen hdot
  rw [← hqd] at hr
  have cE := _root_.abs_le.mp (Real.abs_cos_le_one E)
  have sE := _root_.abs_le.mp (Real.abs_sin_le_one E)
  have ec : |e * cos E| ≤ 0.9 := by
    rw [abs_mul, abs_of_pos e0]
    calc e * |cos E| ≤ 0.9 * 1 := by gcongr; exact Real.abs_cos_le_one _
      _ = _ := by norm_num
  have q1 : 0.1 ≤ q := by rw [hqd]; linarith [(_root_.abs_le.mp ec).2]
  have q2 : q ≤ 1.9 := by rw [hqd]; linarith [(_root_.abs_le.mp ec).1]
  have q0 : 0 < q := by linarith
  have r0 : 0 < r := by rw [hr]; positivity
  have V0 : 0 ≤ V := by rw [hVd]; exact Vec3.magnitude_nonneg _
  have hrA : r * (1 / a) = q := by rw [hr]; field_simp
  -- the first coordinate
  obtain ⟨A', hA'⟩ : ∃ A', A' = 1 / a' := ⟨_, rfl⟩
  rw [← hA'] at hA
  have A0 : 0 < A' := by rw [hA']; positivity
  have x1 : |r * A' - q| ≤ 40 * u := by
    rw [← hrA, ← mul_sub, abs_mul, abs_of_pos r0]
    calc r * |A' - 1 / a| ≤ r * (40 * u / r) := by gcongr
      _ = _ := by field_simp
  have x2 : |magnitude p * A' - q| ≤ 48.1 * u := by
    unfold Near at hmag
    rw [abs_of_pos r0] at hmag
    have : |magnitude p * A' - r * A'| ≤ 8 * u := by
      rw [← sub_mul, abs_mul, abs_of_pos A0]
      have c := (_root_.abs_le.mp x1).2
      calc |magnitude p - r| * A' ≤ 4.2 * u * r * A' := by gcongr
        _ = 4.2 * u * (r * A') := by ring
        _ ≤ 4.2 * u * 1.901 := by gcongr; norm_num at hu' q2 ⊢; linarith
        _ ≤ 8 * u := by linarith
    have := abs_sub_le (magnitude p * A') (r * A') q
    linarith
  have x3 : |rnd (magnitude p / a') - q| ≤ 50.1 * u := by
    rw [show magnitude p / a' = magnitude p * A' by rw [hA']; ring]
    have := rabs x2 (M := 2) (by rw [abs_of_pos q0]; norm_num at hu' q2 ⊢; linarith)
    linarith
  have x4 : |rnd (1 - rnd (magnitude p / a')) - e * cos E| ≤ 51.1 * u := by
    have h : |1 - rnd (magnitude p / a') - e * cos E| ≤ 50.1 * u := by
      rw [show 1 - rnd (magnitude p / a') - e * cos E = -(rnd (magnitude p / a') - q) by rw [hqd]; ring, abs_neg]
      exact x3
    have := rabs h (M := 1) (by norm_num at hu' ec ⊢; linarith)
    linarith
  -- the second
  obtain ⟨D, hD⟩ : ∃ D, D = √(Earth.MU * a) := ⟨_, rfl⟩
  obtain ⟨D', hD'⟩ : ∃ D', D' = √(Earth.MU * a') := ⟨_, rfl⟩
  have D0 : 0 < D := by rw [hD]; positivity
  have D0' : 0 < D' := by rw [hD']; positivity
  have DD : D ^ 2 = Earth.MU * a := by rw [hD]; exact Real.sq_sqrt (by positivity)
  have DD' : D' ^ 2 = Earth.MU * a' := by rw [hD']; exact Real.sq_sqrt (by positivity)
  have hden := meanMotion_near ha' hn
  rw [← hD'] at hden
  rw [← hD] at hq
  obtain ⟨n1, n2⟩ := near_inv hden D0'.ne' (by norm_num) (by norm_num)
  obtain ⟨Y, hY⟩ : ∃ Y, Y = e * sin E := ⟨_, rfl⟩
  rw [← hY] at hq
  have y1 : Near (rnd (dot p v / rnd (rnd (a' * a') * n'))) (dot p v / D') 8.4 := by
    have := ((Near.refl (dot p v)).mul n2 (by norm_num) (by norm_num) (by norm_num) (by norm_num)).round (by norm_num) (by norm_num)
    rw [mul_one_div, mul_one_div] at this
    exact this.mono (by norm_num)
  -- the change of the scale
  have s1 : |1 / D' - 1 / D| ≤ 40 * u / q * (1 / D) := by
    have f : (1 / D' - 1 / D) * (1 / D' + 1 / D) = (A' - 1 / a) / Earth.MU := by
      have : (1 / D' - 1 / D) * (1 / D' + 1 / D) = 1 / D' ^ 2 - 1 / D ^ 2 := by field_simp; ring
      rw [this, DD, DD', hA']
      field_simp
    have g : |1 / D' - 1 / D| * (1 / D' + 1 / D) = |A' - 1 / a| / Earth.MU := by
      rw [← abs_of_pos (show 0 < 1 / D' + 1 / D by positivity), ← abs_mul, f, abs_div, abs_of_pos hmu]
    have i1 : |1 / D' - 1 / D| * (1 / D) ≤ |A' - 1 / a| / Earth.MU := by
      rw [← g]; gcongr
      have : 0 < 1 / D' := by positivity
      linarith
    have i2 : |1 / D' - 1 / D| * (1 / D) ≤ 40 * u / r / Earth.MU := i1.trans (by gcongr)
    have e3 : 40 * u / r / Earth.MU = 40 * u / q * (1 / D) * (1 / D) := by
      have : 1 / D * (1 / D) = 1 / (Earth.MU * a) := by rw [← DD]; field_simp
      rw [mul_assoc, this, hr]
      field_simp
    rw [e3] at i2
    exact le_of_mul_le_mul_right i2 (by positivity)
  have Y1 : |Y| ≤ 2.07 * q := by rw [hY, hqd]; exact radial_rate_le e0.le he1 E
  have Y2 : |Y| ≤ 0.9 := by
    rw [hY, abs_mul, abs_of_pos e0]
    calc e * |sin E| ≤ 0.9 * 1 := by gcongr; exact Real.abs_sin_le_one _
      _ = _ := by norm_num
  have rV : r * V ≤ D := by
    refine (abs_le_of_sq_le_sq' ?_ D0.le).2
    rw [DD]; exact distance_speed_le ha q0 hr hen
  have iD : 1 / D' ≤ 1.001 * (1 / D) := by
    have c := (_root_.abs_le.mp s1).2
    have : 40 * u / q ≤ 0.001 := by rw [div_le_iff₀ q0]; norm_num at hu' q1 ⊢; linarith
    have : 40 * u / q * (1 / D) ≤ 0.001 * (1 / D) := by gcongr
    linarith
  have y2 : |dot p v / D' - Y| ≤ 86 * u := by
    have e1 : dot p v / D' - Y = (dot p v - p.dot v) * (1 / D') + p.dot v * (1 / D' - 1 / D) := by
      rw [hq]; field_simp; ring
    rw [e1]
    have i1 : |(dot p v - p.dot v) * (1 / D')| ≤ 3.2 * u := by
      rw [abs_mul, abs_of_pos (show 0 < 1 / D' by positivity)]
      calc |dot p v - p.dot v| * (1 / D') ≤ 3.1 * u * (r * V) * (1.001 * (1 / D)) := by gcongr
        _ ≤ 3.1 * u * D * (1.001 * (1 / D)) := by gcongr
        _ = 3.1031 * u := by field_simp; ring
        _ ≤ _ := by linarith
    have i2 : |p.dot v * (1 / D' - 1 / D)| ≤ 82.8 * u := by
      rw [hq, abs_mul, abs_mul, abs_of_pos D0]
      calc D * |Y| * |1 / D' - 1 / D| ≤ D * (2.07 * q) * (40 * u / q * (1 / D)) := by gcongr
        _ = 82.8 * u := by field_simp; norm_num
    exact (abs_add_le _ _).trans (by linarith)
  have y3 : |rnd (dot p v / rnd (rnd (a' * a') * n')) - Y| ≤ 94 * u := by
    have i := abs_sub_le (rnd (dot p v / rnd (rnd (a' * a') * n'))) (dot p v / D') Y
    unfold Near at y1
    have : |dot p v / D'| ≤ 0.91 := by
      have := abs_sub_abs_le_abs_sub (dot p v / D') Y
      norm_num at hu' Y2 ⊢; linarith
    have : 8.4 * u * |dot p v / D'| ≤ 8.4 * u * 0.91 := by gcongr
    linarith
  -- the angle
  rw [eaFromRdvRAN, div_ok n1, div_ok ha'.ne'] at hea
  simp only [ok_bind, pure, Except.pure, Except.ok.injEq] at hea
  have k := atan2_wrapped hatan (x := e * cos E) (y := Y) (x' := rnd (1 - rnd (magnitude p / a')))
    (y' := rnd (dot p v / rnd (rnd (a' * a') * n'))) (d := 107 * u) (ρ := e) e0
    (by rw [hY]; linear_combination (e * e) * Real.sin_sq_add_cos_sq E) (by positivity)
    (by
      have i1 : (rnd (1 - rnd (magnitude p / a')) - e * cos E) ^ 2 ≤ (51.1 * u) ^ 2 := by rw [← sq_abs]; gcongr
      have i2 : (rnd (dot p v / rnd (rnd (a' * a') * n')) - Y) ^ 2 ≤ (94 * u) ^ 2 := by rw [← sq_abs]; gcongr
      have := sq_nonneg u
      rw [mul_pow] at i1 i2 ⊢
      norm_num at i1 i2 ⊢
      linarith)
    (by norm_num at hu' he ⊢; linarith)
  rw [hea] at k
  have r := atan2_range hatan (rnd (dot p v / rnd (rnd (a' * a') * n'))) (rnd (1 - rnd (magnitude p / a')))
  rw [hea] at r
  refine ⟨(k.trans ?_ (F := 0)).mono ?_, r⟩
  · have := (wrapNeg_angle (pyAtan2 Y (e * cos E))).symm
    rwa [hY, wrapNeg_atan2_polar e0 hE0 hE1, ← hY] at this
  · have : 13 * u ≤ 11.7 * u / e := by rw [le_div_iff₀ e0]; nlinarith only [he1, hu]
    rw [show 121 * u / e = 1.02 * (107 * u / e) + 11.7 * u / e + 0.16 * u / e by ring, add_zero]
    have : 0 ≤ 0.16 * u / e := by positivity
    linarith

theorem angle_sin {lib : Libm} (hl : Accurate lib) {x y ε : ℝ} (h : AngleNear x y ε) : |lib.sin x - sin y| ≤ ε + 2 * u := by
  obtain ⟨k, hk⟩ := h
  have h1 := sin_lipschitz x (y + 2 * π * k)
  rw [show y + 2 * π * (k : ℝ) = y + k * (2 * π) by ring, Real.sin_add_int_mul_two_pi] at h1
  have h2 := hl.sin x
  rw [show (1 : ℝ) / 2 ^ 52 = 2 * u by unfold u; norm_num] at h2
  have h3 := abs_sub_le (lib.sin x) (sin x) (sin y)
  rw [show y + 2 * π * (k : ℝ) = y + k * (2 * π) by ring] at hk
  linarith

theorem angle_cos {lib : Libm} (hl : Accurate lib) {x y ε : ℝ} (h : AngleNear x y ε) : |lib.cos x - cos y| ≤ ε + 2 * u := by
  obtain ⟨k, hk⟩ := h
  have h1 := cos_lipschitz x (y + 2 * π * k)
  rw [show y + 2 * π * (k : ℝ) = y + k * (2 * π) by ring, Real.cos_add_int_mul_two_pi] at h1
  have h2 := hl.cos x
  rw [show (1 : ℝ) / 2 ^ 52 = 2 * u by unfold u; norm_num] at h2
  have h3 := abs_sub_le (lib.cos x) (cos x) (cos y)
  rw [show y + 2 * π * (k : ℝ) = y + k * (2 * π) by ring] at hk
  linarith

theorem lib_sin_le {lib : Libm} (hl : Accurate lib) (x : ℝ) : |lib.sin x| ≤ 1.001 := by
  have h2 := hl.sin x
  have h3 := Real.abs_sin_le_one x
  have h4 := abs_sub_abs_le_abs_sub (lib.sin x) (sin x)
  norm_num at h2 ⊢
  linarith

/-- the mean anomaly -/
theorem meanAnomaly_error {lib : Libm} (hl : Accurate lib) {e E e' ea' ε η : ℝ} (he : 0 ≤ e) (he1 : e ≤ 0.9) (hε0 : ε ≤ 1e-6) (hη0 : η ≤ 1e-6)
    (hea : AngleNear ea' E ε) (h0 : 0 ≤ ea') (h1 : ea' ≤ 6.4) (hee : |e' - e| ≤ η) :
    AngleNear (maFromEaE lib ea' e') (Openspace.maFromEaE E e) (1.9 * ε + 1.001 * η + 20 * u) := by
  have hu := u_pos
  have hu' := u_tiny
  have hη : 0 ≤ η := (abs_nonneg _).trans hee
  have hε : 0 ≤ ε := by obtain ⟨k, hk⟩ := hea; exact (abs_nonneg _).trans hk
  have s1 := angle_sin hl hea
  have s2 := lib_sin_le hl ea'
  have s3 : |e' * lib.sin ea' - e * sin E| ≤ 1.001 * η + 0.9 * (ε + 2 * u) := by
    rw [show e' * lib.sin ea' - e * sin E = (e' - e) * lib.sin ea' + e * (lib.sin ea' - sin E) by ring]
    refine (abs_add_le _ _).trans (add_le_add ?_ ?_)
    · rw [abs_mul, mul_comm]; gcongr
    · rw [abs_mul, abs_of_nonneg he]; gcongr
  have i : |e * sin E| ≤ 0.9 := by
    rw [abs_mul, abs_of_nonneg he]
    calc e * |sin E| ≤ 0.9 * 1 := by gcongr; exact Real.abs_sin_le_one _
      _ = _ := by norm_num
  have s4 := rabs s3 (M := 1) (by norm_num at hu' hε0 hη0 i ⊢; linarith)
  have s5 : |rnd (e' * lib.sin ea')| ≤ 1 := by
    have := abs_sub_abs_le_abs_sub (rnd (e' * lib.sin ea')) (e * sin E)
    norm_num at hu' hε0 hη0
    linarith
  have s6 := hea.sub (AngleNear.of_abs s4)
  have s7 : |ea' - rnd (e' * lib.sin ea')| ≤ 8 := by
    rw [_root_.abs_le] at s5 ⊢
    constructor <;> linarith [s5.1, s5.2]
  have s8 : |rnd (ea' - rnd (e' * lib.sin ea')) - (ea' - rnd (e' * lib.sin ea'))| ≤ 8 * u := by
    refine (rnd_u _).trans ?_
    rw [mul_comm]; gcongr
  have s9 : |rnd (ea' - rnd (e' * lib.sin ea'))| ≤ 10 := by
    have := abs_sub_abs_le_abs_sub (rnd (ea' - rnd (e' * lib.sin ea'))) (ea' - rnd (e' * lib.sin ea'))
    norm_num at hu' ⊢; linarith
  refine ((wrapNeg_angle_near s9).trans ((AngleNear.of_abs s8).trans (s6.trans (wrapNeg_angle (E - e * sin E)).symm))).mono ?_
  linarith

/-- the true anomaly -/
theorem trueAnomaly_error {lib : Libm} (hl : Accurate lib) (hatan : Atan2Accurate lib) {e E e' ea' nu nu' : ℝ} (he : 2e-7 ≤ e) (he1 : e ≤ 0.9)
    (he0' : 0 ≤ e') (hea : AngleNear ea' E (1.46e-14 / e)) (hee : |e' - e| ≤ 2e-14 / e) (hee2 : |e' ^ 2 - e ^ 2| ≤ 2e-14)
    (hnu : Openspace.nuFromEEa e E = .ok nu) (hnu' : nuFromEEa lib e' ea' = .ok nu') :
    AngleNear nu' nu (7e-13 / e) ∧ 0 ≤ nu' ∧ nu' ≤ 6.4 := by
  have hu := u_pos
  have hu' := u_tiny
  have e0 : 0 < e := lt_of_lt_of_le (by norm_num) he
  have ie : 1 / e ≤ 5e6 := by rw [div_le_iff₀ e0]; norm_num at he ⊢; linarith
  have ie' : 1.1 ≤ 1 / e := by rw [le_div_iff₀ e0]; norm_num at he1 ⊢; linarith
  obtain ⟨I, hI⟩ : ∃ I, I = 1 / e := ⟨_, rfl⟩
  rw [← hI] at ie ie'
  have d1 : ∀ c : ℝ, c / e = c * I := fun c => by rw [hI]; ring
  rw [d1] at hea hee ⊢
  have se : e ^ 2 ≤ 0.81 := by
    have : e ^ 2 ≤ 0.9 ^ 2 := by gcongr
    norm_num at this ⊢; linarith
  -- the minor axis
  have m1 : |rnd (e' * e') - e ^ 2| ≤ 2e-14 + 1 * u := by
    rw [← sq]
    refine rabs hee2 ?_
    rw [abs_of_nonneg (sq_nonneg e)]; norm_num at se ⊢; linarith
  have m2 : |rnd (1 - rnd (e' * e')) - (1 - e ^ 2)| ≤ 2e-14 + 1 * u + 1.1 * u := by
    have : |1 - rnd (e' * e') - (1 - e ^ 2)| ≤ 2e-14 + 1 * u := by
      rw [show 1 - rnd (e' * e') - (1 - e ^ 2) = -(rnd (e' * e') - e ^ 2) by ring, abs_neg]; exact m1
    refine rabs this ?_
    have := sq_nonneg e
    rw [abs_of_nonneg (by norm_num at se; linarith)]; norm_num at hu' ⊢; linarith
  obtain ⟨t, ht⟩ : ∃ t, t = 1 - e ^ 2 := ⟨_, rfl⟩
  obtain ⟨t', ht'⟩ : ∃ t', t' = rnd (1 - rnd (e' * e')) := ⟨_, rfl⟩
  rw [← ht, ← ht'] at m2
  have t1 : 0.19 ≤ t := by norm_num at se ⊢; linarith
  have t1' : t ≤ 1 := by have := sq_nonneg e; linarith
  have m3 : |t' - t| ≤ 2.03e-14 := by norm_num at m2 hu' ⊢; linarith
  have t2 : 0 ≤ t' := by have := (_root_.abs_le.mp m3).1; norm_num at this t1 ⊢; linarith
  have hsq : 0.435 ≤ √t := Real.le_sqrt_of_sq_le (by norm_num at t1 ⊢; linarith)
  have hsq1 : √t ≤ 1 := Real.sqrt_le_one.mpr t1'
  have m4 : |√t' - √t| ≤ 4.67e-14 := by
    have e1 : (√t' - √t) * (√t' + √t) = t' - t := by
      have a1 := Real.mul_self_sqrt t2
      have a2 := Real.mul_self_sqrt (show 0 ≤ t by linarith)
      nlinarith
    have e2 : |√t' - √t| * (√t' + √t) ≤ 2.03e-14 := by
      rw [← abs_of_nonneg (show 0 ≤ √t' + √t by positivity), ← abs_mul, e1]; exact m3
    have e3 : |√t' - √t| * 0.435 ≤ |√t' - √t| * (√t' + √t) := by
      gcongr; have := Real.sqrt_nonneg t'; linarith
    norm_num at e2 e3 ⊢; linarith
  have m5 := rabs m4 (M := 1.1) (by rw [abs_of_nonneg (Real.sqrt_nonneg t)]; norm_num; linarith)
  rw [nuFromEEa, ← ht', sqrt_ok t2] at hnu'
  simp only [ok_bind, pure, Except.pure, Except.ok.injEq] at hnu'
  rw [Openspace.nuFromEEa, ← sq, ← ht, pySqrt_ok (by linarith)] at hnu
  simp only [ok_bind, pure, Except.pure, Except.ok.injEq] at hnu
  have s1 := angle_sin hl hea
  have c1 := angle_cos hl hea
  have s2 := lib_sin_le hl ea'
  have y1 : |rnd (√t') * lib.sin ea' - √t * sin E| ≤ 1.001 * (4.67e-14 + 1.1 * u) + 1 * (1.46e-14 * I + 2 * u) := by
    rw [show rnd (√t') * lib.sin ea' - √t * sin E = (rnd (√t') - √t) * lib.sin ea' + √t * (lib.sin ea' - sin E) by ring]
    refine (abs_add_le _ _).trans (add_le_add ?_ ?_)
    · rw [abs_mul, mul_comm]; gcongr
    · rw [abs_mul, abs_of_nonneg (Real.sqrt_nonneg t)]; gcongr
  have y2 := rabs y1 (M := 1.1) (by
    rw [abs_mul, abs_of_nonneg (Real.sqrt_nonneg t)]
    have : √t * |sin E| ≤ 1 * 1 := by gcongr; exact Real.abs_sin_le_one _
    norm_num at ie hu' ⊢; linarith)
  have y3 : |rnd (rnd (√t') * lib.sin ea') - √t * sin E| ≤ 5.8e-14 * I := by norm_num at y2 ie' hu' ⊢; linarith
  have x1 : |lib.cos ea' - e' - (cos E - e)| ≤ 1.46e-14 * I + 2 * u + 2e-14 * I := by
    rw [show lib.cos ea' - e' - (cos E - e) = (lib.cos ea' - cos E) - (e' - e) by ring]
    exact (abs_sub _ _).trans (add_le_add c1 hee)
  have x2 := rabs x1 (M := 2) (by
    have : |cos E - e| ≤ 1.9 := by
      have := _root_.abs_le.mp (Real.abs_cos_le_one E)
      rw [_root_.abs_le]; constructor <;> linarith [this.1, this.2]
    norm_num at ie hu' this ⊢; linarith)
  have x3 : |rnd (lib.cos ea' - e') - (cos E - e)| ≤ 3.52e-14 * I := by norm_num at x2 ie' hu' ⊢; linarith
  have ec : |e * cos E| ≤ 0.9 := by
    rw [abs_mul, abs_of_pos e0]
    calc e * |cos E| ≤ 0.9 * 1 := by gcongr; exact Real.abs_cos_le_one _
      _ = _ := by norm_num
  have q1 : 0.1 ≤ 1 - e * cos E := by linarith [(_root_.abs_le.mp ec).2]
  have I0 : 0 < I := by linarith
  have k := atan2_wrapped hatan (x := cos E - e) (y := √t * sin E) (x' := rnd (lib.cos ea' - e')) (y' := rnd (rnd (√t') * lib.sin ea'))
    (d := 6.79e-14 * I) (ρ := 1 - e * cos E) (by linarith)
    (by
      have a2 := Real.mul_self_sqrt (show 0 ≤ t by linarith)
      have c := Real.sin_sq_add_cos_sq E
      have : √t * sin E * (√t * sin E) = t * sin E ^ 2 := by rw [mul_mul_mul_comm, a2]; ring
      rw [this, ht]
      linear_combination (1 - e ^ 2) * c)
    (by positivity)
    (by
      have i1 : (rnd (lib.cos ea' - e') - (cos E - e)) ^ 2 ≤ (3.52e-14 * I) ^ 2 := by rw [← sq_abs]; gcongr
      have i2 : (rnd (rnd (√t') * lib.sin ea') - √t * sin E) ^ 2 ≤ (5.8e-14 * I) ^ 2 := by rw [← sq_abs]; gcongr
      have := sq_nonneg I
      rw [mul_pow] at i1 i2 ⊢
      norm_num at i1 i2 ⊢
      linarith)
    (by norm_num at ie q1 ⊢; linarith)
  rw [hnu'] at k
  have r := atan2_range hatan (rnd (rnd (√t') * lib.sin ea')) (rnd (lib.cos ea' - e'))
  rw [hnu'] at r
  refine ⟨(k.trans (wrapNeg_angle (pyAtan2 (√t * sin E) (cos E - e))).symm).mono ?_ |>.trans (F := 0) ?_ |>.mono ?_ (E := 7e-13 * I + 0), r⟩
  · have : 6.79e-14 * I / (1 - e * cos E) ≤ 6.79e-13 * I := by
      rw [div_le_iff₀ (by linarith)]
      have : 6.79e-13 * I * 0.1 ≤ 6.79e-13 * I * (1 - e * cos E) := by gcongr
      norm_num at this ⊢; linarith
    norm_num at this hu' ie' ⊢; linarith
  · exact AngleNear.of_abs (by rw [← hnu]; simp [pySin, pyCos])
  · linarith

/-- the argument of perigee -/
theorem perigee_error {u₀ u' nu nu' ε δ : ℝ} (hu₀ : AngleNear u' u₀ ε) (hnu : AngleNear nu' nu δ) (a0 : 0 ≤ u') (a1 : u' ≤ 6.4)
    (b0 : 0 ≤ nu') (b1 : nu' ≤ 6.4) : AngleNear (wFromUNu u' nu') (Openspace.wFromUNu u₀ nu) (ε + δ + 16 * u) := by
  have hu := u_pos
  have hu' := u_tiny
  have s7 : |u' - nu'| ≤ 6.4 := by
    rw [_root_.abs_le]; constructor <;> linarith
  have s8 : |rnd (u' - nu') - (u' - nu')| ≤ 6.4 * u := by
    refine (rnd_u _).trans ?_
    rw [mul_comm]; gcongr
  have s9 : |rnd (u' - nu')| ≤ 10 := by
    have := abs_sub_abs_le_abs_sub (rnd (u' - nu')) (u' - nu')
    norm_num at hu' s7 s8 ⊢; linarith
  refine ((wrapNeg_angle_near s9).trans ((AngleNear.of_abs s8).trans ((hu₀.sub hnu).trans (wrapNeg_angle (u₀ - nu)).symm))).mono ?_
  linarith

end F64

end Openspace
