import Verif.Lemmas.Secant

/-!
# C84: the Gauss method solves moderate transfers
-/

namespace Openspace

open Real

namespace Gauss

/-- the conic found from a ratio with `0 < m / n² - l < 1` is an ellipse -/
theorem ellipse_of_omega {A B c s k tau n w P : ℝ} (hA : 0 < A) (hB : 0 < B) (hs : 0 < s) (hcs : c ^ 2 + s ^ 2 = 1)
    (hk : 0 < k) (hk2 : k ^ 2 = 2 * (A * B * (1 + c))) (ht : tau ≠ 0) (hn : n ≠ 0)
    (hP : P = (A * (B * s) * n / tau) ^ 2) (hw : w = tau * tau / k ^ 3 / n ^ 2 - ((A + B) / (2 * k) - 1 / 2))
    (hw0 : 0 < w) (hw1 : w < 1) :
    (P / A - 1) ^ 2 + (((P / A - 1) * c - (P / B - 1)) / s) ^ 2 < 1 := by
  have hPp : 0 < P := by rw [hP]; positivity
  have hQ : P * (2 * k * w + A + B - k) = A * B * (1 - c) := by
    have e1 : P * tau ^ 2 = (A * B * s) ^ 2 * n ^ 2 := by rw [hP]; field_simp
    have e2 : k ^ 2 * (2 * k * w + A + B - k) = 2 * tau ^ 2 / n ^ 2 := by rw [hw]; field_simp; ring
    have e3 : k ^ 2 * (P * (2 * k * w + A + B - k)) = k ^ 2 * (A * B * (1 - c)) := by
      have : k ^ 2 * (P * (2 * k * w + A + B - k)) = 2 * (P * tau ^ 2) / n ^ 2 := by
        rw [← mul_assoc, mul_comm (k ^ 2) P, mul_assoc, e2]; ring
      rw [this, e1, hk2]
      field_simp
      linear_combination hcs
    exact mul_left_cancel₀ (by positivity) e3
  obtain ⟨u, hu⟩ : ∃ u, u = P / A - 1 := ⟨_, rfl⟩
  obtain ⟨v, hv⟩ : ∃ v, v = P / B - 1 := ⟨_, rfl⟩
  have huA : A * u = P - A := by rw [hu]; field_simp
  have hvB : B * v = P - B := by rw [hv]; field_simp
  rw [← hu, ← hv]
  have key : (A * B) ^ 2 * (s ^ 2 - u ^ 2 - v ^ 2 + 2 * u * v * c) = P ^ 2 * (4 * k ^ 2 * w * (1 - w)) := by
    have e1 : (A * B) ^ 2 * (s ^ 2 - u ^ 2 - v ^ 2 + 2 * u * v * c) =
        A ^ 2 * B ^ 2 * s ^ 2 - (A * u) ^ 2 * B ^ 2 - (B * v) ^ 2 * A ^ 2 + 2 * c * A * B * (A * u) * (B * v) := by ring
    rw [e1, huA, hvB]
    have hk3 : k ^ 2 - 2 * (A * B * (1 + c)) = 0 := by rw [hk2]; ring
    linear_combination A ^ 2 * B ^ 2 * hcs + (-2 * P * (A + B) + A * B * (1 - c) + P * (2 * k * w + A + B - k)) * hQ
      - P ^ 2 * hk3
  have hpos : 0 < s ^ 2 - u ^ 2 - v ^ 2 + 2 * u * v * c := by
    have h1 : 0 < P ^ 2 * (4 * k ^ 2 * w * (1 - w)) := by
      have : 0 < 1 - w := by linarith
      positivity
    rw [← key] at h1
    exact (pos_iff_pos_of_mul_pos h1).mp (by positivity)
  have e2 : u ^ 2 + ((u * c - v) / s) ^ 2 = (u ^ 2 * s ^ 2 + (u * c - v) ^ 2) / s ^ 2 := by field_simp
  rw [e2, div_lt_one (by positivity)]
  nlinarith [hpos, hcs, show u ^ 2 * s ^ 2 + (u * c - v) ^ 2 = u ^ 2 * (c ^ 2 + s ^ 2) - 2 * u * v * c + v ^ 2 by ring]

/-- lines 64-90 return elements, unless the first position is at the semi-latus rectum and the second is not -/
theorem elements_total {epoch : Epoch} {pl : Plane} {rb : Vec3} {n tau k : ℝ}
    (hra : 0 < pl.ra_mag) (hrb : 0 < pl.rb_mag) (hr0 : 0 < pl.r0_mag)
    (hsq : pl.rb_mag ^ 2 = (rb.dot pl.ea) ^ 2 + pl.r0_mag ^ 2) (ht : tau ≠ 0) (hn : n ≠ 0)
    (hk : 0 < k) (hk2 : k ^ 2 = 2 * (pl.ra_mag * pl.rb_mag + pl.ra_mag * rb.dot pl.ea))
    (hw0 : 0 < tau * tau / k ^ 3 / n ^ 2 - ((pl.ra_mag + pl.rb_mag) / (2 * k) - 1 / 2))
    (hw1 : tau * tau / k ^ 3 / n ^ 2 - ((pl.ra_mag + pl.rb_mag) / (2 * k) - 1 / 2) < 1) :
    (∃ ce, elementsFromRatio epoch pl rb n tau = .ok ce) ∨
    (elementsFromRatio epoch pl rb n tau = .error .zeroDivision ∧ (pl.ra_mag * pl.r0_mag * n / tau) ^ 2 = pl.ra_mag ∧
      pl.ra_mag ≠ pl.rb_mag) := by
  obtain ⟨P, hP⟩ : ∃ P, P = (pl.ra_mag * pl.r0_mag * n / tau) ^ 2 := ⟨_, rfl⟩
  have hPm : pl.ra_mag * pl.r0_mag * n / tau * (pl.ra_mag * pl.r0_mag * n / tau) = P := by rw [hP]; ring
  obtain ⟨c, hc⟩ : ∃ c, c = rb.dot pl.ea / pl.rb_mag := ⟨_, rfl⟩
  obtain ⟨s, hs⟩ : ∃ s, s = pl.r0_mag / pl.rb_mag := ⟨_, rfl⟩
  have hsp : 0 < s := by rw [hs]; positivity
  have hcs : c ^ 2 + s ^ 2 = 1 := by
    rw [hc, hs, div_pow, div_pow, ← add_div, ← hsq, div_self (by positivity)]
  have hell := ellipse_of_omega hra hrb hsp hcs hk (by rw [hk2, hc]; field_simp) ht hn
    (P := P) (by rw [hP, hs]; field_simp) rfl hw0 hw1
  simp only [elementsFromRatio, pyDiv_ok ht, ok_bind, hPm, pyDiv_ok hra.ne', pyDiv_ok hrb.ne', ← hc, ← hs, pyDiv_ok hsp.ne']
  obtain ⟨u, hu⟩ : ∃ u, u = P / pl.ra_mag - 1 := ⟨_, rfl⟩
  obtain ⟨q, hq⟩ : ∃ q, q = (u * c - (P / pl.rb_mag - 1)) / s := ⟨_, rfl⟩
  rw [← hu] at hell ⊢
  rw [← hq] at hell ⊢
  obtain ⟨ta, hta⟩ : ∃ ta, ta = wrapNeg (pyAtan2 q u) := ⟨_, rfl⟩
  obtain ⟨N, hN⟩ : ∃ N, N = √(u * u + q * q) := ⟨_, rfl⟩
  have hNc : N * cos ta = u := by rw [hta, wrapNeg_cos, hN]; exact mul_cos_atan2 _ _
  have hN2 : N ^ 2 = u ^ 2 + q ^ 2 := by rw [hN, sq_sqrt (by nlinarith [sq_nonneg u, sq_nonneg q])]; ring
  simp only [← hta, pyCos]
  by_cases hct : cos ta = 0
  · right
    rw [hct, mul_zero] at hNc
    have hq0 : q ≠ 0 := by
      intro h0
      rw [hta, h0, ← hNc, pyAtan2_zero, wrapNeg_of_nonneg le_rfl, cos_zero] at hct
      exact one_ne_zero hct
    have hPa : P = pl.ra_mag := by
      have : P / pl.ra_mag = 1 := by linarith
      rwa [div_eq_one_iff_eq hra.ne'] at this
    refine ⟨?_, ?_, ?_⟩
    · rw [hct, pyDiv_zero, error_bind]
    · rw [← hP]; exact hPa
    · intro hab
      apply hq0
      rw [hq, ← hNc, hPa, hab, div_self hrb.ne']; simp
  · left
    have he : u / cos ta = N := by rw [← hNc]; field_simp
    have h1 : 0 < 1 - N * N := by nlinarith
    rw [pyDiv_ok hct, ok_bind]
    simp only [he, pyDiv_ok h1.ne', ok_bind, pySqrt_ok h1.le]
    exact ⟨_, rfl⟩

theorem plane_total {ra rb : Vec3} (h : ra.cross rb ≠ ⟨0, 0, 0⟩) : ∃ pl, plane ra rb = .ok pl := by
  have h1 : ra ≠ ⟨0, 0, 0⟩ := by rintro rfl; exact h (by simp [Vec3.cross])
  obtain ⟨ea, hea⟩ : ∃ ea, ra.normalized = .ok ea := ⟨_, Vec3.normalized_ok h1⟩
  have h2 : rb.minus (ea.scaled (rb.dot ea)) ≠ ⟨0, 0, 0⟩ := by
    intro h0
    apply h
    obtain ⟨hr, -⟩ := unscale hea
    have hb : rb = ea.scaled (rb.dot ea) := by
      have hx := congrArg Vec3.x h0
      have hy := congrArg Vec3.y h0
      have hz := congrArg Vec3.z h0
      simp only [Vec3.minus] at hx hy hz
      ext <;> linarith
    generalize rb.dot ea = t at hb
    generalize ra.magnitude = r at hr
    rw [hr, hb]
    ext <;> simp only [Vec3.cross, Vec3.scaled] <;> ring
  simp only [plane, hea, ok_bind, Vec3.normalized_ok h2]
  exact ⟨_, rfl⟩

theorem L_nonneg {ra rb : Vec3} (hk : 0 < Spec.gaussK ra rb) : 0 ≤ Spec.gaussL ra rb := by
  have h1 := Vec3.magnitude_nonneg ra
  have h2 := Vec3.magnitude_nonneg rb
  have hcs : ra.dot rb ≤ ra.magnitude * rb.magnitude := by
    rw [← Vec3.inner_toE, ← Vec3.norm_toE, ← Vec3.norm_toE]
    exact real_inner_le_norm _ _
  have h3 : Spec.gaussK ra rb ≤ ra.magnitude + rb.magnitude := by
    unfold Spec.gaussK
    rw [sqrt_le_left (by positivity)]
    nlinarith [sq_nonneg (ra.magnitude - rb.magnitude)]
  unfold Spec.gaussL
  rw [sub_nonneg, div_le_div_iff₀ (by norm_num) (by positivity)]
  linarith

end Gauss

/-- **C84**. Let `m` and `l` be Gauss's auxiliary numbers of two positions that are not collinear with the Earth's centre, seen
`dt` seconds apart.  If `m ≤ 1/10` and `25 l < 16 m`, the method solves the problem within sixty passes: the equation has a root
between 1 and 1.13, the program's ratio is within 1.5e-12 of it, and elements are returned, except when the first position is at
the semi-latus rectum of the orbit (and the second is not), where the eccentricity is calculated as 0/0. -/
theorem C84_solves {ra rb : Vec3} {t1 t2 : Epoch} {dt : ℝ} (hdt : dt = (t2.value - t1.value) * 86400) (ht : 0 < dt)
    (hc : ra.cross rb ≠ ⟨0, 0, 0⟩) (hm : Spec.gaussM ra rb dt ≤ 1 / 10) (hl : 25 * Spec.gaussL ra rb < 16 * Spec.gaussM ra rb dt)
    {fuel : ℕ} (hf : 60 ≤ fuel) :
    ∃ r n : ℝ, 1 ≤ r ∧ r ≤ 113 / 100 ∧ Gauss.fOfNu r (Spec.gaussM ra rb dt) (Spec.gaussL ra rb) = .ok 0 ∧
      Gauss.solveNu (Spec.gaussM ra rb dt) (Spec.gaussL ra rb) fuel
        (Spec.gaussStart (Spec.gaussM ra rb dt) (Spec.gaussL ra rb) + 0.1)
        (Spec.gaussStart (Spec.gaussM ra rb dt) (Spec.gaussL ra rb)) = .ok n ∧
      |n - r| ≤ 3 / 2 * 1e-12 ∧
      ((∃ ce, Gauss.coesFromVectors fuel ra rb t1 t2 = .ok ce) ∨
       (Gauss.coesFromVectors fuel ra rb t1 t2 = .error .zeroDivision ∧ ra.magnitude ≠ rb.magnitude ∧
        ra.magnitude = ((ra.cross rb).magnitude * n) ^ 2 / (Earth.MU * dt ^ 2))) := by
  have hmu : (0 : ℝ) < Earth.MU := by norm_num [Earth.MU]
  have hsec : SECONDS_IN_DAY = 86400 := by norm_num [SECONDS_IN_DAY]
  obtain ⟨pl, hp⟩ := Gauss.plane_total hc
  obtain ⟨e0, hA, hr0, hB, hu, hu0, hoe, hea, hrb, hw, hsq, -, -, -⟩ := Gauss.plane_ok hp
  have hAm : pl.ra_mag = ra.magnitude := by
    simp only [Gauss.plane, bind_eq_ok, pure_eq_ok, Except.ok.injEq] at hp
    obtain ⟨_, -, _, -, rfl⟩ := hp; rfl
  have hBm : pl.rb_mag = rb.magnitude := by
    simp only [Gauss.plane, bind_eq_ok, pure_eq_ok, Except.ok.injEq] at hp
    obtain ⟨_, -, _, -, rfl⟩ := hp; rfl
  have hdot : ra.dot rb = pl.ra_mag * rb.dot pl.ea := by
    conv_lhs => rw [hea]
    rw [Vec3.dot_scaled_left, Vec3.dot_comm]
  have hbase : 0 < 2 * (ra.magnitude * rb.magnitude + ra.dot rb) := by
    rw [hdot, ← hAm, ← hBm]
    have : 0 < pl.rb_mag + rb.dot pl.ea := by
      have h1 : 0 < pl.r0_mag ^ 2 := by positivity
      by_contra h
      nlinarith
    nlinarith [mul_pos hA this]
  have hk : 0 < Spec.gaussK ra rb := sqrt_pos.mpr hbase
  have hk2 : Spec.gaussK ra rb ^ 2 = 2 * (ra.magnitude * rb.magnitude + ra.dot rb) := sq_sqrt hbase.le
  have hl0 := Gauss.L_nonneg hk
  obtain ⟨r, n, hr0', hr1, hroot, hsolve, hnr, -⟩ := Gauss.iteration hm hl0 hl fuel hf
  refine ⟨r, n, hr0', hr1, hroot, hsolve, hnr, ?_⟩
  norm_num at hnr
  obtain ⟨k1, k2⟩ := abs_le.mp hnr
  obtain ⟨tau, htau⟩ : ∃ tau, tau = sqrtNN Earth.MU * (t2.value - t1.value) * SECONDS_IN_DAY := ⟨_, rfl⟩
  have htau' : tau = √Earth.MU * dt := by rw [htau, hdt, hsec]; simp only [sqrtNN]; ring
  have htau2 : tau * tau = Earth.MU * dt ^ 2 := by
    rw [htau', ← sq, mul_pow, sq_sqrt hmu.le]
  have htp : tau ≠ 0 := by rw [htau']; have := sqrt_pos.mpr hmu; positivity
  have hMm : tau * tau / Spec.gaussK ra rb ^ 3 = Spec.gaussM ra rb dt := by rw [htau2]; rfl
  -- the ratio
  have hratio : Gauss.ratio fuel ra rb pl.ra_mag pl.rb_mag tau = .ok n := by
    rw [← hsolve]
    have e1 : tau * tau * (2 * (ra.magnitude * rb.magnitude + ra.dot rb)) ^ (-1.5 : ℝ) = Spec.gaussM ra rb dt := by
      rw [← hMm, ← hk2, ← rpow_natCast, ← rpow_mul hk.le, div_eq_mul_inv, ← rpow_natCast, ← rpow_neg hk.le]
      norm_num
    have e2 : √(2 * (ra.magnitude * rb.magnitude + ra.dot rb)) = Spec.gaussK ra rb := rfl
    have hmp := Gauss.m_pos hl0 hl
    have e3 : (ra.magnitude + rb.magnitude) / (2 * Spec.gaussK ra rb) - 0.5 = Spec.gaussL ra rb := by
      unfold Spec.gaussL; norm_num
    simp only [Gauss.ratio, hAm, hBm, pyPowNeg_ok hbase, ok_bind, pySqrt_ok hbase.le, e2, e1,
      pyDiv_ok (by positivity : 2 * Spec.gaussK ra rb ≠ 0), e3, pyDiv_ok (by positivity : Spec.gaussL ra rb + 5 / 6 ≠ 0)]
    rw [pySqrt_ok (by positivity)]
    rfl
  have hcoes : Gauss.coesFromVectors fuel ra rb t1 t2 = Gauss.elementsFromRatio t1 pl rb n tau := by
    simp only [Gauss.coesFromVectors, hp, ok_bind, ← htau, hratio]
  obtain ⟨hw0, hw1⟩ := Gauss.omega_mem hm hl0 hl (n := n) (by linarith) (by linarith)
  have hL : (pl.ra_mag + pl.rb_mag) / (2 * Spec.gaussK ra rb) - 1 / 2 = Spec.gaussL ra rb := by rw [hAm, hBm]; rfl
  rw [hcoes]
  rcases Gauss.elements_total (epoch := t1) hA hB hr0 hsq htp (by linarith : n ≠ 0) hk
      (by rw [hk2, hdot, hAm, hBm]) (by rw [hMm, hL]; exact hw0) (by rw [hMm, hL]; linarith) with h | ⟨h1, h2, h3⟩
  · exact .inl h
  · refine .inr ⟨h1, by rw [← hAm, ← hBm]; exact h3, ?_⟩
    have hcm : (ra.cross rb).magnitude = pl.ra_mag * pl.r0_mag := by
      apply Vec3.magnitude_of_dot (by positivity)
      generalize rb.dot pl.ea = q at hrb
      rw [hea, hrb]
      simp only [Vec3.dot, Vec3.cross, Vec3.scaled, Vec3.plus] at hu hu0 hoe ⊢
      have hx : (pl.ea.x * pl.ea.x + pl.ea.y * pl.ea.y + pl.ea.z * pl.ea.z) * (e0.x * e0.x + e0.y * e0.y + e0.z * e0.z) -
        (pl.ea.x * e0.x + pl.ea.y * e0.y + pl.ea.z * e0.z) ^ 2 = 1 := by rw [hu, hu0, hoe]; ring
      linear_combination pl.ra_mag ^ 2 * pl.r0_mag ^ 2 * hx
    rw [hcm, ← htau2, ← sq, ← div_pow, ← hAm, h2]

/-- **C84**, second part.  Elements returned for such a pair pass through both positions, and the orbit goes from the first to the
second in the time between the observations, to 2.5 parts in 10¹². -/
theorem C84_accuracy {ra rb : Vec3} {t1 t2 : Epoch} {dt : ℝ} (hdt : dt = (t2.value - t1.value) * 86400) (ht : 0 < dt)
    (hq : ¬ (ra.z = 0 ∧ rb.z = 0)) (hc : ra.cross rb ≠ ⟨0, 0, 0⟩) (hm : Spec.gaussM ra rb dt ≤ 1 / 10)
    (hl : 25 * Spec.gaussL ra rb < 16 * Spec.gaussM ra rb dt) {fuel : ℕ} (hf : 60 ≤ fuel) {ce : ClassicalElements}
    (h : Gauss.coesFromVectors fuel ra rb t1 t2 = .ok ce) :
    ∃ nua nub Ea Eb tof : ℝ, Spec.orbitPoint ce nua = ra ∧ Spec.orbitPoint ce nub = rb ∧
      Spec.IsEccentricAnomaly ce.eccentricity nua Ea ∧ Spec.IsEccentricAnomaly ce.eccentricity nub Eb ∧
      ce.mean_anomaly = Ea - ce.eccentricity * sin Ea ∧ Ea < Eb ∧ Eb < Ea + 2 * π ∧
      (Eb - ce.eccentricity * sin Eb) - (Ea - ce.eccentricity * sin Ea) = √(Earth.MU / ce.semimajor_axis ^ 3) * tof ∧
      |tof - dt| ≤ 25 / 10 * 1e-12 * dt := by
  have hk : 0 < Spec.gaussK ra rb := by
    by_contra hk
    have : Spec.gaussK ra rb = 0 := le_antisymm (not_lt.mp hk) (sqrt_nonneg _)
    simp only [Spec.gaussM, Spec.gaussL, this] at hl
    norm_num at hl
    have hd : ra.magnitude * rb.magnitude + ra.dot rb ≤ 0 := by
      have := sqrt_eq_zero'.mp this; linarith
    -- then the positions are opposite
    apply hc
    have hcs : (ra.cross rb).dot (ra.cross rb) = (ra.magnitude * rb.magnitude) ^ 2 - (ra.dot rb) ^ 2 := by
      rw [mul_pow, Vec3.magnitude_sq_dot, Vec3.magnitude_sq_dot]
      simp only [Vec3.dot, Vec3.cross]; ring
    have h1 : 0 ≤ ra.magnitude * rb.magnitude := mul_nonneg (Vec3.magnitude_nonneg _) (Vec3.magnitude_nonneg _)
    have h2 : (ra.cross rb).magnitude ^ 2 ≤ 0 := by
      rw [Vec3.magnitude_sq_dot, hcs]; nlinarith
    exact Vec3.magnitude_eq_zero.mp (pow_eq_zero_iff two_ne_zero |>.mp (le_antisymm h2 (sq_nonneg _)))
  obtain ⟨r, n', hr0, hr1, -, hs', hnr, y', hy', hyb⟩ := Gauss.iteration hm (Gauss.L_nonneg hk) hl fuel hf
  obtain ⟨nua, nub, Ea, Eb, n, y, h1, h2, h3, h4, h5, h6, h7, hn, hs, hy, hT⟩ := C83_time_of_flight h hdt ht hq
  rw [hs', Except.ok.injEq] at hs
  subst hs
  rw [hy', Except.ok.injEq] at hy
  subst hy
  norm_num at hnr hyb
  obtain ⟨k1, k2⟩ := abs_le.mp hnr
  have hnp : 0 < n' := by linarith
  rw [abs_of_pos hnp] at hT
  refine ⟨nua, nub, Ea, Eb, dt * (n' + y') / n', h1, h2, h3, h4, h5, h6, h7, ?_, ?_⟩
  · rw [← h5]
    apply mul_left_cancel₀ hn
    rw [hT]; field_simp
  · have e : dt * (n' + y') / n' - dt = y' / n' * dt := by field_simp; ring
    rw [e, abs_mul, abs_of_pos ht]
    apply mul_le_mul_of_nonneg_right _ ht.le
    rw [abs_div, abs_of_pos hnp, div_le_iff₀ hnp]
    norm_num
    linarith

/-- a pair of positions 45 degrees apart at 7000 km, seen 700 s apart: the method returns elements -/
theorem quarter_transfer : ∃ (ra rb : Vec3) (dt : ℝ), 0 < dt ∧ ¬ (ra.z = 0 ∧ rb.z = 0) ∧ ra.cross rb ≠ ⟨0, 0, 0⟩ ∧
    Spec.gaussM ra rb dt ≤ 1 / 10 ∧ 25 * Spec.gaussL ra rb < 16 * Spec.gaussM ra rb dt ∧
    ∃ ce, Gauss.coesFromVectors 60 ra rb ⟨0⟩ ⟨dt / 86400⟩ = .ok ce := by
  have ha : (⟨7000, 0, 0⟩ : Vec3).magnitude = 7000 := Vec3.magnitude_of_dot (by norm_num) (by simp only [Vec3.dot]; norm_num)
  have hb : (⟨7000 * (119 / 169), 0, 7000 * (120 / 169)⟩ : Vec3).magnitude = 7000 :=
    Vec3.magnitude_of_dot (by norm_num) (by simp only [Vec3.dot]; norm_num)
  have hk : Spec.gaussK ⟨7000, 0, 0⟩ ⟨7000 * (119 / 169), 0, 7000 * (120 / 169)⟩ = 7000 * (24 / 13) := by
    unfold Spec.gaussK
    rw [ha, hb]
    rw [show 2 * (7000 * 7000 + (⟨7000, 0, 0⟩ : Vec3).dot ⟨7000 * (119 / 169), 0, 7000 * (120 / 169)⟩) = (7000 * (24 / 13)) ^ 2 by
      simp only [Vec3.dot]; norm_num]
    exact sqrt_sq (by norm_num)
  have hc : (⟨7000, 0, 0⟩ : Vec3).cross ⟨7000 * (119 / 169), 0, 7000 * (120 / 169)⟩ ≠ ⟨0, 0, 0⟩ := by
    simp only [Vec3.cross, ne_eq, Vec3.mk.injEq]; norm_num
  have hm : Spec.gaussM ⟨7000, 0, 0⟩ ⟨7000 * (119 / 169), 0, 7000 * (120 / 169)⟩ 700 ≤ 1 / 10 := by
    unfold Spec.gaussM; rw [hk]; norm_num [Earth.MU]
  have hl : 25 * Spec.gaussL ⟨7000, 0, 0⟩ ⟨7000 * (119 / 169), 0, 7000 * (120 / 169)⟩ <
      16 * Spec.gaussM ⟨7000, 0, 0⟩ ⟨7000 * (119 / 169), 0, 7000 * (120 / 169)⟩ 700 := by
    unfold Spec.gaussM Spec.gaussL; rw [hk, ha, hb]; norm_num [Earth.MU]
  refine ⟨⟨7000, 0, 0⟩, ⟨7000 * (119 / 169), 0, 7000 * (120 / 169)⟩, 700, by norm_num, by norm_num, hc, hm, hl, ?_⟩
  obtain ⟨r, n, -, -, -, -, -, h | ⟨-, h, -⟩⟩ := C84_solves (t1 := ⟨0⟩) (t2 := ⟨700 / 86400⟩) (dt := 700) (by norm_num) (by norm_num)
    hc hm hl (fuel := 60) le_rfl
  · exact h
  · rw [ha, hb] at h; exact absurd rfl h

end Openspace
