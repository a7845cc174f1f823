import Verif.Props.GaussIteration
import Verif.Spec.Gauss

/-!
# C83: the time of flight of the orbit found by the Gauss method
-/

namespace Openspace

open Real

namespace Gauss

/-- every true anomaly has an eccentric anomaly in any given turn -/
theorem exists_eccentric {e : ℝ} (he0 : 0 ≤ e) (he1 : e < 1) (nu E0 : ℝ) :
    ∃ E, Spec.IsEccentricAnomaly e nu E ∧ E0 ≤ E ∧ E < E0 + 2 * π := by
  have hr1 : 0 < 1 + e * cos nu := by nlinarith [neg_one_le_cos nu]
  obtain ⟨b, hb⟩ : ∃ b, b = √(1 - e ^ 2) := ⟨_, rfl⟩
  have hb2 : b ^ 2 = 1 - e ^ 2 := by rw [hb, sq_sqrt (by nlinarith)]
  obtain ⟨E, hE⟩ : ∃ E, E = pyAtan2 (b * sin nu) (cos nu + e) := ⟨_, rfl⟩
  have hnn : √((cos nu + e) * (cos nu + e) + b * sin nu * (b * sin nu)) = 1 + e * cos nu := by
    rw [show (cos nu + e) * (cos nu + e) + b * sin nu * (b * sin nu) = (1 + e * cos nu) ^ 2 by
      linear_combination (sin nu) ^ 2 * hb2 + (1 - e ^ 2) * sin_sq_add_cos_sq nu]
    exact sqrt_sq hr1.le
  have h1 := mul_cos_atan2 (b * sin nu) (cos nu + e)
  have h2 := mul_sin_atan2 (b * sin nu) (cos nu + e)
  rw [hnn, ← hE] at h1 h2
  have hm := toIcoMod_mem_Ico two_pi_pos E0 E
  have he : toIcoMod two_pi_pos E0 E = E + 2 * π * ((-toIcoDiv two_pi_pos E0 E : ℤ) : ℝ) := by
    rw [← self_sub_toIcoDiv_zsmul, zsmul_eq_mul]; push_cast; ring
  refine ⟨toIcoMod two_pi_pos E0 E, ⟨?_, ?_⟩, hm.1, hm.2⟩
  · rw [he, cos_turn]; exact h1
  · rw [he, sin_turn, ← hb]; exact h2

/-- Gauss's two equations: for two points of an ellipse whose eccentric anomalies differ by `2 G`, the number `m / n² - l` is
`sin² (G / 2)`, and Kepler's equation is `n - 1 = (m / n²) (2 G - sin 2 G) / sin³ G` -/
theorem gauss_equations {a e nu d Ea Eb A B k tau n : ℝ} (ha : 0 < a) (he0 : 0 ≤ e) (he1 : e < 1)
    (hEa : Spec.IsEccentricAnomaly e nu Ea) (hEb : Spec.IsEccentricAnomaly e (nu + d) Eb)
    (h1 : Ea ≤ Eb) (h2 : Eb < Ea + 2 * π)
    (hA : A * (1 + e * cos nu) = a * (1 - e ^ 2)) (hB : B * (1 + e * cos (nu + d)) = a * (1 - e ^ 2))
    (hd : 0 < sin d) (hk : 0 < k) (hk2 : k ^ 2 = 2 * (A * B * (1 + cos d))) (ht : 0 < tau) (hn : n ≠ 0)
    (hp : a * (1 - e ^ 2) = (A * B * sin d * n / tau) ^ 2) :
    ∃ G, 0 < G ∧ G < π ∧ Eb = Ea + 2 * G ∧
      tau * tau / k ^ 3 / n ^ 2 - ((A + B) / (2 * k) - 1 / 2) = sin (G / 2) ^ 2 ∧
      tau * tau / k ^ 3 / n ^ 2 = a * sin G ^ 2 / k ∧
      (Eb - e * sin Eb) - (Ea - e * sin Ea) = 2 * G - sin (2 * G) + k * sin G / a ∧
      |n| * (k * sin G / a) = √(1 / a ^ 3) * tau := by
  obtain ⟨b, hb⟩ : ∃ b, b = √(1 - e ^ 2) := ⟨_, rfl⟩
  have hepos : 0 < 1 - e ^ 2 := by nlinarith
  have hbp : 0 < b := hb ▸ sqrt_pos.mpr hepos
  have hb2 : b ^ 2 = 1 - e ^ 2 := by rw [hb, sq_sqrt hepos.le]
  obtain ⟨ca1, sa1⟩ := hEa
  obtain ⟨cb1, sb1⟩ := hEb
  rw [← hb] at sa1 sb1
  have hra : 0 < 1 + e * cos nu := by nlinarith [neg_one_le_cos nu]
  have hrb : 0 < 1 + e * cos (nu + d) := by nlinarith [neg_one_le_cos (nu + d)]
  -- positions in terms of the eccentric anomaly
  have key : ∀ {v E r : ℝ}, 0 < 1 + e * cos v → (1 + e * cos v) * cos E = cos v + e → (1 + e * cos v) * sin E = b * sin v →
      r * (1 + e * cos v) = a * (1 - e ^ 2) →
      r = a * (1 - e * cos E) ∧ r * cos v = a * (cos E - e) ∧ r * sin v = a * b * sin E := by
    intro v E r hv hc hs hr
    refine ⟨?_, ?_, ?_⟩
    · apply mul_right_cancel₀ hv.ne'
      linear_combination hr + a * e * hc
    · apply mul_right_cancel₀ hv.ne'
      linear_combination cos v * hr - a * hc
    · apply mul_right_cancel₀ (mul_pos hbp hv).ne'
      linear_combination b * sin v * hr - a * b ^ 2 * hs - a * b * sin v * hb2
  obtain ⟨a1, a2, a3⟩ := key hra ca1 sa1 hA
  obtain ⟨b1, b2, b3⟩ := key hrb cb1 sb1 hB
  obtain ⟨G, hG⟩ : ∃ G, G = (Eb - Ea) / 2 := ⟨_, rfl⟩
  obtain ⟨F, hF⟩ : ∃ F, F = (Ea + Eb) / 2 := ⟨_, rfl⟩
  have eEa : Ea = F - G := by rw [hF, hG]; ring
  have eEb : Eb = F + G := by rw [hF, hG]; ring
  have hcd : A * B * cos d = (A * cos nu) * (B * cos (nu + d)) + (A * sin nu) * (B * sin (nu + d)) := by
    rw [cos_add, sin_add]
    linear_combination (-(A * B * cos d)) * sin_sq_add_cos_sq nu
  have hsd : A * B * sin d = (A * cos nu) * (B * sin (nu + d)) - (A * sin nu) * (B * cos (nu + d)) := by
    rw [cos_add, sin_add]
    linear_combination (-(A * B * sin d)) * sin_sq_add_cos_sq nu
  rw [a2, a3, b2, b3] at hcd hsd
  rw [eEa] at a1 hcd hsd
  rw [eEb] at b1 hcd hsd
  rw [cos_sub] at a1
  rw [cos_add] at b1
  rw [cos_sub, cos_add, sin_sub, sin_add] at hcd hsd
  have hsG0 := sin_sq_add_cos_sq G
  have hsF0 := sin_sq_add_cos_sq F
  have hsd' : A * B * sin d = 2 * a ^ 2 * b * sin G * (cos G - e * cos F) := by
    rw [hsd]
    linear_combination (2 * a ^ 2 * b * sin G * cos G) * hsF0
  have hApos : 0 < A := by
    have : 0 < A * (1 + e * cos nu) := by rw [hA]; positivity
    exact (pos_iff_pos_of_mul_pos this).mpr hra
  have hBpos : 0 < B := by
    have : 0 < B * (1 + e * cos (nu + d)) := by rw [hB]; positivity
    exact (pos_iff_pos_of_mul_pos this).mpr hrb
  have hprod : 0 < A * B * sin d := by positivity
  have hG0 : 0 ≤ G := by rw [hG]; linarith
  have hGpi : G < π := by rw [hG]; linarith
  have hGpos : 0 < G := by
    rcases hG0.lt_or_eq with h | h
    · exact h
    · rw [hsd', ← h, sin_zero] at hprod; simp at hprod
  have hsG : 0 < sin G := sin_pos_of_pos_of_lt_pi hGpos hGpi
  have hcpos : 0 < cos G - e * cos F := by
    rw [hsd'] at hprod
    exact (pos_iff_pos_of_mul_pos hprod).mp (by positivity)
  have hk' : k = 2 * a * (cos G - e * cos F) := by
    have h2 : k ^ 2 = (2 * a * (cos G - e * cos F)) ^ 2 := by
      have e1 : A * B = a ^ 2 * ((1 - e * (cos F * cos G + sin F * sin G)) * (1 - e * (cos F * cos G - sin F * sin G))) := by
        rw [a1, b1]; ring
      have e2 : k ^ 2 = 2 * (A * B) + 2 * (A * B * cos d) := by rw [hk2]; ring
      rw [e2, hcd, e1]
      have hF2 : sin F ^ 2 = 1 - cos F ^ 2 := by linarith
      have hG2 : sin G ^ 2 = 1 - cos G ^ 2 := by linarith
      ring_nf
      simp only [hF2, hG2, hb2]
      ring
    have h3 : 0 < 2 * a * (cos G - e * cos F) := by positivity
    exact (pow_left_inj₀ hk.le h3.le two_ne_zero).mp h2
  have hkne := hk.ne'
  have hane := ha.ne'
  have htne := ht.ne'
  have hmn : tau * tau / k ^ 3 / n ^ 2 = a * sin G ^ 2 / k := by
    have e1 : (A * B * sin d) ^ 2 = a ^ 2 * (1 - e ^ 2) * sin G ^ 2 * k ^ 2 := by
      rw [hsd', hk']; linear_combination 4 * a ^ 4 * sin G ^ 2 * (cos G - e * cos F) ^ 2 * hb2
    have e2 : a * (1 - e ^ 2) * tau ^ 2 = (A * B * sin d) ^ 2 * n ^ 2 := by
      rw [hp]; field_simp
    rw [e1] at e2
    have e3 : tau ^ 2 = a * sin G ^ 2 * k ^ 2 * n ^ 2 := by
      apply mul_left_cancel₀ (mul_pos ha hepos).ne'
      linear_combination e2
    rw [← sq, e3]
    field_simp
  have hgeo : a * sin G ^ 2 / k - ((A + B) / (2 * k) - 1 / 2) = sin (G / 2) ^ 2 := by
    have hhalf : cos G = 1 - 2 * sin (G / 2) ^ 2 := by
      have := cos_two_mul (G / 2)
      rw [show 2 * (G / 2) = G by ring] at this
      rw [this]; linear_combination 2 * sin_sq_add_cos_sq (G / 2)
    have e1 : sin (G / 2) ^ 2 = (1 - cos G) / 2 := by linarith
    have e2 : A + B = 2 * a * (1 - e * cos F * cos G) := by rw [a1, b1]; ring
    rw [e1, e2]
    field_simp
    rw [hk']
    linear_combination 2 * a * hsG0
  refine ⟨G, hGpos, hGpi, by rw [hG]; ring, by rw [hmn, hgeo], hmn, ?_, ?_⟩
  · rw [eEa, eEb, sin_add, sin_sub, sin_two_mul, hk']
    field_simp
    ring
  · have e3 : (|n| * (k * sin G / a)) ^ 2 = (√(1 / a ^ 3) * tau) ^ 2 := by
      rw [mul_pow, mul_pow (√(1 / a ^ 3)), sq_sqrt (by positivity), sq_abs]
      have hne : n ^ 2 ≠ 0 := pow_ne_zero 2 hn
      field_simp at hmn ⊢
      linear_combination -hmn
    exact (pow_left_inj₀ (by positivity) (by positivity) two_ne_zero).mp e3

/-- `w_of_omega` at `sin² (G / 2)` -/
theorem wOfOmega_half {G : ℝ} (h0 : 0 < G) (h1 : G < π) :
    wOfOmega (sin (G / 2) ^ 2) = .ok ((2 * G - sin (2 * G)) / (sin G * sin G * sin G)) := by
  have hs : 0 < sin (G / 2) := sin_pos_of_pos_of_lt_pi (by linarith) (by linarith)
  have hsG := sin_pos_of_pos_of_lt_pi h0 h1
  have h2 : √(sin (G / 2) ^ 2) = sin (G / 2) := sqrt_sq hs.le
  have h3 : arcsin (sin (G / 2)) = G / 2 := arcsin_sin (by linarith) (by linarith)
  simp only [wOfOmega, pySqrt_ok (sq_nonneg _), h2, ok_bind, pyAsin_ok (neg_one_le_sin _) (sin_le_one _), h3, pySin,
    show 2 * (G / 2) = G by ring]
  exact pyDiv_ok (by positivity)

/-- the numbers `m` and `l` handed to the iteration -/
theorem ratio_ok {fuel : Nat} {ra rb : Vec3} {A B tau n : ℝ} (h : ratio fuel ra rb A B tau = .ok n) :
    ∃ k n0, 0 < k ∧ k ^ 2 = 2 * (A * B + ra.dot rb) ∧
      n0 = 12 / 22 + 10 / 22 * √(1 + (44 / 9) * (tau * tau / k ^ 3 / ((A + B) / (2 * k) - 1 / 2 + 5 / 6))) ∧
      solveNu (tau * tau / k ^ 3) ((A + B) / (2 * k) - 1 / 2) fuel (n0 + 0.1) n0 = .ok n := by
  simp only [ratio, bind_eq_ok, pyPowNeg_eq_ok, pySqrt_eq_ok, pyDiv_eq_ok] at h
  obtain ⟨pw, ⟨hb, hpw⟩, k, ⟨-, hk⟩, lq, ⟨-, hlq⟩, mq, ⟨-, hmq⟩, sq, ⟨-, hsq⟩, h⟩ := h
  have hkp : 0 < k := hk ▸ sqrt_pos.mpr hb
  have hk2 : k ^ 2 = 2 * (A * B + ra.dot rb) := by rw [← hk, sq_sqrt hb.le]
  have e1 : tau * tau * pw = tau * tau / k ^ 3 := by
    rw [← hpw, ← hk2, ← rpow_natCast, ← rpow_mul hkp.le, div_eq_mul_inv, ← rpow_natCast, ← rpow_neg hkp.le]
    norm_num
  have e2 : lq - 0.5 = (A + B) / (2 * k) - 1 / 2 := by rw [← hlq]; norm_num
  rw [e1, e2] at h hmq
  exact ⟨k, _, hkp, hk2, by rw [hmq, hsq], h⟩

end Gauss

/-- the sector-to-triangle ratio the program works with -/
theorem Gauss.ratio_gives {fuel : Nat} {ra rb : Vec3} {dt n : ℝ}
    (h : Gauss.ratio fuel ra rb ra.magnitude rb.magnitude (√Earth.MU * dt) = .ok n) :
    Gauss.solveNu (Spec.gaussM ra rb dt) (Spec.gaussL ra rb) fuel
      (Spec.gaussStart (Spec.gaussM ra rb dt) (Spec.gaussL ra rb) + 0.1)
      (Spec.gaussStart (Spec.gaussM ra rb dt) (Spec.gaussL ra rb)) = .ok n := by
  have hmu : (0 : ℝ) < Earth.MU := by norm_num [Earth.MU]
  obtain ⟨k, n0, hk, hk2, rfl, hs⟩ := Gauss.ratio_ok h
  have hk' : k = Spec.gaussK ra rb := by rw [Spec.gaussK, ← hk2, sqrt_sq hk.le]
  have ht : √Earth.MU * dt * (√Earth.MU * dt) = Earth.MU * dt ^ 2 := by
    linear_combination dt ^ 2 * (mul_self_sqrt hmu.le)
  rw [ht, hk'] at hs
  exact hs

/-- **C83**. Two observations `dt` seconds apart; the method returned the elements `ce` after its iteration returned `n` for the
auxiliary numbers `m`, `l` of the two positions.  The orbit goes from the first position (mean anomaly as returned) to the second
within one revolution, and at the rate `√(mu / a³)` of Kepler's third law this takes exactly `dt (n + f(n)) / |n|` seconds. -/
theorem C83_time_of_flight {fuel : Nat} {ra rb : Vec3} {t1 t2 : Epoch} {ce : ClassicalElements} {dt : ℝ}
    (h : Gauss.coesFromVectors fuel ra rb t1 t2 = .ok ce) (hdt : dt = (t2.value - t1.value) * 86400) (ht : 0 < dt)
    (hq : ¬ (ra.z = 0 ∧ rb.z = 0)) :
    ∃ nua nub Ea Eb n y : ℝ, Spec.orbitPoint ce nua = ra ∧ Spec.orbitPoint ce nub = rb ∧
      Spec.IsEccentricAnomaly ce.eccentricity nua Ea ∧ Spec.IsEccentricAnomaly ce.eccentricity nub Eb ∧
      ce.mean_anomaly = Ea - ce.eccentricity * sin Ea ∧ Ea < Eb ∧ Eb < Ea + 2 * π ∧ n ≠ 0 ∧
      Gauss.solveNu (Spec.gaussM ra rb dt) (Spec.gaussL ra rb) fuel
        (Spec.gaussStart (Spec.gaussM ra rb dt) (Spec.gaussL ra rb) + 0.1)
        (Spec.gaussStart (Spec.gaussM ra rb dt) (Spec.gaussL ra rb)) = .ok n ∧
      Gauss.fOfNu n (Spec.gaussM ra rb dt) (Spec.gaussL ra rb) = .ok y ∧
      |n| * ((Eb - ce.eccentricity * sin Eb) - ce.mean_anomaly) =
        √(Earth.MU / ce.semimajor_axis ^ 3) * dt * (n + y) := by
  simp only [Gauss.coesFromVectors, bind_eq_ok] at h
  obtain ⟨pl, hp, n, hn, he⟩ := h
  have hmu : (0 : ℝ) < Earth.MU := by norm_num [Earth.MU]
  have hsec : SECONDS_IN_DAY = 86400 := by norm_num [SECONDS_IN_DAY]
  obtain ⟨tau, htau⟩ : ∃ tau, tau = sqrtNN Earth.MU * (t2.value - t1.value) * SECONDS_IN_DAY := ⟨_, rfl⟩
  rw [← htau] at hn he
  have htau' : tau = √Earth.MU * dt := by rw [htau, hdt, hsec]; simp only [sqrtNN]; ring
  have htp : 0 < tau := by
    rw [htau']; have := sqrt_pos.mpr hmu
    positivity
  have htau2 : tau * tau = Earth.MU * dt ^ 2 := by
    rw [htau', ← sq, mul_pow, sq_sqrt hmu.le]
  obtain ⟨e0, hA, hr0, hB, hu, -, -, hea, -, -, -, -, -, -⟩ := Gauss.plane_ok hp
  have hAm : pl.ra_mag = ra.magnitude := by
    simp only [Gauss.plane, bind_eq_ok, pure_eq_ok, Except.ok.injEq] at hp
    obtain ⟨_, -, _, -, rfl⟩ := hp; rfl
  have hBm : pl.rb_mag = rb.magnitude := by
    simp only [Gauss.plane, bind_eq_ok, pure_eq_ok, Except.ok.injEq] at hp
    obtain ⟨_, -, _, -, rfl⟩ := hp; rfl
  obtain ⟨he0, he1, -, nua, d, pa, pb, ⟨Ea, hEa, hM⟩, hcd, hsd, hP, hPa, hPb, hPp⟩ := Gauss.through hp he hq
  obtain ⟨k, -, hk, hk2, -, -⟩ := Gauss.ratio_ok hn
  obtain ⟨Eb, hEb, hE1, hE2⟩ := Gauss.exists_eccentric he0 he1 (nua + d) Ea
  have hepos : 0 < 1 - ce.eccentricity ^ 2 := by nlinarith
  have hsma : 0 < ce.semimajor_axis := by
    have := hP.symm ▸ hPp
    exact (pos_iff_pos_of_mul_pos this).mpr hepos
  have hn0 : n ≠ 0 := by
    rintro rfl
    simp at hPp
  have hdot : ra.dot rb = pl.ra_mag * pl.rb_mag * cos d := by
    rw [mul_assoc, hcd]
    conv_lhs => rw [hea]
    rw [Vec3.dot_scaled_left, Vec3.dot_comm]
  have hsin : 0 < sin d := by
    have : 0 < pl.rb_mag * sin d := by rw [hsd]; exact hr0
    exact (pos_iff_pos_of_mul_pos this).mp hB
  obtain ⟨G, hG0, hG1, hEbG, hw, hmn, hkep, hrate⟩ := Gauss.gauss_equations (A := pl.ra_mag) (B := pl.rb_mag) (k := k)
    (tau := tau) (n := n) hsma he0 he1 hEa hEb hE1 hE2 (by rw [hPa, hP]) (by rw [hPb, hP]) hsin hk (by rw [hk2, hdot]; ring)
    htp hn0 (by rw [hP, ← hsd]; ring)
  have hsG := sin_pos_of_pos_of_lt_pi hG0 hG1
  have hf : Gauss.fOfNu n (tau * tau / k ^ 3) ((pl.ra_mag + pl.rb_mag) / (2 * k) - 1 / 2) =
      .ok (1 - n + ce.semimajor_axis * sin G ^ 2 / k * ((2 * G - sin (2 * G)) / (sin G * sin G * sin G))) := by
    have e : pyDiv (tau * tau / k ^ 3) (n * n) = .ok (tau * tau / k ^ 3 / n ^ 2) := by
      rw [pyDiv_ok (mul_ne_zero hn0 hn0), sq n]
    simp only [Gauss.fOfNu, e, ok_bind, hw, Gauss.wOfOmega_half hG0 hG1]
    rw [hmn]; rfl
  have hk' : k = Spec.gaussK ra rb := by rw [Spec.gaussK, ← hAm, ← hBm, ← hk2, sqrt_sq hk.le]
  rw [hAm, hBm, htau2, hk'] at hf
  rw [hAm, hBm, htau'] at hn
  refine ⟨nua, nua + d, Ea, Eb, n, _, pa, pb, hEa, hEb, hM, by rw [hEbG]; linarith, hE2, hn0, Gauss.ratio_gives hn, hf, ?_⟩
  · rw [hM, hkep, ← hk']
    have hr : √(Earth.MU / ce.semimajor_axis ^ 3) * dt = |n| * (k * sin G / ce.semimajor_axis) := by
      rw [hrate, htau', div_eq_mul_one_div, sqrt_mul hmu.le]; ring
    rw [hr]
    have := hsma.ne'
    have := hk.ne'
    have := hsG.ne'
    field_simp
    ring

end Openspace
