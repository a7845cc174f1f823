import Verif.Props.GaussIteration
import Verif.Props.Frames

/-!
# C57, C59: concrete executions of the Gauss method

The transfer angle is chosen so small that the first secant step already meets the tolerance.
-/

namespace Openspace

open Real

/-! ## The iteration for a small transfer angle -/

theorem wOfOmega_small {w : ℝ} (h0 : 0 < w) (h1 : w ≤ 1 / 100) :
    ∃ y, Gauss.wOfOmega w = .ok y ∧ 0 ≤ y ∧ y ≤ 5 / 2 := by
  have hs0 : 0 < √w := sqrt_pos.mpr h0
  have hs1 : √w ≤ 1 / 10 := by
    rw [sqrt_le_left (by norm_num)]; norm_num; linarith
  obtain ⟨g0, g1⟩ := two_arcsin_sin_pos h0 (by linarith)
  obtain ⟨g, hg⟩ : ∃ g, g = 2 * arcsin √w := ⟨_, rfl⟩
  have hg1 : g ≤ 1 := by
    have h2 := mul_le_sin (arcsin_nonneg.mpr hs0.le) (arcsin_le_pi_div_two √w)
    rw [sin_arcsin (by linarith) (by linarith)] at h2
    have hp := pi_lt_four
    have hpp := pi_pos
    have : 2 / π * arcsin √w * π = g := by rw [hg]; field_simp
    nlinarith
  rw [← hg] at g0 g1
  have hsin := sin_gt_sub_cube g0
  have hsin2 := sin_gt_sub_cube (by linarith : 0 < 2 * g)
  have hsin3 := sin_lt (by linarith : 0 < 2 * g)
  have hlow : 5 / 6 * g ≤ sin g := by nlinarith [mul_pos g0 g0]
  have hcube : (5 / 6 * g) ^ 3 ≤ sin g ^ 3 := pow_le_pow_left₀ (by positivity) hlow 3
  have hsp : 0 < sin g := by nlinarith
  have hc : 0 < sin g ^ 3 := by positivity
  refine ⟨(2 * g - sin (2 * g)) / (sin g * sin g * sin g), ?_, ?_, ?_⟩
  · simp only [Gauss.wOfOmega, pySqrt_ok h0.le, ok_bind, pyAsin_ok (by linarith : -1 ≤ √w) (by linarith), pySin, ← hg]
    rw [pyDiv_ok (by positivity)]
  · apply div_nonneg <;> nlinarith
  · rw [div_le_iff₀ (by positivity)]
    have h3 : 0 < g ^ 3 := by positivity
    nlinarith

theorem fOfNu_small {n m l : ℝ} (hn : 1 ≤ n) (hm : 0 ≤ m) (h0 : 0 < m / n ^ 2 - l) (h1 : m / n ^ 2 - l ≤ 1 / 100) :
    ∃ y, Gauss.fOfNu n m l = .ok (1 - n + y) ∧ 0 ≤ y ∧ y ≤ 5 / 2 * m := by
  obtain ⟨w, hw, hw0, hw1⟩ := wOfOmega_small h0 h1
  have hmn : m / n ^ 2 ≤ m := div_le_self hm (by nlinarith)
  have hmn0 : 0 ≤ m / n ^ 2 := by positivity
  refine ⟨m / n ^ 2 * w, ?_, by positivity, by nlinarith⟩
  rw [sq] at hw
  simp only [Gauss.fOfNu, pyDiv_ok (by positivity : n * n ≠ 0), ok_bind, sq, hw]; rfl

theorem solveNu_small {n m l : ℝ} (fuel : Nat) (hm : 0 ≤ m) (hm1 : m ≤ 1e-14) (hl : 0 ≤ l) (hn : 1 ≤ n)
    (hn1 : n ≤ 1 + 4 / 3 * m) (hlm : l < m / 1.22) :
    ∃ k, Gauss.solveNu m l (fuel + 1) (n + 0.1) n = .ok k ∧ |k - n| < 1e-12 := by
  norm_num at hm1
  have hw : ∀ x : ℝ, 1 ≤ x → x ≤ 1.1 + 4 / 3 * m → 0 < m / x ^ 2 - l ∧ m / x ^ 2 - l ≤ 1 / 100 := by
    intro x h1 h2
    have hx2 : x ^ 2 ≤ 1.22 := by norm_num at h2 ⊢; nlinarith
    have hx3 : 1 ≤ x ^ 2 := by nlinarith
    constructor
    · have : m / 1.22 ≤ m / x ^ 2 := div_le_div_of_nonneg_left hm (by positivity) hx2
      linarith
    · have : m / x ^ 2 ≤ m := div_le_self hm hx3
      linarith
  obtain ⟨hb0, hb1⟩ := hw n hn (by norm_num at hn1 ⊢; linarith)
  obtain ⟨ha0, ha1⟩ := hw (n + 0.1) (by norm_num; linarith) (by norm_num at hn1 ⊢; linarith)
  obtain ⟨yb, hyb, hyb0, hyb1⟩ := fOfNu_small hn hm hb0 hb1
  obtain ⟨ya, hya, hya0, hya1⟩ := fOfNu_small (by norm_num; linarith) hm ha0 ha1
  have hd : 0.09 < (1 - n + yb) - (1 - (n + 0.1) + ya) := by norm_num; linarith
  have hdne : (1 - n + yb) - (1 - (n + 0.1) + ya) ≠ 0 := by
    intro h; rw [h] at hd; norm_num at hd
  obtain ⟨c, hc⟩ : ∃ c, c = n - (1 - n + yb) * (n - (n + 0.1)) / ((1 - n + yb) - (1 - (n + 0.1) + ya)) := ⟨_, rfl⟩
  have hs : Gauss.secantStep m l (n + 0.1) n = .ok c := secantStep_eq_ok.mpr ⟨_, _, hyb, hya, hdne, hc⟩
  have hlt : |c - n| < 1e-12 := by
    rw [show c - n = (1 - n + yb) * 0.1 / ((1 - n + yb) - (1 - (n + 0.1) + ya)) by rw [hc]; ring, abs_div,
      abs_of_pos (by linarith : 0 < (1 - n + yb) - (1 - (n + 0.1) + ya)), div_lt_iff₀ (by linarith), abs_mul]
    have : |1 - n + yb| ≤ 4 * m := abs_le.mpr ⟨by linarith, by linarith⟩
    norm_num at hd ⊢
    nlinarith
  refine ⟨c, ?_, hlt⟩
  simp only [Gauss.solveNu, hs, ok_bind]
  rw [if_pos (show pyAbs (c - n) < Gauss.NU_TOLERANCE from hlt)]; rfl

/-- the ratio for two positions at distances `100²` and `s²` with half transfer angle `h` -/
theorem ratio_small {ra rb : Vec3} {s ch tau : ℝ} (fuel : Nat) (hs : 0 < s) (hc : 0 < ch)
    (hdot : ra.dot rb = 100 ^ 2 * s ^ 2 * (2 * ch ^ 2 - 1))
    (hm : tau * tau ≤ 1e-14 * (200 * s * ch) ^ 3) (hc1 : ch ≤ 1)
    (hlm : (100 ^ 2 + s ^ 2) / (400 * s * ch) - 1 / 2 < tau * tau / (200 * s * ch) ^ 3 / 1.22) :
    ∃ n, Gauss.ratio (fuel + 1) ra rb (100 ^ 2) (s ^ 2) tau = .ok n ∧ |n - 1| < 2e-12 := by
  have hb : 2 * (100 ^ 2 * s ^ 2 + ra.dot rb) = (200 * s * ch) ^ 2 := by rw [hdot]; ring
  have hpos : 0 < 200 * s * ch := by positivity
  obtain ⟨q, hq⟩ : ∃ q, q = 200 * s * ch := ⟨_, rfl⟩
  rw [← hq] at hb hpos hm hlm
  have hsq : √(q ^ 2) = q := sqrt_sq hpos.le
  have hpw : (q ^ 2) ^ (-(1.5 : ℝ)) = 1 / q ^ 3 := by
    rw [← rpow_natCast q 2, ← rpow_mul hpos.le]
    norm_num
    try rw [rpow_neg hpos.le]
    try rfl
  obtain ⟨m, hme⟩ : ∃ m, m = tau * tau * (1 / q ^ 3) := ⟨_, rfl⟩
  obtain ⟨l, hle⟩ : ∃ l, l = (100 ^ 2 + s ^ 2) / (2 * q) - 0.5 := ⟨_, rfl⟩
  have hm0 : 0 ≤ m := by rw [hme]; have := mul_self_nonneg tau; positivity
  have hm1 : m ≤ 1e-14 := by
    rw [hme, mul_one_div, div_le_iff₀ (by positivity)]; exact hm
  have hl0 : 0 ≤ l := by
    rw [hle, sub_nonneg, le_div_iff₀ (by positivity), hq]
    norm_num
    nlinarith [sq_nonneg (s - 100), mul_nonneg hs.le (sub_nonneg.mpr hc1)]
  have hlm' : l < m / 1.22 := by
    rw [hle, hme, mul_one_div]
    refine lt_of_eq_of_lt ?_ hlm
    rw [hq]; norm_num; ring
  obtain ⟨r, hr⟩ : ∃ r, r = √(1 + (44 / 9) * (m / (l + 5 / 6))) := ⟨_, rfl⟩
  have hml : m / (l + 5 / 6) ≤ 6 / 5 * m := by
    rw [div_le_iff₀ (by linarith)]
    nlinarith [mul_nonneg hm0 hl0]
  have hml0 : 0 ≤ m / (l + 5 / 6) := by positivity
  have hr1 : 1 ≤ r := by rw [hr, one_le_sqrt]; linarith
  have hr2 : r ≤ 1 + 44 / 15 * m := by
    rw [hr, sqrt_le_left (by positivity)]
    nlinarith [sq_nonneg m]
  obtain ⟨k, hk, hk1⟩ := solveNu_small (n := 12 / 22 + 10 / 22 * r) fuel hm0 hm1 hl0 (by linarith) (by linarith) hlm'
  refine ⟨k, ?_, ?_⟩
  · simp only [Gauss.ratio, hb, pyPowNeg, if_neg (pow_pos hpos 2).ne', if_neg (not_lt.mpr (pow_pos hpos 2).le), ok_bind, hpw,
      pySqrt_ok (pow_pos hpos 2).le, hsq, pyDiv_ok (by positivity : 2 * q ≠ 0), ← hme, ← hle,
      pyDiv_ok (by positivity : l + 5 / 6 ≠ 0), pySqrt_ok (by positivity : 0 ≤ 1 + (44 / 9) * (m / (l + 5 / 6))), ← hr, hk]
  · have := abs_lt.mp hk1
    norm_num at this hm1 ⊢
    rw [abs_lt]
    constructor <;> linarith

/-! ## Building blocks -/

theorem plane_mk {ea e0 : Vec3} {R r cd sd : ℝ} (h1 : ea.dot ea = 1) (h2 : e0.dot e0 = 1) (h3 : ea.dot e0 = 0)
    (hR : 0 < R) (hr : 0 < r) (hsd : 0 < sd) (hcs : cd ^ 2 + sd ^ 2 = 1) :
    ∃ pl, Gauss.plane (ea.scaled R) ((ea.scaled (r * cd)).plus (e0.scaled (r * sd))) = .ok pl ∧
      pl.ra_mag = R ∧ pl.rb_mag = r ∧ pl.ea = ea ∧ pl.r0_mag = r * sd ∧ pl.w = ea.cross e0 ∧
      ((ea.scaled (r * cd)).plus (e0.scaled (r * sd))).dot ea = r * cd := by
  have hma : (ea.scaled R).magnitude = R := Vec3.magnitude_of_dot hR.le (by
    rw [Vec3.dot_scaled_left, Vec3.dot_scaled_right, h1]; ring)
  have hea : (ea.scaled R).normalized = .ok ea := by
    refine Vec3.normalized_eq_ok.mpr ⟨?_, ?_⟩
    · intro h; rw [h] at hma
      have : (⟨0, 0, 0⟩ : Vec3).magnitude = 0 := Vec3.magnitude_of_dot le_rfl (by simp [Vec3.dot])
      linarith
    · rw [hma]; ext <;> simp only [Vec3.scaled] <;> field_simp
  have hdot : ((ea.scaled (r * cd)).plus (e0.scaled (r * sd))).dot ea = r * cd := by
    simp only [Vec3.dot, Vec3.plus, Vec3.scaled] at h1 h3 ⊢
    linear_combination r * cd * h1 + r * sd * h3
  have hmb : ((ea.scaled (r * cd)).plus (e0.scaled (r * sd))).magnitude = r := by
    refine Vec3.magnitude_of_dot hr.le ?_
    simp only [Vec3.dot, Vec3.plus, Vec3.scaled] at h1 h2 h3 ⊢
    linear_combination (r * cd) ^ 2 * h1 + (r * sd) ^ 2 * h2 + 2 * (r * cd) * (r * sd) * h3 + r ^ 2 * hcs
  have hr0 : ((ea.scaled (r * cd)).plus (e0.scaled (r * sd))).minus (ea.scaled (r * cd)) = e0.scaled (r * sd) := by
    ext <;> simp only [Vec3.plus, Vec3.minus, Vec3.scaled] <;> ring
  have hrs : 0 < r * sd := by positivity
  have hm0 : (e0.scaled (r * sd)).magnitude = r * sd := Vec3.magnitude_of_dot hrs.le (by
    rw [Vec3.dot_scaled_left, Vec3.dot_scaled_right, h2]; ring)
  have he0 : (e0.scaled (r * sd)).normalized = .ok e0 := by
    refine Vec3.normalized_eq_ok.mpr ⟨?_, ?_⟩
    · intro h; rw [h] at hm0
      have : (⟨0, 0, 0⟩ : Vec3).magnitude = 0 := Vec3.magnitude_of_dot le_rfl (by simp [Vec3.dot])
      linarith
    · rw [hm0]; ext <;> simp only [Vec3.scaled] <;> field_simp
  have key : ∃ u i o, Gauss.plane (ea.scaled R) ((ea.scaled (r * cd)).plus (e0.scaled (r * sd))) =
      .ok ⟨R, r, ea, r * sd, ea.cross e0, u, i, o⟩ := by
    simp only [Gauss.plane, hea, ok_bind, hdot, hr0, he0, hma, hmb, hm0]
    exact ⟨_, _, _, rfl⟩
  obtain ⟨u, i, o, key⟩ := key
  exact ⟨_, key, rfl, rfl, rfl, rfl, rfl, hdot⟩

theorem elements_exist {epoch : Epoch} {pl : Gauss.Plane} {rb : Vec3} {n tau p a : ℝ} (htau : tau ≠ 0)
    (hra : 0 < pl.ra_mag) (hrb : 0 < pl.rb_mag) (hr0 : 0 < pl.r0_mag)
    (hp : p = (pl.ra_mag * pl.r0_mag * n / tau) ^ 2) (ha : pl.ra_mag < p)
    (hs : a = ((p / pl.ra_mag - 1) * (rb.dot pl.ea / pl.rb_mag) - (p / pl.rb_mag - 1)) / (pl.r0_mag / pl.rb_mag))
    (he : (p / pl.ra_mag - 1) ^ 2 + a ^ 2 < 1) :
    ∃ ce, Gauss.elementsFromRatio epoch pl rb n tau = .ok ce ∧
      ce.argument_of_perigee = wrapNeg (pl.ua - wrapNeg (pyAtan2 a (p / pl.ra_mag - 1))) ∧
      ce.eccentricity ^ 2 = (p / pl.ra_mag - 1) ^ 2 + a ^ 2 ∧
      ce.semimajor_axis * (1 - ce.eccentricity ^ 2) = p ∧ ce.inclination = pl.inc ∧ ce.raan = pl.raan := by
  have hpp : pl.ra_mag * pl.r0_mag * n / tau * (pl.ra_mag * pl.r0_mag * n / tau) = p := by rw [hp]; ring
  have hx : 0 < p / pl.ra_mag - 1 := by rw [sub_pos, one_lt_div hra]; exact ha
  obtain ⟨x, hxe⟩ : ∃ x, x = p / pl.ra_mag - 1 := ⟨_, rfl⟩
  rw [← hxe] at hx hs he ⊢
  obtain ⟨N, hN⟩ : ∃ N, N = √(x * x + a * a) := ⟨_, rfl⟩
  have hN2 : N ^ 2 = x ^ 2 + a ^ 2 := by rw [hN, sq_sqrt (by nlinarith [mul_self_nonneg x, mul_self_nonneg a])]; ring
  have hN0 : 0 ≤ N := hN ▸ sqrt_nonneg _
  obtain ⟨ta, hta⟩ : ∃ ta, ta = wrapNeg (pyAtan2 a x) := ⟨_, rfl⟩
  have hc : N * cos ta = x := by rw [hN, hta, wrapNeg_cos]; exact mul_cos_atan2 a x
  have hcne : cos ta ≠ 0 := by rintro h; rw [h, mul_zero] at hc; linarith
  have hdiv : x / cos ta = N := by rw [← hc]; field_simp
  have hlt : 0 < 1 - N * N := by nlinarith
  have hqn : pl.r0_mag / pl.rb_mag ≠ 0 := by positivity
  have key : ∃ ma, Gauss.elementsFromRatio epoch pl rb n tau =
      .ok ⟨epoch, p / (1 - N * N), N, pl.inc, pl.raan, wrapNeg (pl.ua - ta), ma⟩ := by
    simp only [Gauss.elementsFromRatio, pyDiv_ok htau, ok_bind, hpp, pyDiv_ok hra.ne', pyDiv_ok hrb.ne', pyDiv_ok hqn,
      ← hxe, ← hs, ← hta, pyCos, pyDiv_ok hcne, hdiv, pyDiv_ok hlt.ne', pySqrt_ok hlt.le]
    exact ⟨_, rfl⟩
  obtain ⟨ma, key⟩ := key
  refine ⟨_, key, by rw [hta], hN2, ?_, rfl, rfl⟩
  simp only
  rw [sq]; exact div_mul_cancel₀ _ hlt.ne'

/-! ## Every inertial position can be observed -/

theorem exists_observation (t : Epoch) (w : Vec3) :
    ∃ ob : Observation, ob.epoch = t ∧ ob.ijkPosition = .ok w := by
  obtain ⟨v, hv⟩ := gcrfToIjk_surj t w
  let st : GCRF := GCRF.new t ⟨0, 0, 0⟩ ⟨0, 0, 0⟩
  refine ⟨.space (SpaceObservation.new st v 0 0), rfl, ?_⟩
  show PositionConvert.gcrfToIjk (Vec3.plus ⟨0, 0, 0⟩ v) t = _
  rw [show Vec3.plus ⟨0, 0, 0⟩ v = v by ext <;> simp [Vec3.plus]]
  exact hv

/-! ## A run of the whole method in any plane -/

theorem gauss_case {ea e0 : Vec3} (h1 : ea.dot ea = 1) (h2 : e0.dot e0 = 1) (h3 : ea.dot e0 = 0) (t1 : Epoch) :
    ∃ (rb : Vec3) (t2 : Epoch) (pl : Gauss.Plane) (ce : ClassicalElements) (x a : ℝ),
      Gauss.plane (ea.scaled 10000) rb = .ok pl ∧
      Gauss.coesFromVectors 1 (ea.scaled 10000) rb t1 t2 = .ok ce ∧ pl.w = ea.cross e0 ∧
      (∃ c : ℝ, 0 < c ∧ rb.dot e0 = c) ∧
      0.2 < x ∧ a < 0 ∧ -0.2 < a ∧ ce.argument_of_perigee = wrapNeg (pl.ua - wrapNeg (pyAtan2 a x)) ∧
      0 ≤ ce.eccentricity ∧ ce.eccentricity < 1 ∧ ce.eccentricity ^ 2 = x ^ 2 + a ^ 2 ∧
      ce.semimajor_axis * (1 - ce.eccentricity ^ 2) = 10000 * (1 + x) ∧
      ce.inclination = pl.inc ∧ ce.raan = pl.raan := by
  obtain ⟨ch, hch⟩ : ∃ ch : ℝ, ch = (1 - (1 / 40000000) ^ 2) / (1 + (1 / 40000000) ^ 2) := ⟨_, rfl⟩
  obtain ⟨sh, hsh⟩ : ∃ sh : ℝ, sh = 2 * (1 / 40000000) / (1 + (1 / 40000000) ^ 2) := ⟨_, rfl⟩
  obtain ⟨s, hs⟩ : ∃ s : ℝ, s = 199999999 / 2000000 := ⟨_, rfl⟩
  have hcs : ch ^ 2 + sh ^ 2 = 1 := by rw [hch, hsh]; norm_num
  have hch0 : 0 < ch := by rw [hch]; norm_num
  have hch1 : ch ≤ 1 := by rw [hch]; norm_num
  have hsh0 : 0 < sh := by rw [hsh]; norm_num
  have hs0 : 0 < s := by rw [hs]; norm_num
  obtain ⟨cd, hcd⟩ : ∃ cd, cd = 2 * ch ^ 2 - 1 := ⟨_, rfl⟩
  obtain ⟨sd, hsd⟩ : ∃ sd, sd = 2 * ch * sh := ⟨_, rfl⟩
  have hsd0 : 0 < sd := by rw [hsd]; positivity
  have hcds : cd ^ 2 + sd ^ 2 = 1 := by rw [hcd, hsd]; linear_combination (4 * ch ^ 2) * hcs
  obtain ⟨tau, htau⟩ : ∃ tau, tau = 10000 * (s ^ 2 * sd) / 110 := ⟨_, rfl⟩
  have htau0 : 0 < tau := by rw [htau]; positivity
  obtain ⟨pl, hpl, hra, hrb, hea, hr0, hw, hdot⟩ := plane_mk h1 h2 h3 (by norm_num : (0 : ℝ) < 10000)
    (by positivity : 0 < s ^ 2) hsd0 hcds
  obtain ⟨rb, hrbe⟩ : ∃ rb, rb = (ea.scaled (s ^ 2 * cd)).plus (e0.scaled (s ^ 2 * sd)) := ⟨_, rfl⟩
  rw [← hrbe] at hpl hdot
  have hmu : 0 < √Earth.MU := sqrt_pos.mpr (by norm_num [Earth.MU])
  obtain ⟨t2, ht2⟩ : ∃ t2 : Epoch, t2.value = t1.value + tau / (√Earth.MU * SECONDS_IN_DAY) := ⟨⟨_⟩, rfl⟩
  have hsid : (0 : ℝ) < SECONDS_IN_DAY := by norm_num [SECONDS_IN_DAY]
  have htaue : sqrtNN Earth.MU * (t2.value - t1.value) * SECONDS_IN_DAY = tau := by
    rw [ht2]
    show √Earth.MU * _ * _ = _
    field_simp
    ring
  obtain ⟨n, hn, hn1⟩ : ∃ n, Gauss.ratio (0 + 1) (ea.scaled 10000) rb (100 ^ 2) (s ^ 2) tau = .ok n ∧ |n - 1| < 2e-12 := by
    refine ratio_small (ch := ch) 0 hs0 hch0 ?_ ?_ hch1 ?_
    · rw [Vec3.dot_comm, Vec3.dot_scaled_right, hdot, hcd]; ring
    · rw [htau, hsd, hs, hch, hsh]; norm_num
    · rw [htau, hsd, hs, hch, hsh]; norm_num
  have hR : (100 : ℝ) ^ 2 = 10000 := by norm_num
  rw [hR] at hn
  obtain ⟨p, hp⟩ : ∃ p, p = (pl.ra_mag * pl.r0_mag * n / tau) ^ 2 := ⟨_, rfl⟩
  have hpn : p = 12100 * n ^ 2 := by
    rw [hp, hra, hr0, htau]; field_simp; ring
  obtain ⟨hn2, hn3⟩ := abs_lt.mp hn1
  have hn0 : 0.9999 < n := by norm_num at hn2 ⊢; linarith
  have hn4 : n < 1.0001 := by norm_num at hn3 ⊢; linarith
  have hp1 : 12090 < p := by rw [hpn]; norm_num at hn0; nlinarith
  have hp2 : p < 12110 := by rw [hpn]; norm_num at hn4; nlinarith
  obtain ⟨x, hx⟩ : ∃ x, x = p / pl.ra_mag - 1 := ⟨_, rfl⟩
  obtain ⟨a, ha⟩ : ∃ a, a = (x * (rb.dot pl.ea / pl.rb_mag) - (p / pl.rb_mag - 1)) / (pl.r0_mag / pl.rb_mag) := ⟨_, rfl⟩
  have hx1 : 0.209 < x := by rw [hx, hra]; norm_num; linarith
  have hx2 : x < 0.211 := by rw [hx, hra]; norm_num; linarith
  have ha' : a = -(x * (1 - cd) + p * (1 / s ^ 2 - 1 / 10000)) / sd := by
    rw [ha, hea, hdot, hrb, hr0, hx, hra]; field_simp; ring
  have hcd1 : 0 < 1 - cd := by rw [hcd, hch]; norm_num
  have hrr : 0 < 1 / s ^ 2 - 1 / 10000 := by rw [hs]; norm_num
  have ha1 : a < 0 := by
    rw [ha', neg_div, neg_neg_iff_pos]
    norm_num at hx1
    have : 0 < x := by linarith
    have : 0 < p := by linarith
    positivity
  have ha2 : -0.2 < a := by
    rw [ha', neg_div, neg_lt_neg_iff, div_lt_iff₀ hsd0]
    have e1 : 1 - cd ≤ 1e-7 * sd := by rw [hcd, hsd, hch, hsh]; norm_num
    have e2 : 1 / s ^ 2 - 1 / 10000 ≤ 1.1e-5 * sd := by rw [hsd, hs, hch, hsh]; norm_num
    have e3 : x * (1 - cd) ≤ 0.211 * (1e-7 * sd) := mul_le_mul hx2.le e1 hcd1.le (by norm_num)
    have e4 : p * (1 / s ^ 2 - 1 / 10000) ≤ 12110 * (1.1e-5 * sd) := mul_le_mul hp2.le e2 hrr.le (by norm_num)
    norm_num at e3 e4 ⊢
    linarith
  have he : x ^ 2 + a ^ 2 < 1 := by
    norm_num at hx1 hx2 ha2
    have e1 : x ^ 2 < 1 / 2 := by nlinarith only [hx1, hx2]
    have e2 : a ^ 2 < 1 / 2 := by nlinarith only [ha1, ha2]
    linarith only [e1, e2]
  obtain ⟨ce, hce, h4, h5, h6, h7, h8⟩ := elements_exist (epoch := t1) (pl := pl) (rb := rb) (n := n) (tau := tau) (p := p)
    (a := a) htau0.ne' (by rw [hra]; norm_num) (by rw [hrb]; positivity) (by rw [hr0]; positivity) hp
    (by rw [hra]; linarith) (by rw [← hx]; exact ha) (by rw [← hx]; exact he)
  rw [← hx] at h4 h5
  obtain ⟨_, _, _, _, g1, g2, _⟩ := Gauss.elements_ok (by rw [hra]; norm_num) (by rw [hrb]; positivity)
    (by rw [hr0]; positivity) (by rw [hrb, hea, hdot, hr0]; linear_combination -(s ^ 2) ^ 2 * hcds) hce
  refine ⟨rb, t2, pl, ce, x, a, hpl, ?_, hw, ⟨s ^ 2 * sd, by positivity, ?_⟩, ?_, ha1, ha2, h4, g1, g2, h5, ?_, h7, h8⟩
  · simp only [Gauss.coesFromVectors, hpl, ok_bind, htaue, hra, hrb]
    rw [show (1 : ℕ) = 0 + 1 from rfl, hn]
    exact hce
  · rw [hrbe]
    simp only [Vec3.dot, Vec3.plus, Vec3.scaled] at h2 h3 ⊢
    linear_combination s ^ 2 * cd * h3 + s ^ 2 * sd * h2
  · norm_num at hx1 ⊢; linarith
  · rw [h6, hx, hra]; ring

/-! ## C57: the equatorial plane -/

/-- the hypotheses of `C57_partial` are met: an execution in a polar plane -/
example : ∃ (ob1 ob2 : Observation) (ce : ClassicalElements) (ra rb : Vec3),
    Gauss.coesFromPositions 1 ob1 ob2 = .ok ce ∧ ob1.ijkPosition = .ok ra ∧ ob2.ijkPosition = .ok rb ∧
    ¬ (ra.z = 0 ∧ rb.z = 0) ∧ 0.2 < ce.eccentricity := by
  obtain ⟨rb, t2, pl, ce, x, a, h1, h2, h3, h4, h5, h6, h7, h8, h9, h10, h11, h12, h13, h14⟩ :=
    gauss_case (ea := ⟨-4 / 5, 0, -3 / 5⟩) (e0 := ⟨3 / 5, 0, -4 / 5⟩) (by norm_num [Vec3.dot]) (by norm_num [Vec3.dot])
      (by norm_num [Vec3.dot]) ⟨60000⟩
  obtain ⟨ob1, ho1, hp1⟩ := exists_observation ⟨60000⟩ ((⟨-4 / 5, 0, -3 / 5⟩ : Vec3).scaled 10000)
  obtain ⟨ob2, ho2, hp2⟩ := exists_observation t2 rb
  refine ⟨ob1, ob2, ce, _, rb, ?_, hp1, hp2, ?_, ?_⟩
  · simp only [Gauss.coesFromPositions, hp1, hp2, ok_bind, ho1, ho2, h2]
  · norm_num [Vec3.scaled]
  · norm_num at h5 ⊢; nlinarith only [sq_nonneg a, h5, h9, h11]

theorem wrapNeg_zero : wrapNeg 0 = 0 := wrapNeg_of_nonneg le_rfl

/-- **C57** fails in the equatorial plane: there the node and the argument of latitude are both
taken from `atan2(0, 0)`, and the returned orbit does not pass through the first position -/
theorem C57_equatorial_violated :
    ∃ (ob1 ob2 : Observation) (ce : ClassicalElements) (ra rb : Vec3),
      Gauss.coesFromPositions 1 ob1 ob2 = .ok ce ∧ ob1.ijkPosition = .ok ra ∧ ob2.ijkPosition = .ok rb ∧
      ∀ nu, Spec.orbitPoint ce nu ≠ ra := by
  obtain ⟨rb, t2, pl, ce, x, a, h1, h2, h3, h4, h5, h6, h7, h8, h9, h10, h11, h12, h13, h14⟩ :=
    gauss_case (ea := ⟨0, 1, 0⟩) (e0 := ⟨-1, 0, 0⟩) (by norm_num [Vec3.dot]) (by norm_num [Vec3.dot])
      (by norm_num [Vec3.dot]) ⟨60000⟩
  obtain ⟨ob1, ho1, hp1⟩ := exists_observation ⟨60000⟩ ((⟨0, 1, 0⟩ : Vec3).scaled 10000)
  obtain ⟨ob2, ho2, hp2⟩ := exists_observation t2 rb
  refine ⟨ob1, ob2, ce, _, rb, ?_, hp1, hp2, ?_⟩
  · simp only [Gauss.coesFromPositions, hp1, hp2, ok_bind, ho1, ho2, h2]
  intro nu hnu
  obtain ⟨_, _, _, _, _, _, _, _, _, _, _, hua, hinc, hraan⟩ := Gauss.plane_ok h1
  have hw : pl.w = ⟨0, 0, 1⟩ := by rw [h3]; simp [Vec3.cross]
  have hua0 : pl.ua = 0 := by
    rw [hua, hw]
    simp [Vec3.scaled, pyAtan2_zero]
  have hraan0 : ce.raan = 0 := by
    rw [h14, hraan, hw]
    simp [pyAtan2_zero, wrapNeg_zero]
  have hinc0 : ce.inclination = 0 := by
    rw [h13, hinc, hw]
    have : pyAtan2 0 1 = 0 := pyAtan2_eq one_pos (by linarith [pi_pos]) pi_pos.le (by simp) (by simp)
    simp [this, wrapNeg_zero]
  obtain ⟨k, hk⟩ := exists_wrapNeg (pl.ua - wrapNeg (pyAtan2 a x))
  obtain ⟨ta, hta⟩ : ∃ ta, ta = wrapNeg (pyAtan2 a x) := ⟨_, rfl⟩
  rw [hk, hua0, ← hta, zero_sub] at h8
  have hes : ce.eccentricity * sin ta = a := by
    have hN : √(x * x + a * a) = ce.eccentricity := by
      rw [show x * x + a * a = ce.eccentricity ^ 2 by rw [h11]; ring]; exact sqrt_sq h9
    rw [← hN, hta, wrapNeg_sin]; exact mul_sin_atan2 a x
  have hpos : 0 < 1 + ce.eccentricity * cos nu := by
    nlinarith only [neg_one_le_cos nu, h9, h10]
  unfold Spec.orbitPoint at hnu
  rw [h12, hinc0, hraan0] at hnu
  have hx0 : 0 < x := by norm_num at h5; linarith
  have hrho : 0 < 10000 * (1 + x) / (1 + ce.eccentricity * cos nu) := by positivity
  have e1 := congrArg Vec3.x hnu
  have e2 := congrArg Vec3.y hnu
  simp only [Spec.latitudeDir, Vec3.scaled, cos_zero, sin_zero, mul_one, mul_zero, zero_mul, sub_zero, zero_add,
    one_mul] at e1 e2
  have hc : cos (ce.argument_of_perigee + nu) = 0 := (mul_eq_zero.mp e1).resolve_right hrho.ne'
  have hs : 0 < sin (ce.argument_of_perigee + nu) := by
    by_contra h
    push Not at h
    nlinarith only [h, hrho, e2]
  have hs1 : sin (ce.argument_of_perigee + nu) = 1 := by
    have := sin_sq_add_cos_sq (ce.argument_of_perigee + nu)
    rw [hc] at this
    nlinarith only [this, hs]
  have hnu' : cos nu = -sin ta := by
    have : nu = (ce.argument_of_perigee + nu) - ce.argument_of_perigee := by ring
    rw [this, cos_sub, hc, hs1, h8, sin_turn, sin_neg]; ring
  rw [hs1, hnu'] at e2
  have hden : 1 + ce.eccentricity * -sin ta ≠ 0 := by rw [← hnu']; exact hpos.ne'
  rw [one_mul, div_eq_iff hden] at e2
  norm_num at h5 h7
  linarith only [e2, hes, h5, h7]

/-! ## C59 -/

/-- **C59** (partial): the argument of perigee lies in `(-π, 2π)`, not in `[0, 2π)` -/
theorem C59_partial {fuel : Nat} {ob1 ob2 : Observation} {ce : ClassicalElements}
    (h : Gauss.coesFromPositions fuel ob1 ob2 = .ok ce) :
    -π < ce.argument_of_perigee ∧ ce.argument_of_perigee < 2 * π := by
  simp only [Gauss.coesFromPositions, Gauss.coesFromVectors, bind_eq_ok] at h
  obtain ⟨ra, -, rb, -, pl, hp, n, -, he⟩ := h
  obtain ⟨e0, hra, hr0, hrb, _, _, _, _, _, _, hsq, hua, _, _⟩ := Gauss.plane_ok hp
  obtain ⟨ta, ecosva, esinva, d, _, _, h0, h1, _, _, _, _, _, _, _, _, _, haop, _⟩ := Gauss.elements_ok hra hrb hr0 hsq he
  have h2 := pyAtan2_gt ra.z (-ra.x * pl.w.y + ra.y * pl.w.x)
  have h3 := pyAtan2_le ra.z (-ra.x * pl.w.y + ra.y * pl.w.x)
  rw [← hua] at h2 h3
  rw [haop]
  unfold wrapNeg pyPi
  have := pi_pos
  split <;> constructor <;> linarith

/-- **C59** is false: two observations for which the returned argument of perigee is negative -/
theorem C59_violated :
    ∃ (ob1 ob2 : Observation) (ce : ClassicalElements),
      Gauss.coesFromPositions 1 ob1 ob2 = .ok ce ∧ ce.argument_of_perigee < 0 := by
  obtain ⟨rb, t2, pl, ce, x, a, h1, h2, h3, h4, h5, h6, h7, h8, h9, h10, h11, h12, h13, h14⟩ :=
    gauss_case (ea := ⟨-4 / 5, 0, -3 / 5⟩) (e0 := ⟨3 / 5, 0, -4 / 5⟩) (by norm_num [Vec3.dot]) (by norm_num [Vec3.dot])
      (by norm_num [Vec3.dot]) ⟨60000⟩
  obtain ⟨ob1, ho1, hp1⟩ := exists_observation ⟨60000⟩ ((⟨-4 / 5, 0, -3 / 5⟩ : Vec3).scaled 10000)
  obtain ⟨ob2, ho2, hp2⟩ := exists_observation t2 rb
  refine ⟨ob1, ob2, ce, ?_, ?_⟩
  · simp only [Gauss.coesFromPositions, hp1, hp2, ok_bind, ho1, ho2, h2]
  obtain ⟨_, _, _, _, _, _, _, _, _, _, _, hua, _, _⟩ := Gauss.plane_ok h1
  have hx0 : 0 < x := by norm_num at h5; linarith
  have hw : pl.w = ⟨0, -1, 0⟩ := by rw [h3]; norm_num [Vec3.cross]
  have hua1 : pl.ua < -(π / 2) := by
    rw [hua, hw]
    norm_num [Vec3.scaled, pyAtan2]
    rw [← not_le, Complex.neg_pi_div_two_le_arg_iff]
    norm_num
  have hta : 3 * π / 2 < wrapNeg (pyAtan2 a x) := by
    have e1 : pyAtan2 a x < 0 := Complex.arg_neg_iff.mpr h6
    have e2 : |pyAtan2 a x| < π / 2 := Complex.abs_arg_lt_pi_div_two_iff.mpr (.inl hx0)
    rw [wrapNeg_of_neg e1]
    have := (abs_lt.mp e2).1
    linarith
  rw [h8, wrapNeg_of_neg (by linarith [pi_pos])]
  linarith

end Openspace
