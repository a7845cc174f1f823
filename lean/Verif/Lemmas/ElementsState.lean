import Verif.Props.Elements

/-! # Elements of a state, and the state of those elements -/

namespace Openspace

open Real

/-- the parts of an elliptic element set computed from a state -/
theorem fromIjk_bound (s : State) (hr : s.position ≠ ⟨0, 0, 0⟩) (hh : s.position.cross s.velocity ≠ ⟨0, 0, 0⟩)
    (hb : s.velocity.magnitude ^ 2 / 2 < Earth.MU / s.position.magnitude) :
    ∃ el E nu w, ClassicalElements.fromIjk s = .ok el ∧ el.epoch = s.epoch ∧ 0 < el.semimajor_axis ∧
      0 ≤ el.eccentricity ∧ el.eccentricity < 1 ∧
      s.velocity.magnitude ^ 2 / 2 - Earth.MU / s.position.magnitude = -Earth.MU / (2 * el.semimajor_axis) ∧
      s.position.magnitude = el.semimajor_axis * (1 - el.eccentricity * cos E) ∧
      s.position.dot s.velocity = √(Earth.MU * el.semimajor_axis) * (el.eccentricity * sin E) ∧
      0 ≤ E ∧ E < 2 * π ∧ el.mean_anomaly = maFromEaE E el.eccentricity ∧
      nuFromEEa el.eccentricity E = .ok nu ∧ w.dot w = 1 ∧
      s.position.cross s.velocity = w.scaled (√(Earth.MU * (el.semimajor_axis * (1 - el.eccentricity ^ 2)))) ∧
      el.inclination = incFromW w ∧ el.raan = raanFromW w ∧
      el.argument_of_perigee = wFromUNu (uFromRW s.position w) nu ∧ (el.eccentricity = 0 → E = 0) := by
  have hmu := mu_pos
  have hr0 := Vec3.magnitude_pos.mpr hr
  obtain ⟨r, hrd⟩ : ∃ r, r = s.position.magnitude := ⟨_, rfl⟩
  obtain ⟨v, hvd⟩ : ∃ v, v = s.velocity.magnitude := ⟨_, rfl⟩
  obtain ⟨h, hhd⟩ : ∃ h, h = (s.position.cross s.velocity).magnitude := ⟨_, rfl⟩
  have hh0 : 0 < h := by rw [hhd]; exact Vec3.magnitude_pos.mpr hh
  rw [← hrd] at hr0
  rw [← hrd, ← hvd] at hb
  have hx : 0 < 2 / r - v * v / Earth.MU := by
    rw [div_sub_div _ _ hr0.ne' hmu.ne', lt_div_iff₀ (by positivity), zero_mul]
    rw [div_lt_div_iff₀ (by norm_num) hr0] at hb
    nlinarith
  obtain ⟨a, had⟩ : ∃ a, a = 1 / (2 / r - v * v / Earth.MU) := ⟨_, rfl⟩
  have ha : 0 < a := by rw [had]; positivity
  have hA : aFromMuRV Earth.MU r v = .ok a := by
    simp only [aFromMuRV, pyDiv_ok hr0.ne', pyDiv_ok hmu.ne', ok_bind, pyDiv_ok hx.ne', had]
  have hainv : 1 / a = 2 / r - v * v / Earth.MU := by rw [had, one_div_one_div]
  have hv2 : v * v = Earth.MU * (2 / r - 1 / a) := by rw [hainv]; field_simp; ring
  obtain ⟨q, hqd⟩ : ∃ q, q = s.position.dot s.velocity := ⟨_, rfl⟩
  have hlag : h ^ 2 = r ^ 2 * (v * v) - q ^ 2 := by
    have := Vec3.lagrange s.position s.velocity
    rw [hhd, hrd, hvd, hqd, Vec3.magnitude_sq_dot, ← sq, Vec3.magnitude_sq_dot, Vec3.magnitude_sq_dot]
    linarith
  -- eccentricity
  have hmua : (0 : ℝ) < Earth.MU * a := by positivity
  obtain ⟨k, hkd⟩ : ∃ k, k = √(Earth.MU * a) := ⟨_, rfl⟩
  have hk0 : 0 < k := by rw [hkd]; exact Real.sqrt_pos.mpr hmua
  have hk2 : k * k = Earth.MU * a := by rw [hkd]; exact Real.mul_self_sqrt hmua.le
  have hid : 1 - h * h / Earth.MU / a = (1 - r / a) * (1 - r / a) + q / k * (q / k) := by
    have e1 : q / k * (q / k) = q ^ 2 / (Earth.MU * a) := by rw [← hk2]; field_simp
    rw [e1, ← sq h, hlag, hv2]
    field_simp
    ring
  have he2 : 0 ≤ 1 - h * h / Earth.MU / a := by
    rw [hid]; exact add_nonneg (mul_self_nonneg _) (mul_self_nonneg _)
  obtain ⟨e, hed⟩ : ∃ e, e = √(1 - h * h / Earth.MU / a) := ⟨_, rfl⟩
  have he0 : 0 ≤ e := by rw [hed]; exact Real.sqrt_nonneg _
  have hes : e * e = 1 - h * h / Earth.MU / a := by rw [hed]; exact Real.mul_self_sqrt he2
  have he1 : e < 1 := by
    have : 0 < h * h / Earth.MU / a := by positivity
    nlinarith
  have hP : pFromMuH Earth.MU h = .ok (h * h / Earth.MU) := by rw [pFromMuH, pyDiv_ok hmu.ne']
  have hEc : eFromAP a (h * h / Earth.MU) = .ok e := by
    simp only [eFromAP, pyDiv_ok ha.ne', ok_bind, pySqrt_ok he2, hed]
  obtain ⟨nn, hN, hn0, hn2, _⟩ := C13_mean_motion a Earth.MU ha hmu
  have hkn : k = a * a * nn := by
    rw [hkd, show Earth.MU * a = (a * a * nn) * (a * a * nn) by rw [← hn2]; ring]
    exact Real.sqrt_mul_self (by positivity)
  -- eccentric anomaly
  obtain ⟨E, hEd⟩ : ∃ E, E = wrapNeg (pyAtan2 (q / k) (1 - r / a)) := ⟨_, rfl⟩
  have hEA : eaFromRdvRAN q r a nn = .ok E := by
    have hd : a * a * nn ≠ 0 := by positivity
    simp only [eaFromRdvRAN, pyDiv_ok hd, pyDiv_ok ha.ne', ok_bind, pure_eq_ok, hEd, hkn]
  have hnorm : √((1 - r / a) * (1 - r / a) + q / k * (q / k)) = e := by rw [← hid, hed]
  have hec : e * cos E = 1 - r / a := by
    rw [hEd, wrapNeg_cos]
    have := mul_cos_atan2 (q / k) (1 - r / a)
    rwa [hnorm] at this
  have hesn : e * sin E = q / k := by
    rw [hEd, wrapNeg_sin]
    have := mul_sin_atan2 (q / k) (1 - r / a)
    rwa [hnorm] at this
  have hEr := wrapNeg_atan2_range (q / k) (1 - r / a)
  rw [← hEd] at hEr
  obtain ⟨nu, hnu, -⟩ := C19_true_anomaly a e E he0 he1
  -- the normal
  obtain ⟨w, hw⟩ : ∃ w, (s.position.cross s.velocity).normalized = .ok w := ⟨_, Vec3.normalized_ok hh⟩
  have hwu := Vec3.normalized_dot_self hw
  have hwe : s.position.cross s.velocity = w.scaled h := by
    rw [Vec3.normalized_ok hh, Except.ok.injEq] at hw
    rw [← hw, ← hhd]
    ext <;> simp only [Vec3.scaled] <;> field_simp
  have hhs : √(Earth.MU * (a * (1 - e ^ 2))) = h := by
    have : Earth.MU * (a * (1 - e ^ 2)) = h * h := by
      rw [sq, hes]; field_simp; ring
    rw [this, Real.sqrt_mul_self hh0.le]
  refine ⟨⟨s.epoch.copy, a, e, incFromW w, raanFromW w, wFromUNu (uFromRW s.position w) nu, maFromEaE E e⟩, E, nu, w,
    ?_, rfl, ha, he0, he1, ?_, ?_, ?_, hEr.1, hEr.2, rfl, hnu, hwu, ?_, rfl, rfl, rfl, ?_⟩
  · simp only [ClassicalElements.fromIjk, hFromRV, ← hrd, ← hvd, ← hhd, ← hqd, hw, hA, ok_bind, hP, hEc, hN, hEA, hnu,
      pure_eq_ok]
  · show s.velocity.magnitude ^ 2 / 2 - Earth.MU / s.position.magnitude = -Earth.MU / (2 * a)
    rw [← hrd, ← hvd, sq, hv2]; field_simp; ring
  · show s.position.magnitude = a * (1 - e * cos E)
    rw [← hrd, hec]; field_simp; ring
  · show s.position.dot s.velocity = √(Earth.MU * a) * (e * sin E)
    rw [← hkd, hesn, ← hqd]; field_simp
  · show s.position.cross s.velocity = w.scaled (√(Earth.MU * (a * (1 - e ^ 2))))
    rw [hhs, hwe]
  · intro hz
    have hz' : e = 0 := hz
    rw [hz', zero_mul] at hec hesn
    rw [hEd, ← hec, ← hesn, pyAtan2_zero, wrapNeg_of_nonneg le_rfl]

/-- inclination and node of a unit normal -/
theorem frame_of_normal {w : Vec3} (hw : w.dot w = 1) :
    sin (incFromW w) = √(w.x * w.x + w.y * w.y) ∧ cos (incFromW w) = w.z ∧
    sin (incFromW w) * sin (raanFromW w) = w.x ∧ sin (incFromW w) * cos (raanFromW w) = -w.y := by
  have h0 : 0 ≤ w.x * w.x + w.y * w.y := add_nonneg (mul_self_nonneg _) (mul_self_nonneg _)
  have hss := Real.mul_self_sqrt h0
  have hn : √(w.z * w.z + √(w.x * w.x + w.y * w.y) * √(w.x * w.x + w.y * w.y)) = 1 := by
    rw [hss]
    have : w.z * w.z + (w.x * w.x + w.y * w.y) = 1 := by simp only [Vec3.dot] at hw; linarith
    rw [this, Real.sqrt_one]
  have h1 := mul_sin_atan2 (√(w.x * w.x + w.y * w.y)) w.z
  have h2 := mul_cos_atan2 (√(w.x * w.x + w.y * w.y)) w.z
  rw [hn, one_mul] at h1 h2
  have h3 := mul_sin_atan2 w.x (-w.y)
  have h4 := mul_cos_atan2 w.x (-w.y)
  have hn2 : -w.y * -w.y + w.x * w.x = w.x * w.x + w.y * w.y := by ring
  rw [hn2] at h3 h4
  refine ⟨h1, h2, ?_, ?_⟩
  · unfold incFromW raanFromW sqrtNN
    rw [h1, wrapNeg_sin]; exact h3
  · unfold incFromW raanFromW sqrtNN
    rw [h1, wrapNeg_cos]; exact h4

/-- argument of latitude of a position orthogonal to the normal -/
theorem latitude_of_normal {w p : Vec3} (hw : w.dot w = 1) (hp : p.dot w = 0) :
    p.magnitude * sin (incFromW w) * cos (uFromRW p w) = -p.x * w.y + p.y * w.x ∧
    p.magnitude * sin (incFromW w) * sin (uFromRW p w) = p.z := by
  obtain ⟨h1, -⟩ := frame_of_normal hw
  have hn : √((-p.x * w.y + p.y * w.x) * (-p.x * w.y + p.y * w.x) + p.z * p.z) = p.magnitude * sin (incFromW w) := by
    rw [h1, Vec3.magnitude, sqrtNN, ← Real.sqrt_mul (by nlinarith [mul_self_nonneg p.x, mul_self_nonneg p.y, mul_self_nonneg p.z])]
    congr 1
    simp only [Vec3.dot] at hw hp
    linear_combination (p.x * w.x + p.y * w.y - p.z * w.z) * (-hp) - p.z * p.z * hw
  have h3 := mul_sin_atan2 p.z (-p.x * w.y + p.y * w.x)
  have h4 := mul_cos_atan2 p.z (-p.x * w.y + p.y * w.x)
  rw [hn] at h3 h4
  exact ⟨by rw [uFromRW, wrapNeg_cos]; exact h4, by rw [uFromRW, wrapNeg_sin]; exact h3⟩

/-- direction of the ascending node -/
noncomputable def nodeN (O : ℝ) : Vec3 := ⟨cos O, sin O, 0⟩

/-- direction in the orbit plane a quarter turn ahead of the node -/
noncomputable def nodeM (O i : ℝ) : Vec3 := ⟨-sin O * cos i, cos O * cos i, sin i⟩

/-- a position orthogonal to the normal, from its argument of latitude -/
theorem position_of_latitude {w p : Vec3} (hw : w.dot w = 1) (hp : p.dot w = 0) (hx : w.x ≠ 0 ∨ w.y ≠ 0) :
    p = ((nodeN (raanFromW w)).scaled (p.magnitude * cos (uFromRW p w))).plus
      ((nodeM (raanFromW w) (incFromW w)).scaled (p.magnitude * sin (uFromRW p w))) := by
  obtain ⟨f1, f2, f3, f4⟩ := frame_of_normal hw
  obtain ⟨l1, l2⟩ := latitude_of_normal hw hp
  have hpos : 0 < w.x * w.x + w.y * w.y := by
    rcases hx with h | h
    · have := mul_self_pos.mpr h; nlinarith [mul_self_nonneg w.y]
    · have := mul_self_pos.mpr h; nlinarith [mul_self_nonneg w.x]
  have hs : sin (incFromW w) ^ 2 = w.x * w.x + w.y * w.y := by rw [f1, Real.sq_sqrt hpos.le]
  have hs0 : sin (incFromW w) ≠ 0 := by rw [f1]; exact (Real.sqrt_pos.mpr hpos).ne'
  obtain ⟨S, hS⟩ : ∃ S, S = sin (incFromW w) := ⟨_, rfl⟩
  obtain ⟨so, hso⟩ : ∃ S, S = sin (raanFromW w) := ⟨_, rfl⟩
  obtain ⟨co, hco⟩ : ∃ S, S = cos (raanFromW w) := ⟨_, rfl⟩
  obtain ⟨A, hA⟩ : ∃ S, S = p.magnitude * cos (uFromRW p w) := ⟨_, rfl⟩
  obtain ⟨B, hB⟩ : ∃ S, S = p.magnitude * sin (uFromRW p w) := ⟨_, rfl⟩
  have l1' : S * A = -p.x * w.y + p.y * w.x := by rw [hS, hA, ← l1]; ring
  have l2' : S * B = p.z := by rw [hS, hB, ← l2]; ring
  simp only [nodeN, nodeM]
  rw [f2, ← hS, ← hso, ← hco, ← hA, ← hB]
  rw [← hS] at hs hs0 f3 f4
  rw [← hso] at f3
  rw [← hco] at f4
  simp only [Vec3.dot] at hp
  have hSS : S * S ≠ 0 := mul_ne_zero hs0 hs0
  ext
  · simp only [Vec3.plus, Vec3.scaled]
    apply mul_left_cancel₀ hSS
    linear_combination p.x * hs - (S * A) * f4 + w.y * l1' + w.z * (S * B) * f3 + w.z * w.x * l2' + w.x * hp
  · simp only [Vec3.plus, Vec3.scaled]
    apply mul_left_cancel₀ hSS
    linear_combination p.y * hs - (S * A) * f3 - w.x * l1' - w.z * (S * B) * f4 + w.z * w.y * l2' + w.y * hp
  · simp only [Vec3.plus, Vec3.scaled]
    linear_combination -l2'

/-- the perigee frame turned by the true anomaly is the node frame turned by the argument of latitude -/
theorem perigee_to_node (el : ClassicalElements) (u nu : ℝ) (h : el.argument_of_perigee = wFromUNu u nu) (r : ℝ) :
    (el.dirP.scaled (r * cos nu)).plus (el.semilatusRectumVector.scaled (r * sin nu))
      = ((nodeN el.raan).scaled (r * cos u)).plus ((nodeM el.raan el.inclination).scaled (r * sin u)) := by
  have hc : cos el.argument_of_perigee = cos u * cos nu + sin u * sin nu := by
    rw [h, wFromUNu, wrapNeg_cos, cos_sub]
  have hs : sin el.argument_of_perigee = sin u * cos nu - cos u * sin nu := by
    rw [h, wFromUNu, wrapNeg_sin, sin_sub]
  have hn := sin_sq_add_cos_sq nu
  ext <;> simp only [Vec3.plus, Vec3.scaled, ClassicalElements.dirP, ClassicalElements.semilatusRectumVector, nodeN,
    nodeM, pySin, pyCos, hc, hs]
  · linear_combination r * (cos u * cos el.raan - sin u * sin el.raan * cos el.inclination) * hn
  · linear_combination r * (cos u * sin el.raan + sin u * cos el.raan * cos el.inclination) * hn
  · linear_combination r * (sin u * sin el.inclination) * hn

theorem chord_le (x y : ℝ) : 2 - 2 * cos (x - y) ≤ (x - y) ^ 2 := by
  have := Real.one_sub_sq_div_two_le_cos (x := x - y)
  linarith

/-- two points of an orbit with close eccentric anomalies: positions -/
theorem position_close {P Q : Vec3} (hP : P.dot P = 1) (hQ : Q.dot Q = 1) (hPQ : P.dot Q = 0) {a e b E E' d : ℝ}
    (ha : 0 < a) (hb : b * b ≤ 1) (hd : |E' - E| ≤ d) :
    (((P.scaled (a * (cos E' - e))).plus (Q.scaled (a * b * sin E'))).minus
      ((P.scaled (a * (cos E - e))).plus (Q.scaled (a * b * sin E)))).magnitude ≤ a * d := by
  have hd0 := (abs_nonneg _).trans hd
  apply abs_le_of_sq_le_sq' _ (by positivity) |>.2
  have e1 : (((P.scaled (a * (cos E' - e))).plus (Q.scaled (a * b * sin E'))).minus
      ((P.scaled (a * (cos E - e))).plus (Q.scaled (a * b * sin E))))
      = (P.scaled (a * (cos E' - cos E))).plus (Q.scaled (a * b * (sin E' - sin E))) := by
    ext <;> simp only [Vec3.plus, Vec3.minus, Vec3.scaled] <;> ring
  rw [e1, Vec3.magnitude_sq_dot, comb_dot hP hQ hPQ]
  have h1 := chord_le E' E
  rw [cos_sub] at h1
  have h2 := sin_sq_add_cos_sq E
  have h3 := sin_sq_add_cos_sq E'
  have h4 : (E' - E) ^ 2 ≤ d ^ 2 := by rw [← sq_abs]; gcongr
  have h5 : (cos E' - cos E) ^ 2 + (sin E' - sin E) ^ 2 ≤ d ^ 2 := by nlinarith
  have h6 : b * b * (sin E' - sin E) ^ 2 ≤ (sin E' - sin E) ^ 2 := by nlinarith [sq_nonneg (sin E' - sin E)]
  have h7 : a ^ 2 * ((cos E' - cos E) ^ 2 + b * b * (sin E' - sin E) ^ 2) ≤ a ^ 2 * d ^ 2 := by
    gcongr; linarith
  nlinarith

theorem close_aux {e m : ℝ} (he : 0 ≤ e) (he' : e < 1) (d : ℝ) (hm : (1 - e) ^ 2 ≤ m) :
    (e ^ 2 * d ^ 2 + m * d ^ 2) / m ^ 2 ≤ (d / (1 - e) ^ 2) ^ 2 := by
  have h1e : 0 < 1 - e := by linarith
  obtain ⟨f, hf⟩ : ∃ f, f = (1 - e) ^ 2 := ⟨_, rfl⟩
  have hf0 : 0 < f := by rw [hf]; positivity
  have hf1 : e ^ 2 + f ≤ 1 := by rw [hf]; nlinarith
  rw [← hf] at hm ⊢
  have hm0 : 0 < m := hf0.trans_le hm
  rw [div_pow, div_le_div_iff₀ (by positivity) (by positivity)]
  have j1 : (e ^ 2 + m) * f ^ 2 ≤ m ^ 2 := by
    have k1 : e ^ 2 * f ^ 2 ≤ e ^ 2 * m ^ 2 := by gcongr
    have k2 : m * f ^ 2 ≤ m ^ 2 * f := by
      rw [sq f, sq m, ← mul_assoc]
      exact mul_le_mul_of_nonneg_right (mul_le_mul_of_nonneg_left hm hm0.le) hf0.le
    have k3 : m ^ 2 * (e ^ 2 + f) ≤ m ^ 2 * 1 := by gcongr
    linarith
  have := mul_le_mul_of_nonneg_left j1 (sq_nonneg d)
  linarith

/-- two points of an orbit with close eccentric anomalies: velocities -/
theorem velocity_close {P Q : Vec3} (hP : P.dot P = 1) (hQ : Q.dot Q = 1) (hPQ : P.dot Q = 0) {k e b E E' d : ℝ}
    (hk : 0 ≤ k) (he : 0 ≤ e) (he' : e < 1) (hb : b * b ≤ 1) (hd : |E' - E| ≤ d) :
    (((P.scaled (-k * sin E' / (1 - e * cos E'))).plus (Q.scaled (k * b * cos E' / (1 - e * cos E')))).minus
      ((P.scaled (-k * sin E / (1 - e * cos E))).plus (Q.scaled (k * b * cos E / (1 - e * cos E))))).magnitude
      ≤ k * (d / (1 - e) ^ 2) := by
  have hd0 := (abs_nonneg _).trans hd
  have h1e : 0 < 1 - e := by linarith
  apply abs_le_of_sq_le_sq' _ (by positivity) |>.2
  have hD : 1 - e ≤ 1 - e * cos E := by nlinarith [cos_le_one E]
  have hD' : 1 - e ≤ 1 - e * cos E' := by nlinarith [cos_le_one E']
  have h1 := chord_le E' E
  rw [cos_sub] at h1
  have h2 := sin_sq_add_cos_sq E
  have h3 := sin_sq_add_cos_sq E'
  have h4 : (E' - E) ^ 2 ≤ d ^ 2 := by rw [← sq_abs]; gcongr
  have h5 : (cos E' - cos E) ^ 2 + (sin E' - sin E) ^ 2 ≤ d ^ 2 := by nlinarith
  have hDD : ((1 - e * cos E) - (1 - e * cos E')) ^ 2 ≤ e ^ 2 * d ^ 2 := by
    have : ((1 - e * cos E) - (1 - e * cos E')) ^ 2 = e ^ 2 * (cos E' - cos E) ^ 2 := by ring
    rw [this]
    apply mul_le_mul_of_nonneg_left _ (sq_nonneg e)
    linarith [sq_nonneg (sin E' - sin E)]
  obtain ⟨D, hDe⟩ : ∃ D, D = 1 - e * cos E := ⟨_, rfl⟩
  obtain ⟨D', hDe'⟩ : ∃ D, D = 1 - e * cos E' := ⟨_, rfl⟩
  rw [← hDe] at hD hDD ⊢
  rw [← hDe'] at hD' hDD ⊢
  have hDp : 0 < D := by linarith
  have hDp' : 0 < D' := by linarith
  have e1 : (((P.scaled (-k * sin E' / D')).plus (Q.scaled (k * b * cos E' / D'))).minus
      ((P.scaled (-k * sin E / D)).plus (Q.scaled (k * b * cos E / D))))
      = (P.scaled (-k * (sin E' / D' - sin E / D))).plus (Q.scaled (k * b * (cos E' / D' - cos E / D))) := by
    ext <;> simp only [Vec3.plus, Vec3.minus, Vec3.scaled] <;> ring
  rw [e1, Vec3.magnitude_sq_dot, comb_dot hP hQ hPQ]
  have h6 : (sin E' / D' - sin E / D) ^ 2 + (cos E' / D' - cos E / D) ^ 2 ≤ (d / (1 - e) ^ 2) ^ 2 := by
    have i1 : (sin E' / D' - sin E / D) ^ 2 + (cos E' / D' - cos E / D) ^ 2
        = ((D - D') ^ 2 + (D * D') * ((cos E' - cos E) ^ 2 + (sin E' - sin E) ^ 2)) / (D * D') ^ 2 := by
      field_simp
      linear_combination D ^ 2 * h3 + D' ^ 2 * h2 - D * D' * (h2 + h3)
    have hm : (1 - e) ^ 2 ≤ D * D' := by nlinarith
    have i2 : ((D - D') ^ 2 + (D * D') * ((cos E' - cos E) ^ 2 + (sin E' - sin E) ^ 2)) / (D * D') ^ 2
        ≤ (e ^ 2 * d ^ 2 + (D * D') * d ^ 2) / (D * D') ^ 2 := by gcongr
    have hm0 : 0 < D * D' := by positivity
    obtain ⟨m, hme⟩ : ∃ m, m = D * D' := ⟨_, rfl⟩
    rw [← hme] at hm hm0 i1 i2
    have i3 := close_aux he he' d hm
    rw [i1]; exact i2.trans i3
  have h7 : b * b * (cos E' / D' - cos E / D) ^ 2 ≤ (cos E' / D' - cos E / D) ^ 2 := by
    nlinarith [sq_nonneg (cos E' / D' - cos E / D)]
  have h8 : k ^ 2 * ((sin E' / D' - sin E / D) ^ 2 + b * b * (cos E' / D' - cos E / D) ^ 2)
      ≤ k ^ 2 * (d / (1 - e) ^ 2) ^ 2 := by
    gcongr; linarith
  linarith

/-- a velocity from its radial part and its angular momentum -/
theorem velocity_split {p v w : Vec3} {h : ℝ} (hw : p.cross v = w.scaled h) (hp : p.dot p ≠ 0) :
    v = (p.scaled (p.dot v / p.dot p)).plus ((w.cross p).scaled (h / p.dot p)) := by
  have hx := congrArg Vec3.x hw
  have hy := congrArg Vec3.y hw
  have hz := congrArg Vec3.z hw
  obtain ⟨q, hq⟩ : ∃ q, q = p.dot p := ⟨_, rfl⟩
  obtain ⟨t, ht⟩ : ∃ t, t = p.dot v := ⟨_, rfl⟩
  rw [← hq] at hp ⊢
  rw [← ht]
  simp only [Vec3.dot] at hq ht
  simp only [Vec3.cross, Vec3.scaled] at hx hy hz
  ext <;> simp only [Vec3.plus, Vec3.scaled, Vec3.cross] <;> field_simp
  · linear_combination v.x * hq - p.x * ht + p.z * hy - p.y * hz
  · linear_combination v.y * hq - p.y * ht + p.x * hz - p.z * hx
  · linear_combination v.z * hq - p.z * ht + p.y * hx - p.x * hy

theorem orbit_velocity {P Q w : Vec3} (hPW : w.cross P = Q) (hQW : w.cross Q = P.scaled (-1)) {a e b κ E D : ℝ}
    (ha : 0 < a) (hss : b * b = 1 - e * e) (hDe : D = 1 - e * cos E) (hD : 0 < D) :
    (((P.scaled (a * (cos E - e))).plus (Q.scaled (a * b * sin E))).scaled
        (κ * a * (e * sin E) / (a * D) ^ 2)).plus
      ((w.cross ((P.scaled (a * (cos E - e))).plus (Q.scaled (a * b * sin E)))).scaled
        (κ * a * b / (a * D) ^ 2))
      = (P.scaled (-κ * sin E / D)).plus (Q.scaled (κ * b * cos E / D)) := by
  have c1 := congrArg Vec3.x hPW
  have c2 := congrArg Vec3.y hPW
  have c3 := congrArg Vec3.z hPW
  have c4 := congrArg Vec3.x hQW
  have c5 := congrArg Vec3.y hQW
  have c6 := congrArg Vec3.z hQW
  simp only [Vec3.cross, Vec3.scaled] at c1 c2 c3 c4 c5 c6
  have hcs := sin_sq_add_cos_sq E
  obtain ⟨A, hA⟩ : ∃ A, A = a * (cos E - e) := ⟨_, rfl⟩
  obtain ⟨B, hB⟩ : ∃ B, B = a * b * sin E := ⟨_, rfl⟩
  obtain ⟨q, hq⟩ : ∃ q, q = κ * a * (e * sin E) / (a * D) ^ 2 := ⟨_, rfl⟩
  obtain ⟨g, hg⟩ : ∃ g, g = κ * a * b / (a * D) ^ 2 := ⟨_, rfl⟩
  have k1 : A * q - B * g = -κ * sin E / D := by
    rw [hA, hB, hq, hg]; field_simp
    linear_combination -κ * sin E * hss + κ * sin E * hDe
  have k2 : B * q + A * g = κ * b * cos E / D := by
    rw [hA, hB, hq, hg]; field_simp
    linear_combination κ * b * e * hcs - κ * b * cos E * hDe
  rw [← hA, ← hB, ← hq, ← hg, ← k1, ← k2]
  ext <;> simp only [Vec3.plus, Vec3.scaled, Vec3.cross]
  · linear_combination A * g * c1 + B * g * c4
  · linear_combination A * g * c2 + B * g * c5
  · linear_combination A * g * c3 + B * g * c6

theorem coef_sin {a κ D x : ℝ} (ha : 0 < a) (hD : 0 < D) : -a * (1 / (a * D) * κ) * x = -κ * x / D := by
  field_simp

theorem coef_cos {a b κ D x : ℝ} (ha : 0 < a) (hD : 0 < D) : a * b * (1 / (a * D) * κ) * x = κ * b * x / D := by
  field_simp

theorem ClassicalElements.dirW_cross_dirP (el : ClassicalElements) :
    el.dirW.cross el.dirP = el.semilatusRectumVector := by
  rw [← el.dirP_cross_dirQ]
  have a1 := el.dirP_unit
  have a2 := el.dirP_dirQ
  simp only [Vec3.dot] at a1 a2
  ext <;> simp only [Vec3.cross]
  · linear_combination el.semilatusRectumVector.x * a1 - el.dirP.x * a2
  · linear_combination el.semilatusRectumVector.y * a1 - el.dirP.y * a2
  · linear_combination el.semilatusRectumVector.z * a1 - el.dirP.z * a2

theorem ClassicalElements.dirW_cross_dirQ (el : ClassicalElements) :
    el.dirW.cross el.semilatusRectumVector = el.dirP.scaled (-1) := by
  rw [← el.dirP_cross_dirQ]
  have a1 := el.dirQ_unit
  have a2 := el.dirP_dirQ
  simp only [Vec3.dot] at a1 a2
  ext <;> simp only [Vec3.cross, Vec3.scaled]
  · linear_combination -el.dirP.x * a1 + el.semilatusRectumVector.x * a2
  · linear_combination -el.dirP.y * a1 + el.semilatusRectumVector.y * a2
  · linear_combination -el.dirP.z * a1 + el.semilatusRectumVector.z * a2

end Openspace
