import Verif.Model.Iod
import Verif.Spec.Orbit
import Verif.Lemmas.Angles
import Verif.Lemmas.Linalg

/-!
# C57 to C59: orbit determination from two positions
-/

namespace Openspace

open Real

namespace Gauss

/-! ## The plane -/

theorem unscale {v u : Vec3} (h : v.normalized = .ok u) : v = u.scaled v.magnitude ∧ 0 < v.magnitude := by
  obtain ⟨h0, rfl⟩ := Vec3.normalized_eq_ok.mp h
  have hm := Vec3.magnitude_ne_zero.mpr h0
  refine ⟨?_, Vec3.magnitude_pos.mpr h0⟩
  ext <;> simp only [Vec3.scaled] <;> field_simp

/-- what lines 29-48 compute -/
theorem plane_ok {ra rb : Vec3} {pl : Plane} (h : plane ra rb = .ok pl) :
    ∃ e0 : Vec3, 0 < pl.ra_mag ∧ 0 < pl.r0_mag ∧ 0 < pl.rb_mag ∧ pl.ea.dot pl.ea = 1 ∧ e0.dot e0 = 1 ∧
      pl.ea.dot e0 = 0 ∧ ra = pl.ea.scaled pl.ra_mag ∧ rb = (pl.ea.scaled (rb.dot pl.ea)).plus (e0.scaled pl.r0_mag) ∧
      pl.w = pl.ea.cross e0 ∧ pl.rb_mag ^ 2 = (rb.dot pl.ea) ^ 2 + pl.r0_mag ^ 2 ∧
      pl.ua = pyAtan2 ra.z (-ra.x * pl.w.y + ra.y * pl.w.x) ∧
      pl.inc = wrapNeg (pyAtan2 (√(pl.w.x * pl.w.x + pl.w.y * pl.w.y)) pl.w.z) ∧
      pl.raan = wrapNeg (pyAtan2 pl.w.x (-pl.w.y)) := by
  simp only [plane, bind_eq_ok, pure_eq_ok, Except.ok.injEq] at h
  obtain ⟨ea, hea, e0, he0, rfl⟩ := h
  obtain ⟨h1, h2⟩ := unscale hea
  obtain ⟨h3, h4⟩ := unscale he0
  have hu := Vec3.normalized_dot_self hea
  have hu0 := Vec3.normalized_dot_self he0
  obtain ⟨R, hR⟩ : ∃ R, R = (rb.minus (ea.scaled (rb.dot ea))).magnitude := ⟨_, rfl⟩
  rw [← hR] at h3 h4
  have hort : (rb.minus (ea.scaled (rb.dot ea))).dot ea = 0 := by
    rw [Vec3.dot_minus_left, Vec3.dot_scaled_left, hu]; ring
  have hoe : ea.dot e0 = 0 := by
    have : R * ea.dot e0 = 0 := by
      rw [← Vec3.dot_scaled_right, ← h3, Vec3.dot_comm, hort]
    exact (mul_eq_zero.mp this).resolve_left h4.ne'
  have hrb : rb = (ea.scaled (rb.dot ea)).plus (e0.scaled R) := by
    rw [← h3]
    ext <;> simp only [Vec3.plus, Vec3.minus, Vec3.scaled] <;> ring
  have hsq : rb.magnitude ^ 2 = (rb.dot ea) ^ 2 + R ^ 2 := by
    rw [Vec3.magnitude_sq_dot]
    obtain ⟨A, hA⟩ : ∃ A, A = rb.dot ea := ⟨_, rfl⟩
    rw [← hA] at hrb ⊢
    rw [hrb]
    simp only [Vec3.dot, Vec3.plus, Vec3.scaled] at hu hu0 hoe ⊢
    linear_combination A ^ 2 * hu + R ^ 2 * hu0 + 2 * A * R * hoe
  have hrbpos : 0 < rb.magnitude := by
    rcases (Vec3.magnitude_nonneg rb).lt_or_eq with h | h
    · exact h
    · rw [← h] at hsq
      have : 0 < R ^ 2 := by positivity
      nlinarith [sq_nonneg (rb.dot ea)]
  refine ⟨e0, h2, hR ▸ h4, hrbpos, hu, hu0, hoe, h1, ?_, rfl, ?_, rfl, rfl, rfl⟩
  · simp only [← hR]; exact hrb
  · simp only [← hR]; exact hsq

theorem latitudeDir_add (i o u d : ℝ) : Spec.latitudeDir i o (u + d) =
    ((Spec.latitudeDir i o u).scaled (cos d)).plus
      (((⟨sin i * sin o, -(sin i * cos o), cos i⟩ : Vec3).cross (Spec.latitudeDir i o u)).scaled (sin d)) := by
  have h1 := sin_sq_add_cos_sq i
  have h2 := sin_sq_add_cos_sq o
  ext
  · simp only [Spec.latitudeDir, Vec3.plus, Vec3.scaled, Vec3.cross, cos_add, sin_add]
    linear_combination (sin u * cos o * sin d) * h1
  · simp only [Spec.latitudeDir, Vec3.plus, Vec3.scaled, Vec3.cross, cos_add, sin_add]
    linear_combination (sin u * sin o * sin d) * h1
  · simp only [Spec.latitudeDir, Vec3.plus, Vec3.scaled, Vec3.cross, cos_add, sin_add]
    linear_combination -(sin i * cos u * sin d) * h2

/-- inclination, node and argument of latitude describe the plane and the first direction -/
theorem plane_dir {ra rb : Vec3} {pl : Plane} (h : plane ra rb = .ok pl) (hq : ¬ (pl.w.x = 0 ∧ pl.w.y = 0)) :
    Spec.latitudeDir pl.inc pl.raan pl.ua = pl.ea ∧
    (⟨sin pl.inc * sin pl.raan, -(sin pl.inc * cos pl.raan), cos pl.inc⟩ : Vec3) = pl.w := by
  obtain ⟨e0, hra, -, -, hu, hu0, hoe, h1, -, hw, -, hua, hinc, hraan⟩ := plane_ok h
  have hwu : pl.w.x * pl.w.x + pl.w.y * pl.w.y + pl.w.z * pl.w.z = 1 := by
    rw [hw]
    simp only [Vec3.dot, Vec3.cross] at *
    nlinarith
  have hwe : pl.ea.x * pl.w.x + pl.ea.y * pl.w.y + pl.ea.z * pl.w.z = 0 := by
    rw [hw]; simp only [Vec3.cross]; ring
  obtain ⟨s, hs⟩ : ∃ s, s = √(pl.w.x * pl.w.x + pl.w.y * pl.w.y) := ⟨_, rfl⟩
  have hs2 : s ^ 2 = pl.w.x * pl.w.x + pl.w.y * pl.w.y := by
    rw [hs, sq_sqrt]; nlinarith [mul_self_nonneg pl.w.x, mul_self_nonneg pl.w.y]
  have hspos : 0 < s := by
    have h0 : 0 < pl.w.x * pl.w.x + pl.w.y * pl.w.y := by
      rcases not_and_or.mp hq with h | h
      · have := mul_self_pos.mpr h; nlinarith [mul_self_nonneg pl.w.y]
      · have := mul_self_pos.mpr h; nlinarith [mul_self_nonneg pl.w.x]
    rw [hs]; exact sqrt_pos.mpr h0
  have hne := hspos.ne'
  -- inclination
  have hn1 : √(pl.w.z * pl.w.z + s * s) = 1 := by
    rw [show pl.w.z * pl.w.z + s * s = 1 by linear_combination hs2 + hwu]; exact sqrt_one
  have hci : cos pl.inc = pl.w.z := by
    rw [hinc, wrapNeg_cos, ← hs]
    have := mul_cos_atan2 s pl.w.z
    rwa [hn1, one_mul] at this
  have hsi : sin pl.inc = s := by
    rw [hinc, wrapNeg_sin, ← hs]
    have := mul_sin_atan2 s pl.w.z
    rwa [hn1, one_mul] at this
  -- node
  have hn2 : √((-pl.w.y) * (-pl.w.y) + pl.w.x * pl.w.x) = s := by rw [hs]; congr 1; ring
  have hco : s * cos pl.raan = -pl.w.y := by
    rw [hraan, wrapNeg_cos]
    have := mul_cos_atan2 pl.w.x (-pl.w.y)
    rwa [hn2] at this
  have hso : s * sin pl.raan = pl.w.x := by
    rw [hraan, wrapNeg_sin]
    have := mul_sin_atan2 pl.w.x (-pl.w.y)
    rwa [hn2] at this
  -- argument of latitude
  obtain ⟨X, hX⟩ : ∃ X, X = -ra.x * pl.w.y + ra.y * pl.w.x := ⟨_, rfl⟩
  rw [← hX] at hua
  have hX' : X = pl.ra_mag * (-pl.ea.x * pl.w.y + pl.ea.y * pl.w.x) := by
    rw [hX, h1]; simp only [Vec3.scaled]; ring
  have hZ : ra.z = pl.ra_mag * pl.ea.z := by
    have := congrArg Vec3.z h1; simp only [Vec3.scaled] at this; rw [this]; ring
  simp only [Vec3.dot] at hu
  have hnorm : √(X * X + ra.z * ra.z) = pl.ra_mag * s := by
    rw [show X * X + ra.z * ra.z = (pl.ra_mag * s) ^ 2 by
      rw [hX', hZ]
      linear_combination (-pl.ra_mag ^ 2) * hs2 + (pl.ra_mag ^ 2 * (pl.w.x * pl.w.x + pl.w.y * pl.w.y)) * hu
        - pl.ra_mag ^ 2 * (pl.ea.x * pl.w.x + pl.ea.y * pl.w.y - pl.ea.z * pl.w.z) * hwe
        - pl.ra_mag ^ 2 * pl.ea.z ^ 2 * hwu]
    exact sqrt_sq (by positivity)
  have hcu : s * cos pl.ua = -pl.ea.x * pl.w.y + pl.ea.y * pl.w.x := by
    have := mul_cos_atan2 ra.z X
    rw [hnorm, ← hua, hX'] at this
    have hm := hra.ne'
    apply mul_left_cancel₀ hm
    linear_combination this
  have hsu : s * sin pl.ua = pl.ea.z := by
    have := mul_sin_atan2 ra.z X
    rw [hnorm, ← hua, hZ] at this
    apply mul_left_cancel₀ hra.ne'
    linear_combination this
  refine ⟨?_, ?_⟩
  · have hs2ne : s ^ 2 ≠ 0 := by positivity
    ext
    · apply mul_left_cancel₀ hs2ne
      simp only [Spec.latitudeDir, hci]
      linear_combination (s * cos pl.raan) * hcu + (-pl.ea.x * pl.w.y + pl.ea.y * pl.w.x) * hco
        - (pl.w.z * (s * sin pl.raan)) * hsu - pl.ea.z * pl.w.z * hso - pl.w.x * hwe - pl.ea.x * hs2
    · apply mul_left_cancel₀ hs2ne
      simp only [Spec.latitudeDir, hci]
      linear_combination (s * sin pl.raan) * hcu + (-pl.ea.x * pl.w.y + pl.ea.y * pl.w.x) * hso
        + (pl.w.z * (s * cos pl.raan)) * hsu + pl.ea.z * pl.w.z * hco - pl.w.y * hwe - pl.ea.y * hs2
    · simp only [Spec.latitudeDir, hsi]
      linear_combination hsu
  · ext
    · simp only; rw [hsi, hso]
    · simp only; rw [hsi, hco]; ring
    · exact hci

/-! ## Shape, perigee and anomaly -/

/-- the conic data computed from the ratio, whatever the ratio is -/
theorem elements_ok {epoch : Epoch} {pl : Plane} {rb : Vec3} {n tau : ℝ} {ce : ClassicalElements}
    (hra : 0 < pl.ra_mag) (hrb : 0 < pl.rb_mag) (hr0 : 0 < pl.r0_mag)
    (hsq : pl.rb_mag ^ 2 = (rb.dot pl.ea) ^ 2 + pl.r0_mag ^ 2)
    (h : elementsFromRatio epoch pl rb n tau = .ok ce) :
    ∃ ta ecosva esinva d : ℝ, 0 ≤ ce.eccentricity ∧ ce.eccentricity < 1 ∧ 0 ≤ ta ∧ ta < 2 * π ∧
      pl.rb_mag * cos d = rb.dot pl.ea ∧ pl.rb_mag * sin d = pl.r0_mag ∧
      ce.eccentricity * cos ta = ecosva ∧ ce.eccentricity * sin ta = esinva ∧
      ce.semimajor_axis * (1 - ce.eccentricity ^ 2) = (pl.ra_mag * pl.r0_mag * n / tau) ^ 2 ∧
      ecosva = (pl.ra_mag * pl.r0_mag * n / tau) ^ 2 / pl.ra_mag - 1 ∧
      ce.eccentricity * cos (ta + d) = (pl.ra_mag * pl.r0_mag * n / tau) ^ 2 / pl.rb_mag - 1 ∧
      0 < (pl.ra_mag * pl.r0_mag * n / tau) ^ 2 ∧
      ta = wrapNeg (pyAtan2 esinva ecosva) ∧
      ce.argument_of_perigee = wrapNeg (pl.ua - ta) ∧ ce.inclination = pl.inc ∧ ce.raan = pl.raan ∧
      ce.epoch = epoch ∧
      (∃ E, Spec.IsEccentricAnomaly ce.eccentricity ta E ∧ ce.mean_anomaly = E - ce.eccentricity * sin E) := by
  simp only [elementsFromRatio, bind_eq_ok, pure_eq_ok, Except.ok.injEq, pyDiv_eq_ok, pySqrt_eq_ok] at h
  obtain ⟨bs, ⟨htau, hb⟩, pa, ⟨-, hpa⟩, pb, ⟨-, hpb⟩, cosd, ⟨-, hcd⟩, sind, ⟨-, hsd⟩, esinva, ⟨hsd0, hes⟩, e, ⟨hct, he⟩,
    sma, ⟨he1, hsma⟩, se, ⟨he2, hse⟩, rfl⟩ := h
  replace hb := hb.symm; replace hpa := hpa.symm; replace hpb := hpb.symm; replace hcd := hcd.symm
  replace hsd := hsd.symm; replace hes := hes.symm; replace he := he.symm; replace hsma := hsma.symm
  replace hse := hse.symm
  obtain ⟨P, hP⟩ : ∃ P, P = (pl.ra_mag * pl.r0_mag * n / tau) ^ 2 := ⟨_, rfl⟩
  have hbP : bs * bs = P := by rw [hP, hb]; ring
  obtain ⟨ta, hta⟩ : ∃ ta, ta = wrapNeg (pyAtan2 esinva (pa - 1)) := ⟨_, rfl⟩
  rw [← hta] at hct he ⊢
  rw [hbP] at hpa hpb hsma
  simp only [pyCos] at hct he
  obtain ⟨N, hN⟩ : ∃ N, N = √((pa - 1) * (pa - 1) + esinva * esinva) := ⟨_, rfl⟩
  have hNc : N * cos ta = pa - 1 := by
    rw [hta, wrapNeg_cos, hN]; exact mul_cos_atan2 _ _
  have hNs : N * sin ta = esinva := by
    rw [hta, wrapNeg_sin, hN]; exact mul_sin_atan2 _ _
  have heN : e = N := by
    rw [he, ← hNc]; field_simp
  subst heN
  have he0 : 0 ≤ e := hN ▸ sqrt_nonneg _
  have helt : e < 1 := by
    have : e * e ≠ 1 := fun h => he1 (by rw [h]; ring)
    rcases lt_trichotomy e 1 with h | h | h
    · exact h
    · exact absurd (by rw [h]; ring) this
    · nlinarith
  have hd2 : cosd ^ 2 + sind ^ 2 = 1 := by
    rw [hcd, hsd, div_pow, div_pow, ← add_div, ← hsq, div_self (by positivity)]
  obtain ⟨d, hd⟩ : ∃ d, d = pyAtan2 sind cosd := ⟨_, rfl⟩
  have hn1 : √(cosd * cosd + sind * sind) = 1 := by
    rw [show cosd * cosd + sind * sind = 1 by linear_combination hd2]; exact sqrt_one
  have hcosd : cos d = cosd := by
    have := mul_cos_atan2 sind cosd; rwa [hn1, one_mul, ← hd] at this
  have hsind : sin d = sind := by
    have := mul_sin_atan2 sind cosd; rwa [hn1, one_mul, ← hd] at this
  have hvb : e * cos (ta + d) = P / pl.rb_mag - 1 := by
    rw [cos_add, hcosd, hsind, ← hpb]
    have : esinva * sind = (pa - 1) * cosd - (pb - 1) := by rw [hes]; field_simp
    linear_combination cosd * hNc - sind * hNs - this
  have hr1 : 0 < 1 + e * cos ta := by
    have := neg_one_le_cos ta
    nlinarith
  have hPpos : 0 < P := by
    have : P = pl.ra_mag * (1 + e * cos ta) := by
      rw [hNc, hpa]; field_simp; ring
    rw [this]; positivity
  obtain ⟨ht1, ht2⟩ := wrapNeg_atan2_range esinva (pa - 1)
  rw [← hta] at ht1 ht2
  refine ⟨ta, pa - 1, esinva, d, he0, helt, ht1, ht2, ?_, ?_, hNc, hNs, ?_, ?_, ?_, ?_, hta, rfl, rfl, rfl, rfl, ?_⟩
  · rw [hcosd, hcd]; field_simp
  · rw [hsind, hsd]; field_simp
  · simp only
    rw [← hP, hsma, sq, div_mul_cancel₀ _ he1]
  · rw [← hP, hpa]
  · rw [← hP]; exact hvb
  · rw [← hP]; exact hPpos
  · refine ⟨pyAtan2 (se * sin ta) (cos ta + e), ?_, rfl⟩
    have hnn : √((cos ta + e) * (cos ta + e) + se * sin ta * (se * sin ta)) = 1 + e * cos ta := by
      rw [show (cos ta + e) * (cos ta + e) + se * sin ta * (se * sin ta) = (1 + e * cos ta) ^ 2 by
        have h2 : se ^ 2 = 1 - e * e := by rw [hse, sq_sqrt he2]
        linear_combination (sin ta) ^ 2 * h2 + (1 - e ^ 2) * sin_sq_add_cos_sq ta]
      exact sqrt_sq hr1.le
    have h1 := mul_cos_atan2 (se * sin ta) (cos ta + e)
    have h2 := mul_sin_atan2 (se * sin ta) (cos ta + e)
    rw [hnn] at h1 h2
    refine ⟨h1, ?_⟩
    rw [h2, hse, sq]

end Gauss

/-! ## C57 -/

/-- the ellipse through both positions, with the angle between them and its semi-latus rectum -/
theorem Gauss.through {epoch : Epoch} {ra rb : Vec3} {pl : Gauss.Plane} {n tau : ℝ} {ce : ClassicalElements}
    (hp : Gauss.plane ra rb = .ok pl) (h : Gauss.elementsFromRatio epoch pl rb n tau = .ok ce)
    (hq : ¬ (ra.z = 0 ∧ rb.z = 0)) :
    0 ≤ ce.eccentricity ∧ ce.eccentricity < 1 ∧ ce.epoch = epoch ∧
    ∃ nua d : ℝ, Spec.orbitPoint ce nua = ra ∧ Spec.orbitPoint ce (nua + d) = rb ∧
      (∃ E, Spec.IsEccentricAnomaly ce.eccentricity nua E ∧ ce.mean_anomaly = E - ce.eccentricity * sin E) ∧
      pl.rb_mag * cos d = rb.dot pl.ea ∧ pl.rb_mag * sin d = pl.r0_mag ∧
      ce.semimajor_axis * (1 - ce.eccentricity ^ 2) = (pl.ra_mag * pl.r0_mag * n / tau) ^ 2 ∧
      pl.ra_mag * (1 + ce.eccentricity * cos nua) = (pl.ra_mag * pl.r0_mag * n / tau) ^ 2 ∧
      pl.rb_mag * (1 + ce.eccentricity * cos (nua + d)) = (pl.ra_mag * pl.r0_mag * n / tau) ^ 2 ∧
      0 < (pl.ra_mag * pl.r0_mag * n / tau) ^ 2 := by
  obtain ⟨e0, hra, hr0, hrb, hu, hu0, hoe, h1, h2, hw, hsq, -, -, -⟩ := Gauss.plane_ok hp
  have hq' : ¬ (pl.w.x = 0 ∧ pl.w.y = 0) := by
    rintro ⟨hx, hy⟩
    apply hq
    have hew : pl.ea.x * pl.w.x + pl.ea.y * pl.w.y + pl.ea.z * pl.w.z = 0 := by
      rw [hw]; simp only [Vec3.cross]; ring
    have h0w : e0.x * pl.w.x + e0.y * pl.w.y + e0.z * pl.w.z = 0 := by
      rw [hw]; simp only [Vec3.cross]; ring
    have hwu : pl.w.x * pl.w.x + pl.w.y * pl.w.y + pl.w.z * pl.w.z = 1 := by
      rw [hw]
      simp only [Vec3.dot, Vec3.cross] at *
      nlinarith
    rw [hx, hy] at hew h0w hwu
    have hz : pl.w.z ≠ 0 := by rintro h; rw [h] at hwu; norm_num at hwu
    have e1 : pl.ea.z = 0 := by
      rcases mul_eq_zero.mp (show pl.ea.z * pl.w.z = 0 by linarith) with h | h
      · exact h
      · exact absurd h hz
    have e2 : e0.z = 0 := by
      rcases mul_eq_zero.mp (show e0.z * pl.w.z = 0 by linarith) with h | h
      · exact h
      · exact absurd h hz
    constructor
    · rw [h1]; simp [Vec3.scaled, e1]
    · rw [h2]; simp [Vec3.scaled, Vec3.plus, e1, e2]
  obtain ⟨hdir, hwdir⟩ := Gauss.plane_dir hp hq'
  obtain ⟨ta, ecosva, esinva, d, he0, he1, -, -, hcd, hsd, hec, hes, hsma, heca, hvb, hP, -, haop, hinc, hraan, hep, hE⟩ :=
    Gauss.elements_ok hra hrb hr0 hsq h
  obtain ⟨P, hPe⟩ : ∃ P, P = (pl.ra_mag * pl.r0_mag * n / tau) ^ 2 := ⟨_, rfl⟩
  rw [← hPe] at hsma heca hvb hP
  have hna := hra.ne'
  have hnb := hrb.ne'
  have hPn := hP.ne'
  obtain ⟨k, hk⟩ := exists_wrapNeg (pl.ua - ta)
  have hlat : ∀ x, Spec.latitudeDir pl.inc pl.raan (ce.argument_of_perigee + (ta + x)) =
      Spec.latitudeDir pl.inc pl.raan (pl.ua + x) := by
    intro x
    have : ce.argument_of_perigee + (ta + x) = (pl.ua + x) + 2 * π * k := by rw [haop, hk]; ring
    simp only [Spec.latitudeDir, this, cos_turn, sin_turn]
  have ea1 : pl.ra_mag * (1 + ce.eccentricity * cos ta) = P := by rw [hec, heca]; field_simp; ring
  have eb1 : pl.rb_mag * (1 + ce.eccentricity * cos (ta + d)) = P := by rw [hvb]; field_simp; ring
  rw [← hPe]
  refine ⟨he0, he1, hep, ta, d, ?_, ?_, hE, hcd, hsd, hsma, ea1, eb1, hP⟩
  · unfold Spec.orbitPoint
    have h0 := hlat 0
    rw [add_zero, add_zero] at h0
    rw [hinc, hraan, h0, hdir, hsma, hec, heca]
    conv_rhs => rw [h1]
    congr 1
    rw [show 1 + (P / pl.ra_mag - 1) = P / pl.ra_mag by ring]
    field_simp
  · unfold Spec.orbitPoint
    rw [hinc, hraan, hlat d, Gauss.latitudeDir_add, hwdir, hdir, hsma, hvb]
    have hwe : pl.w.cross pl.ea = e0 := by
      rw [hw]
      simp only [Vec3.dot] at hu hoe
      ext
      · simp only [Vec3.cross]; linear_combination e0.x * hu - pl.ea.x * hoe
      · simp only [Vec3.cross]; linear_combination e0.y * hu - pl.ea.y * hoe
      · simp only [Vec3.cross]; linear_combination e0.z * hu - pl.ea.z * hoe
    rw [hwe]
    have hr : P / (1 + (P / pl.rb_mag - 1)) = pl.rb_mag := by
      rw [show 1 + (P / pl.rb_mag - 1) = P / pl.rb_mag by ring]
      field_simp
    rw [hr]
    conv_rhs => rw [h2]
    rw [← hcd, ← hsd]
    ext <;> simp only [Vec3.plus, Vec3.scaled] <;> ring

/-- **C57**. The elements the method returns describe an ellipse that passes through both
positions, with the returned mean anomaly at the first.  This holds whatever value `n` the
sector-to-triangle iteration produced.  Partial: the two positions must not lie in the equatorial
plane (see `C57_equatorial_violated`). -/
theorem C57_ratio_partial {epoch : Epoch} {ra rb : Vec3} {pl : Gauss.Plane} {n tau : ℝ} {ce : ClassicalElements}
    (hp : Gauss.plane ra rb = .ok pl) (h : Gauss.elementsFromRatio epoch pl rb n tau = .ok ce)
    (hq : ¬ (ra.z = 0 ∧ rb.z = 0)) :
    0 ≤ ce.eccentricity ∧ ce.eccentricity < 1 ∧ ce.epoch = epoch ∧
    ∃ nua nub : ℝ, Spec.orbitPoint ce nua = ra ∧ Spec.orbitPoint ce nub = rb ∧
      ∃ E, Spec.IsEccentricAnomaly ce.eccentricity nua E ∧ ce.mean_anomaly = E - ce.eccentricity * sin E := by
  obtain ⟨h1, h2, h3, nua, d, ha, hb, hE, -⟩ := Gauss.through hp h hq
  exact ⟨h1, h2, h3, nua, nua + d, ha, hb, hE⟩

/-- **C57** for the method on two observations -/
theorem C57_partial {fuel : Nat} {ob1 ob2 : Observation} {ce : ClassicalElements} {ra rb : Vec3}
    (h : Gauss.coesFromPositions fuel ob1 ob2 = .ok ce)
    (h1 : ob1.ijkPosition = .ok ra) (h2 : ob2.ijkPosition = .ok rb) (hq : ¬ (ra.z = 0 ∧ rb.z = 0)) :
    0 ≤ ce.eccentricity ∧ ce.eccentricity < 1 ∧ ce.epoch = ob1.epoch ∧
    ∃ nua nub : ℝ, Spec.orbitPoint ce nua = ra ∧ Spec.orbitPoint ce nub = rb ∧
      ∃ E, Spec.IsEccentricAnomaly ce.eccentricity nua E ∧ ce.mean_anomaly = E - ce.eccentricity * sin E := by
  simp only [Gauss.coesFromPositions, h1, h2, ok_bind, Gauss.coesFromVectors, bind_eq_ok] at h
  obtain ⟨pl, hp, n, -, he⟩ := h
  exact C57_ratio_partial hp he hq

end Openspace
