import Verif.Lemmas.DoubleGravityFrame
import Verif.Model.DoubleInertial
import Verif.Props.DoubleForces

/-! # The derivative of a state in double precision at a rounded position -/

namespace Openspace.F64

open Real Spec

theorem plus_error {a' b' a b : Vec3} {da db A B : ℝ} (ha : (a'.minus a).magnitude ≤ da) (hb : (b'.minus b).magnitude ≤ db)
    (hA : a.magnitude ≤ A) (hB : b.magnitude ≤ B) :
    ((plus a' b').minus (a.plus b)).magnitude ≤ 1.00001 * (da + db) + 1.2e-16 * (A + B) ∧ (a.plus b).magnitude ≤ A + B := by
  have hu := u_pos
  have hu' := u_tiny
  have h1 := plus_round a' b'
  have h2 := plus_plus_le a b a' b'
  have h3 := minus_triangle (plus a' b') (a'.plus b') (a.plus b)
  have h4 := magnitude_le_of_minus (a'.plus b') (a.plus b)
  have h5 := Vec3.magnitude_plus_le a b
  refine ⟨?_, by linarith⟩
  have h6 : u * (a'.plus b').magnitude ≤ 12 / 10 ^ 17 * (A + B + (da + db)) :=
    mul_le_mul hu' (by linarith) (Vec3.magnitude_nonneg _) (by norm_num)
  have h7 := (Vec3.magnitude_nonneg _).trans h2
  norm_num at h6 ⊢
  linarith

theorem self_minus (v : Vec3) : (v.minus v).magnitude ≤ 0 := by
  rw [show v.minus v = ⟨0, 0, 0⟩ by ext <;> simp [Vec3.minus]]
  exact (Vec3.magnitude_of_dot le_rfl (by simp [Vec3.dot])).le

/-- the sum of six accelerations -/
theorem sum_error {t' e' m' s' p' g' t e m s p g : Vec3} {dt de dm ds dp dg T E M S P G : ℝ}
    (ht : (t'.minus t).magnitude ≤ dt) (he : (e'.minus e).magnitude ≤ de) (hm : (m'.minus m).magnitude ≤ dm)
    (hs : (s'.minus s).magnitude ≤ ds) (hp : (p'.minus p).magnitude ≤ dp) (hg : (g'.minus g).magnitude ≤ dg)
    (hT : t.magnitude ≤ T) (hE : e.magnitude ≤ E) (hM : m.magnitude ≤ M) (hS : s.magnitude ≤ S) (hP : p.magnitude ≤ P)
    (hG : g.magnitude ≤ G) :
    ((plus (plus (plus (plus (plus t' e') m') s') p') g').minus (((((t.plus e).plus m).plus s).plus p).plus g)).magnitude ≤
      1.0001 * (dt + de + dm + ds + dp + dg) + 6.1e-16 * (T + E + M + S + P + G) ∧
    (((((t.plus e).plus m).plus s).plus p).plus g).magnitude ≤ T + E + M + S + P + G := by
  have hu := u_pos
  have hu' := u_tiny
  obtain ⟨a1, b1⟩ := plus_error ht he hT hE
  obtain ⟨a2, b2⟩ := plus_error a1 hm b1 hM
  obtain ⟨a3, b3⟩ := plus_error a2 hs b2 hS
  obtain ⟨a4, b4⟩ := plus_error a3 hp b3 hP
  obtain ⟨a5, b5⟩ := plus_error a4 hg b4 hG
  refine ⟨?_, b5⟩
  have n1 := (Vec3.magnitude_nonneg _).trans ht
  have n2 := (Vec3.magnitude_nonneg _).trans he
  have n3 := (Vec3.magnitude_nonneg _).trans hm
  have n4 := (Vec3.magnitude_nonneg _).trans hs
  have n5 := (Vec3.magnitude_nonneg _).trans hp
  have n6 := (Vec3.magnitude_nonneg _).trans hg
  have m1 := (Vec3.magnitude_nonneg _).trans hT
  have m2 := (Vec3.magnitude_nonneg _).trans hE
  have m3 := (Vec3.magnitude_nonneg _).trans hM
  have m4 := (Vec3.magnitude_nonneg _).trans hS
  have m5 := (Vec3.magnitude_nonneg _).trans hP
  have m6 := (Vec3.magnitude_nonneg _).trans hG
  refine a5.trans ?_
  norm_num
  linarith

theorem scaled_minus (a b : Vec3) (k : ℝ) : ((a.scaled k).minus (b.scaled k)).magnitude = |k| * (a.minus b).magnitude := by
  rw [← Vec3.magnitude_scaled_abs]
  congr 1
  ext <;> simp [Vec3.minus, Vec3.scaled] <;> ring

/-- the inverse square law outside a sphere has the Lipschitz constant `2 / ρ³` -/
theorem field_lipschitz_sharp {a b : Vec3} {ρ : ℝ} (hρ : 0 < ρ) (ha : ρ ≤ a.magnitude) (hb : ρ ≤ b.magnitude) :
    ((field a).minus (field b)).magnitude ≤ 2 * (a.minus b).magnitude / ρ ^ 3 := by
  obtain ⟨A, hA⟩ : ∃ A, A = a.magnitude := ⟨_, rfl⟩
  obtain ⟨B, hB⟩ : ∃ B, B = b.magnitude := ⟨_, rfl⟩
  obtain ⟨t, ht⟩ : ∃ t, t = a.dot b := ⟨_, rfl⟩
  rw [← hA] at ha
  rw [← hB] at hb
  have A0 : 0 < A := by linarith
  have B0 : 0 < B := by linarith
  have ea : a.dot a = A ^ 2 := by rw [hA, Vec3.magnitude_sq_dot]
  have eb : b.dot b = B ^ 2 := by rw [hB, Vec3.magnitude_sq_dot]
  have hle : t ≤ A * B := by rw [ht, hA, hB]; exact (le_abs_self _).trans (Vec3.cauchy a b)
  have e1 : ((field a).minus (field b)).magnitude ^ 2 = ((A - B) * (1 / (A * B * B) + 1 / (A * A * B))) ^ 2 +
      2 * (A * B - t) * (1 / (A * A * A) * (1 / (B * B * B))) := by
    rw [Vec3.magnitude_sq_dot]
    have : ((field a).minus (field b)).dot ((field a).minus (field b)) =
        a.dot a * (1 / (A * A * A)) ^ 2 + b.dot b * (1 / (B * B * B)) ^ 2 -
          2 * a.dot b * (1 / (A * A * A) * (1 / (B * B * B))) := by
      simp only [field, Vec3.minus, Vec3.scaled, Vec3.dot, ← hA, ← hB]; ring
    rw [this, ea, eb, ← ht]
    field_simp
    ring
  have e2 : (a.minus b).magnitude ^ 2 = (A - B) ^ 2 + 2 * (A * B - t) := by
    rw [Vec3.magnitude_sq_dot]
    have : (a.minus b).dot (a.minus b) = a.dot a + b.dot b - 2 * a.dot b := by
      simp only [Vec3.minus, Vec3.dot]; ring
    rw [this, ea, eb, ← ht]
    ring
  refine (pow_le_pow_iff_left₀ (Vec3.magnitude_nonneg _) (by have := (a.minus b).magnitude_nonneg; positivity) two_ne_zero).mp ?_
  have c1 : 1 / (A * B * B) ≤ 1 / ρ ^ 3 := by
    rw [show ρ ^ 3 = ρ * ρ * ρ by ring]; gcongr
  have c2 : 1 / (A * A * B) ≤ 1 / ρ ^ 3 := by
    rw [show ρ ^ 3 = ρ * ρ * ρ by ring]; gcongr
  have c3 : 1 / (A * A * A) ≤ 1 / ρ ^ 3 := by
    rw [show ρ ^ 3 = ρ * ρ * ρ by ring]; gcongr
  have c4 : 1 / (B * B * B) ≤ 1 / ρ ^ 3 := by
    rw [show ρ ^ 3 = ρ * ρ * ρ by ring]; gcongr
  have hs : 0 ≤ 2 * (A * B - t) := by linarith
  have k1 : 1 / (A * A * A) * (1 / (B * B * B)) ≤ 1 / ρ ^ 3 * (1 / ρ ^ 3) := by gcongr
  have k2 : (1 / (A * B * B) + 1 / (A * A * B)) ^ 2 ≤ (1 / ρ ^ 3 + 1 / ρ ^ 3) ^ 2 := by gcongr
  have k3 := mul_le_mul_of_nonneg_left k1 hs
  have k4 := mul_le_mul_of_nonneg_left k2 (sq_nonneg (A - B))
  have k5 : 0 ≤ 2 * (A * B - t) * (1 / ρ ^ 3 * (1 / ρ ^ 3)) := by positivity
  rw [e1, div_pow, mul_pow 2 (a.minus b).magnitude, e2, mul_pow (A - B)]
  calc _ ≤ (A - B) ^ 2 * (1 / ρ ^ 3 + 1 / ρ ^ 3) ^ 2 + 4 * (2 * (A * B - t) * (1 / ρ ^ 3 * (1 / ρ ^ 3))) := by linarith
    _ = _ := by field_simp; ring

/-- the attraction of the Earth at two positions -/
theorem earth_lipschitz {s' s : GCRF} {ρ δ : ℝ} (hρ : 0 < ρ) (h' : ρ ≤ s'.position.magnitude) (h : ρ ≤ s.position.magnitude)
    (hd : (s'.position.minus s.position).magnitude ≤ δ) :
    ∃ a' a, s'.accelerationFromEarth = .ok a' ∧ s.accelerationFromEarth = .ok a ∧
      (a'.minus a).magnitude ≤ Earth.MU * (2 * δ / ρ ^ 3) := by
  have e : ∀ v : Vec3, v.scaled (-Earth.MU / v.magnitude ^ 3) = (field v).scaled (-Earth.MU) := by
    intro v
    ext <;> simp only [field, Vec3.scaled] <;> ring
  refine ⟨_, _, accelerationFromEarth_ok (Vec3.magnitude_pos.mp (by linarith)),
    accelerationFromEarth_ok (Vec3.magnitude_pos.mp (by linarith)), ?_⟩
  rw [e, e, scaled_minus, abs_neg, abs_of_pos (by norm_num [Earth.MU])]
  have := field_lipschitz_sharp hρ h' h
  have hM : 0 ≤ Earth.MU := by norm_num [Earth.MU]
  gcongr
  refine this.trans ?_
  gcongr

/-- the disturbing acceleration by a third body at two positions -/
theorem third_lipschitz {s p' p : Vec3} {mu ρ δ : ℝ} (hmu : 0 ≤ mu) (hρ : 0 < ρ) (hs : 0 < s.magnitude)
    (h' : ρ ≤ s.magnitude - p'.magnitude) (h : ρ ≤ s.magnitude - p.magnitude) (hd : (p'.minus p).magnitude ≤ δ) :
    ∃ a' a, GCRF.thirdBody s p' mu = .ok a' ∧ GCRF.thirdBody s p mu = .ok a ∧
      (a'.minus a).magnitude ≤ mu * (4 * δ / ρ ^ 3) := by
  have r' := magnitude_minus_ge s p'
  have r := magnitude_minus_ge s p
  refine ⟨_, _, thirdBody_exact mu hs (by linarith), thirdBody_exact mu hs (by linarith), ?_⟩
  rw [scaled_minus, abs_of_nonneg hmu]
  have e : ((field (s.minus p')).minus (field s)).minus ((field (s.minus p)).minus (field s)) =
      (field (s.minus p')).minus (field (s.minus p)) := by ext <;> simp [Vec3.minus]
  rw [e]
  have := field_lipschitz (a := s.minus p') (b := s.minus p) hρ (by linarith) (by linarith)
  gcongr
  refine this.trans ?_
  have e2 : ((s.minus p').minus (s.minus p)).magnitude = (p'.minus p).magnitude := by
    rw [show (s.minus p').minus (s.minus p) = (p'.minus p).scaled (-1) by
      ext <;> simp [Vec3.minus, Vec3.scaled], Vec3.magnitude_scaled_abs]
    simp
  rw [e2]
  gcongr

/-- the conversions between GCRF and ITRF at the epoch `e` have a relative error of at most `f` -/
structure FrameError (lib : Libm) (e f : ℝ) : Prop where
  itrf : ∀ p, ∃ q' q, gcrfToItrf lib p e = .ok q' ∧ PositionConvert.gcrfToItrf p ⟨e⟩ = .ok q ∧
    (q'.minus q).magnitude ≤ f * p.magnitude
  gcrf : ∀ q, ∃ p' p, itrfToGcrf lib q e = .ok p' ∧ PositionConvert.itrfToGcrf q ⟨e⟩ = .ok p ∧
    (p'.minus p).magnitude ≤ f * q.magnitude
  lo : 1e-10 ≤ f

theorem near_numbers {r r' ε : ℝ} (hr : 5000 ≤ r) (hε : ε ≤ 1e-5) (hd : |r' - r| ≤ ε * r) :
    0.99999 * r ≤ r' ∧ r' ≤ 1.00001 * r := by
  have h : ε * r ≤ 1e-5 * r := by gcongr
  obtain ⟨h1, h2⟩ := _root_.abs_le.mp (hd.trans h)
  norm_num at h1 h2 ⊢
  constructor <;> linarith

theorem earth_error {s' s : GCRF} {ε : ℝ} (hε : 0 ≤ ε) (hε' : ε ≤ 1e-5) (h5 : 5000 ≤ s.position.magnitude)
    (hp : (s'.position.minus s.position).magnitude ≤ ε * s.position.magnitude) :
    ∃ a' a, accelerationFromEarth s'.position = .ok a' ∧ s.accelerationFromEarth = .ok a ∧
      (a'.minus a).magnitude ≤ (2.3e-15 + 2.001 * ε) * (Earth.MU / s.position.magnitude ^ 2) := by
  obtain ⟨r, hr⟩ : ∃ r, r = s.position.magnitude := ⟨_, rfl⟩
  obtain ⟨r', hr'⟩ : ∃ r', r' = s'.position.magnitude := ⟨_, rfl⟩
  rw [← hr] at h5 hp
  have hr0 : 0 < r := by linarith
  obtain ⟨n1, n2⟩ := near_numbers (r' := r') h5 (hε')
    (by rw [hr', hr]; exact (magnitude_sub_le _ _).trans (by rw [← hr]; exact hp))
  have hM : 0 < Earth.MU := by norm_num [Earth.MU]
  obtain ⟨b, a, c1, c2, c3⟩ := earth_lipschitz (s' := s') (s := s) (ρ := 0.99999 * r) (by positivity) (by rw [← hr']; exact n1)
    (by rw [← hr]; norm_num; linarith) hp
  have hne : s'.position ≠ ⟨0, 0, 0⟩ := Vec3.magnitude_pos.mp (by rw [← hr']; norm_num at n1; linarith)
  obtain ⟨a', b', d1, d2, d3⟩ := C141_earth s' hne
  obtain ⟨b'', e1, e2⟩ := earth_magnitude s' hne
  obtain rfl : b' = b := by rw [d2, Except.ok.injEq] at c1; exact c1
  obtain rfl : b' = b'' := by rw [d2, Except.ok.injEq] at e1; exact e1
  refine ⟨a', a, d1, c2, ?_⟩
  rw [← hr]
  rw [← hr'] at e2
  have k1 : b'.magnitude ≤ 1.0001 * (Earth.MU / r ^ 2) := by
    rw [e2]
    calc Earth.MU / r' ^ 2 ≤ Earth.MU / (0.99999 * r) ^ 2 := by gcongr
      _ = 1 / 0.99999 ^ 2 * (Earth.MU / r ^ 2) := by field_simp
      _ ≤ _ := by gcongr; norm_num
  have k2 : Earth.MU * (2 * (ε * r) / (0.99999 * r) ^ 3) ≤ 2.001 * ε * (Earth.MU / r ^ 2) := by
    have : Earth.MU * (2 * (ε * r) / (0.99999 * r) ^ 3) = 2 / 0.99999 ^ 3 * ε * (Earth.MU / r ^ 2) := by field_simp
    rw [this]
    gcongr
    norm_num
  have k3 := minus_triangle a' b' a
  have k4 : 0 ≤ Earth.MU / r ^ 2 := by positivity
  norm_num at k1 k2 d3 c3 ⊢
  linarith

theorem moon_error {lib : Libm} (hlib : Spec.Accurate lib) {s' s : GCRF} (he : s'.epoch = s.epoch) {ε : ℝ} (hε : 0 ≤ ε)
    (hε' : ε ≤ 1e-5) (h0 : 1 ≤ s.epoch.value) (h1 : s.epoch.value ≤ 131072) (h5 : 5000 ≤ s.position.magnitude)
    (h6 : s.position.magnitude ≤ 120000) (hp : (s'.position.minus s.position).magnitude ≤ ε * s.position.magnitude) :
    ∃ a' a, accelerationFromMoon lib s'.position s'.epoch.value = .ok a' ∧ s.accelerationFromMoon = .ok a ∧
      (a'.minus a).magnitude ≤ 2e-15 + 0.02 * ε * (Earth.MU / s.position.magnitude ^ 2) := by
  obtain ⟨r, hr⟩ : ∃ r, r = s.position.magnitude := ⟨_, rfl⟩
  obtain ⟨r', hr'⟩ : ∃ r', r' = s'.position.magnitude := ⟨_, rfl⟩
  rw [← hr] at h5 h6 hp
  have hr0 : 0 < r := by linarith
  obtain ⟨n1, n2⟩ := near_numbers (r' := r') h5 (hε')
    (by rw [hr', hr]; exact (magnitude_sub_le _ _).trans (by rw [← hr]; exact hp))
  norm_num at n2
  obtain ⟨a', b, c1, c2, c3⟩ := C141_moon hlib s' (by rwa [he]) (by rwa [he]) (by rw [← hr']; linarith)
  obtain ⟨m, m1, m2, m3⟩ := C30_moon s.epoch
  obtain ⟨b', a, d1, d2, d3⟩ := third_lipschitz (s := m) (p' := s'.position) (p := s.position) (mu := Moon.MU) (ρ := 231000)
    (by norm_num [Moon.MU]) (by norm_num) (by linarith) (by rw [← hr']; linarith) (by rw [← hr]; linarith) hp
  have e1 : s'.accelerationFromMoon = .ok b' := by simp only [GCRF.accelerationFromMoon, he, m1, ok_bind, d1]
  obtain rfl : b = b' := by rw [c2, Except.ok.injEq] at e1; exact e1
  refine ⟨a', a, c1, by simp only [GCRF.accelerationFromMoon, m1, ok_bind, d2], ?_⟩
  have k3 := minus_triangle a' b a
  have k4 : Moon.MU * (4 * (ε * r) / 231000 ^ 3) ≤ 0.02 * ε * (Earth.MU / r ^ 2) := by
    rw [← mul_div_assoc (0.02 * ε), le_div_iff₀ (by positivity)]
    have : r ^ 3 ≤ 120000 ^ 3 := by gcongr
    have k := mul_le_mul_of_nonneg_left this hε
    norm_num [Moon.MU, Earth.MU] at k ⊢
    nlinarith
  rw [← hr]
  linarith

theorem sun_error {lib : Libm} (hlib : Spec.Accurate lib) {s' s : GCRF} (he : s'.epoch = s.epoch) {ε : ℝ} (hε : 0 ≤ ε)
    (hε' : ε ≤ 1e-5) (h0 : 1 ≤ s.epoch.value) (h1 : s.epoch.value ≤ 131072) (h5 : 5000 ≤ s.position.magnitude)
    (h6 : s.position.magnitude ≤ 120000) (hp : (s'.position.minus s.position).magnitude ≤ ε * s.position.magnitude) :
    ∃ a' a, accelerationFromSun lib s'.position s'.epoch.value = .ok a' ∧ s.accelerationFromSun = .ok a ∧
      (a'.minus a).magnitude ≤ 2e-15 + 0.02 * ε * (Earth.MU / s.position.magnitude ^ 2) := by
  obtain ⟨r, hr⟩ : ∃ r, r = s.position.magnitude := ⟨_, rfl⟩
  obtain ⟨r', hr'⟩ : ∃ r', r' = s'.position.magnitude := ⟨_, rfl⟩
  rw [← hr] at h5 h6 hp
  have hr0 : 0 < r := by linarith
  obtain ⟨n1, n2⟩ := near_numbers (r' := r') h5 (hε')
    (by rw [hr', hr]; exact (magnitude_sub_le _ _).trans (by rw [← hr]; exact hp))
  norm_num at n2
  obtain ⟨a', b, c1, c2, c3⟩ := C141_sun hlib s' (by rwa [he]) (by rwa [he]) (by rw [← hr']; linarith)
  obtain ⟨m2, m3, -⟩ := C30_sun s.epoch
  norm_num at m2
  obtain ⟨b', a, d1, d2, d3⟩ := third_lipschitz (s := Sun.getPosition s.epoch) (p' := s'.position) (p := s.position)
    (mu := Sun.MU) (ρ := 146000000)
    (by norm_num [Sun.MU]) (by norm_num) (by linarith) (by rw [← hr']; linarith) (by rw [← hr]; linarith) hp
  have e1 : s'.accelerationFromSun = .ok b' := by rw [GCRF.accelerationFromSun, he, d1]
  obtain rfl : b = b' := by rw [c2, Except.ok.injEq] at e1; exact e1
  refine ⟨a', a, c1, by rw [GCRF.accelerationFromSun, d2], ?_⟩
  have k3 := minus_triangle a' b a
  have k4 : Sun.MU * (4 * (ε * r) / 146000000 ^ 3) ≤ 0.02 * ε * (Earth.MU / r ^ 2) := by
    rw [← mul_div_assoc (0.02 * ε), le_div_iff₀ (by positivity)]
    have : r ^ 3 ≤ 120000 ^ 3 := by gcongr
    have k := mul_le_mul_of_nonneg_left this hε
    norm_num [Sun.MU, Earth.MU] at k ⊢
    nlinarith
  rw [← hr]
  linarith

theorem srp_zero {lib : Libm} (hlib : Spec.Accurate lib) {s : GCRF} (h0 : 1 ≤ s.epoch.value) (h1 : s.epoch.value ≤ 131072)
    (h6 : s.position.magnitude ≤ 125000) (hk : s.srp_scalar = 0) :
    accelerationFromSrp lib s.position s.epoch.value s.srp_scalar = .ok ⟨0, 0, 0⟩ ∧ s.accelerationFromSrp = .ok ⟨0, 0, 0⟩ := by
  obtain ⟨a', a, c1, c2, c3⟩ := C141_srp hlib s h0 h1 h6
  obtain ⟨b, d1, d2⟩ := srp_bound s h6
  obtain rfl : a = b := by rw [c2, Except.ok.injEq] at d1; exact d1
  rw [hk, abs_zero, mul_zero] at d2
  rw [d2, mul_zero] at c3
  have z : ∀ v : Vec3, v.magnitude ≤ 0 → v = ⟨0, 0, 0⟩ := by
    intro v hv
    by_contra hne
    exact absurd (Vec3.magnitude_pos.mpr hne) (not_lt.mpr hv)
  have e1 := z a d2.le
  have e2 := z _ c3
  subst e1
  have e3 : a' = ⟨0, 0, 0⟩ := by
    simp only [Vec3.minus, sub_zero] at e2
    exact e2
  rw [e3] at c1
  exact ⟨c1, c2⟩

/-- the derivative at a rounded position with a rounded thrust, without radiation pressure -/
theorem derivative_error {lib : Libm} {tan : ℝ → ℝ} (hlib : Spec.Accurate lib) (hatan : Spec.Atan2Accurate lib)
    (hpow : Spec.PowAccurate lib) (htan : Spec.TanAccurate tan) {f ε c : ℝ} {s' s : GCRF} {q : Vec3}
    (he : s'.epoch = s.epoch) (hu' : s'.use_perturbations = true) (hu : s.use_perturbations = true)
    (hk' : s'.srp_scalar = 0) (hk : s.srp_scalar = 0) (hF : FrameError lib s.epoch.value f)
    (h0 : 1 ≤ s.epoch.value) (h1 : s.epoch.value ≤ 131072) (hε : 0 ≤ ε)
    (hp : (s'.position.minus s.position).magnitude ≤ ε * s.position.magnitude) (h5 : 5000 ≤ s.position.magnitude)
    (h6 : s.position.magnitude ≤ 120000) (hq : PositionConvert.gcrfToItrf s.position s.epoch = .ok q) (c0 : 0 < c)
    (c1 : c ≤ 1) (hc : c * q.magnitude ≤ axis q) (hs : 1.001 * (f + ε) ≤ 1e-5 * c)
    (ht : (s'.thrust.minus s.thrust).magnitude ≤ 4e-15 * s.thrust.magnitude) (hT : s.thrust.magnitude ≤ 1e-3) :
    ∃ a' a, derivative lib tan s' = .ok (s'.velocity, a') ∧ s.derivative = .ok (s.velocity, a) ∧
      (a'.minus a).magnitude ≤ (0.481 * ((f + ε) / c) + 2.05 * ε + 1e-14) * (Earth.MU / s.position.magnitude ^ 2) + 5e-15 ∧
      a.magnitude ≤ 1.01 * (Earth.MU / s.position.magnitude ^ 2) + 1.02e-3 := by
  have hlo := hF.lo
  have hε' : ε ≤ 1e-5 := by norm_num at hs hlo c1 ⊢; linarith
  have hm' : s'.position.magnitude ≤ 125000 := by
    obtain ⟨n1, n2⟩ := near_numbers (r' := s'.position.magnitude) h5 (hε')
      ((magnitude_sub_le _ _).trans hp)
    norm_num at n2
    linarith
  obtain ⟨e', e, e1, e2, e3⟩ := earth_error hε hε' h5 hp
  obtain ⟨m', m, m1, m2, m3⟩ := moon_error hlib he hε hε' h0 h1 h5 h6 hp
  obtain ⟨w', w, w1, w2, w3⟩ := sun_error hlib he hε hε' h0 h1 h5 h6 hp
  obtain ⟨p1, -⟩ := srp_zero hlib (s := s') (by rwa [he]) (by rwa [he]) hm' hk'
  obtain ⟨-, p2⟩ := srp_zero hlib (s := s) h0 h1 (by linarith) hk
  obtain ⟨g', g, g1, g2, g3⟩ := gravity_error (s := s) hlib hatan hpow htan rfl rfl hF.itrf hF.gcrf hlo hε hp h5 hq c0 hc hs
  have hax0 : 0 < q.x * q.x + q.y * q.y := by
    have m1 := (gcrfToItrf_magnitude _ hq).1
    have : 0 < axis q := lt_of_lt_of_le (mul_pos c0 (by linarith)) hc
    exact Real.sqrt_pos.mp this
  have hG0 : 0 < Earth.MU / s.position.magnitude ^ 2 := div_pos (by norm_num [Earth.MU]) (by positivity)
  obtain ⟨b1, b2, b3⟩ := earth_magnitude s (Vec3.magnitude_pos.mp (by linarith))
  obtain rfl : b1 = e := by rw [e2, Except.ok.injEq] at b2; exact b2.symm
  obtain ⟨b4, b5, b6⟩ := moon_bound s (by linarith)
  obtain rfl : b4 = m := by rw [m2, Except.ok.injEq] at b5; exact b5.symm
  obtain ⟨b7, b8, b9⟩ := sun_bound s (by linarith)
  obtain rfl : b7 = w := by rw [w2, Except.ok.injEq] at b8; exact b8.symm
  obtain ⟨b10, b11, b12⟩ := gravity_bound s h5 (by
    intro z hz
    rw [hq, Except.ok.injEq] at hz
    rw [hz] at hax0
    norm_num at hax0)
  obtain rfl : b10 = g := by rw [g2, Except.ok.injEq] at b11; exact b11.symm
  have z0 : ((⟨0, 0, 0⟩ : Vec3).minus ⟨0, 0, 0⟩).magnitude ≤ 0 := by
    rw [show (⟨0, 0, 0⟩ : Vec3).minus ⟨0, 0, 0⟩ = ⟨0, 0, 0⟩ by ext <;> simp [Vec3.minus]]
    exact (Vec3.magnitude_of_dot le_rfl (by simp [Vec3.dot])).le
  have z1 : (⟨0, 0, 0⟩ : Vec3).magnitude ≤ 0 := (Vec3.magnitude_of_dot le_rfl (by simp [Vec3.dot])).le
  rw [he] at m1 w1 p1
  obtain ⟨s1, s2⟩ := sum_error ht e3 m3 w3 z0 g3 hT b3.le b6 b9 z1 b12
  refine ⟨_, _, ?_, ?_, s1.trans ?_, s2.trans ?_⟩
  · simp only [derivative, he, e1, m1, w1, p1, g1, ok_bind, pure_eq_ok, hu', if_true]
  · simp only [GCRF.derivative, GCRF.accelerationFromThrust, Vec3.copy, e2, m2, w2, p2, g2, ok_bind, pure_eq_ok, hu, if_true]
  · obtain ⟨G, hG⟩ : ∃ G, G = Earth.MU / s.position.magnitude ^ 2 := ⟨_, rfl⟩
    rw [← hG] at hG0 ⊢
    have x1 : 0 ≤ ε * G := by positivity
    have x2 : 0 ≤ (f + ε) / c * G := by
      have : 0 ≤ f := by norm_num at hlo ⊢; linarith
      positivity
    rw [mul_div_assoc]
    norm_num at hT ⊢
    linarith
  · norm_num
    linarith

end Openspace.F64
