import Verif.Lemmas.DoubleHeight
import Verif.Lemmas.DoubleGaussAngles
import Verif.Props.DoubleHill

/-!
# C154: the accuracy of the geodetic coordinates in double precision
-/

namespace Openspace

open Real Spec

namespace F64

theorem near_a2 : Near geoA2 (Earth.RADIUS * Earth.RADIUS) 3.01 :=
  (near_a.mulr near_a (by norm_num) (by norm_num) (by norm_num) (by norm_num)).mono (by norm_num)

/-- the height in doubles, at the latitude that has been found -/
theorem height_rounded {lib : Libm} (hlib : Accurate lib) {ρ ρ' z r φ θ ε n n' : ℝ} (h1 : 6000 ≤ r) (hr : r ^ 2 = ρ ^ 2 + z ^ 2)
    (hρ0 : 0 ≤ ρ) (hρ : Near ρ' ρ 4) (hφ : |φ - θ| ≤ ε) (hε : ε ≤ 1 / 100) (hn : Earth.RADIUS ≤ n) (hn' : Near n' n 121) :
    |rnd (rnd (rnd (ρ' * lib.cos φ) + rnd (z * lib.sin φ)) - rnd (geoA2 / n')) -
      (ρ * cos θ + z * sin θ - Earth.RADIUS * Earth.RADIUS / n)| ≤ 2 * r * ε + 150 * u * r := by
  have hu := u_pos
  have hut := u_tiny
  have hR := gR_pos
  have ε0 : 0 ≤ ε := (abs_nonneg _).trans hφ
  have hρr : ρ ≤ r := (abs_le_of_sq_le_sq' (by rw [hr]; have := sq_nonneg z; linarith) (by linarith)).2
  have hzr : |z| ≤ r := _root_.abs_le.mpr (abs_le_of_sq_le_sq' (by rw [hr]; have := sq_nonneg ρ; linarith) (by linarith))
  have hu2 : (1 / 2 ^ 52 : ℝ) = 2 * u := by unfold u; norm_num
  have kc : |lib.cos φ - cos θ| ≤ 2 * u + ε := by
    have a := hlib.cos φ
    rw [hu2] at a
    exact (abs_sub_le _ (cos φ) _).trans (add_le_add a ((cos_lipschitz φ θ).trans hφ))
  have ks : |lib.sin φ - sin θ| ≤ 2 * u + ε := by
    have a := hlib.sin φ
    rw [hu2] at a
    exact (abs_sub_le _ (sin φ) _).trans (add_le_add a ((sin_lipschitz φ θ).trans hφ))
  have bc : |lib.cos φ| ≤ 1.001 := by
    have a := hlib.cos φ
    rw [hu2] at a
    have b := abs_sub_abs_le_abs_sub (lib.cos φ) (cos φ)
    have c := abs_cos_le_one φ
    norm_num at hut ⊢
    linarith
  have ur : 0 < u * r := by positivity
  have ur1 : u * r ≤ 12 / 10 ^ 17 * r := by gcongr
  have er : 0 ≤ r * ε := mul_nonneg (by linarith) ε0
  have er1 : r * ε ≤ 1 / 100 * r := by have := mul_le_mul_of_nonneg_left hε (show 0 ≤ r by linarith); linarith
  have bcc : |ρ * cos θ| ≤ r := by
    rw [abs_mul, abs_of_nonneg hρ0]
    have := mul_le_mul hρr (abs_cos_le_one θ) (abs_nonneg _) (by linarith)
    linarith
  have bss : |z * sin θ| ≤ r := by
    rw [abs_mul]
    have := mul_le_mul hzr (abs_sin_le_one θ) (abs_nonneg _) (by linarith)
    linarith
  -- the two products
  have t1 : |ρ' * lib.cos φ - ρ * cos θ| ≤ 4.01 * (u * r) + (2 * (u * r) + r * ε) := by
    rw [show ρ' * lib.cos φ - ρ * cos θ = (ρ' - ρ) * lib.cos φ + ρ * (lib.cos φ - cos θ) by ring]
    refine (abs_add_le _ _).trans ?_
    rw [abs_mul, abs_mul, abs_of_nonneg hρ0]
    have a1 : |ρ' - ρ| ≤ 4 * (u * r) := by
      have := hρ.le (E := 4 * r) (by rw [abs_of_nonneg hρ0]; linarith)
      linarith
    have a2 := mul_le_mul a1 bc (abs_nonneg _) (by positivity)
    have a3 := mul_le_mul hρr kc (abs_nonneg _) (by linarith)
    norm_num at a2 ⊢
    linarith
  have t2 : |z * lib.sin φ - z * sin θ| ≤ 2 * (u * r) + r * ε := by
    rw [← mul_sub, abs_mul]
    have a3 := mul_le_mul hzr ks (abs_nonneg _) (by linarith)
    linarith
  have T1 := rabs t1 (M := 1.1 * r) (by refine (add_le_add bcc le_rfl).trans ?_; norm_num at ur1 ⊢; linarith)
  have T2 := rabs t2 (M := 1.1 * r) (by refine (add_le_add bss le_rfl).trans ?_; norm_num at ur1 ⊢; linarith)
  have t3 : |rnd (ρ' * lib.cos φ) + rnd (z * lib.sin φ) - (ρ * cos θ + z * sin θ)| ≤ 10.3 * (u * r) + 2 * (r * ε) := by
    rw [show rnd (ρ' * lib.cos φ) + rnd (z * lib.sin φ) - (ρ * cos θ + z * sin θ) =
      (rnd (ρ' * lib.cos φ) - ρ * cos θ) + (rnd (z * lib.sin φ) - z * sin θ) by ring]
    refine (abs_add_le _ _).trans ?_
    norm_num at T1 T2 ⊢
    linarith
  have bsum := (abs_add_le (ρ * cos θ) (z * sin θ)).trans (add_le_add bcc bss)
  have T3 := rabs t3 (M := 2.1 * r) (by norm_num at ur1 ⊢; linarith)
  -- the radius of curvature
  have q0 : 0 < n := by linarith
  have q1 : |Earth.RADIUS * Earth.RADIUS / n| ≤ 1.0631 * r := by
    rw [abs_of_pos (show 0 < Earth.RADIUS * Earth.RADIUS / n by positivity)]
    have a1 : Earth.RADIUS * Earth.RADIUS / n ≤ Earth.RADIUS := by
      rw [div_le_iff₀ q0]; exact mul_le_mul_of_nonneg_left hn hR.le
    have a2 : Earth.RADIUS ≤ 6378.2 := by norm_num [Earth.RADIUS]
    norm_num at a2 ⊢
    linarith
  obtain ⟨w, -, hw, hnw⟩ := near_a2.divr hn' q0.ne' (by norm_num) (by norm_num) (by norm_num) (by norm_num)
  have t4 := hnw.le (E := 133 * r) (by
    have := mul_le_mul_of_nonneg_left q1 (show (0:ℝ) ≤ 3.01 + 121 + 1.003 by norm_num)
    norm_num at this ⊢
    linarith)
  rw [hw] at t4
  obtain ⟨X, hX⟩ : ∃ X, X = rnd (rnd (ρ' * lib.cos φ) + rnd (z * lib.sin φ)) := ⟨_, rfl⟩
  obtain ⟨Y, hY⟩ : ∃ Y, Y = rnd (geoA2 / n') := ⟨_, rfl⟩
  obtain ⟨x, hx⟩ : ∃ x, x = ρ * cos θ + z * sin θ := ⟨_, rfl⟩
  obtain ⟨y, hy⟩ : ∃ y, y = Earth.RADIUS * Earth.RADIUS / n := ⟨_, rfl⟩
  rw [← hX, ← hx] at T3
  rw [← hY, ← hy] at t4
  rw [← hx] at bsum
  rw [← hy] at q1
  rw [← hX, ← hY, ← hx, ← hy]
  have t5 : |X - Y - (x - y)| ≤ 145.5 * (u * r) + 2 * (r * ε) := by
    rw [show X - Y - (x - y) = (X - x) - (Y - y) by ring]
    refine (abs_sub _ _).trans ?_
    norm_num at T3 t4 ⊢
    linarith
  have T5 := rabs t5 (M := 3.2 * r) (by
    have := abs_sub x y
    norm_num at q1 ur1 ⊢
    linarith)
  refine T5.trans ?_
  norm_num
  linarith

/-- the three coordinates; `δ` is the part of the error that comes from the foot -/
theorem lla_error {lib : Libm} (hlib : Accurate lib) (hatan : Atan2Accurate lib) (hasin : AsinAccurate lib) (hpow : PowAccurate lib)
    {v : Vec3} (h1 : 6000 ≤ v.magnitude) (h2 : v.magnitude ≤ 50000) {l : LLA} (hl : PositionConvert.itrfToLla v = .ok l)
    (hlat : |l.latitude| ≤ 89 * (π / 180)) :
    ∃ l' δ, itrfToLla lib v = .ok l' ∧ 0 ≤ δ ∧ δ * cos l.latitude ≤ 1.21e-8 * v.magnitude ∧
      |v.z| * (δ * cos l.latitude) ≤ 5.3e-17 * v.magnitude ^ 3 ∧ (v.z = 0 → δ = 0) ∧
      |l'.latitude - l.latitude| ≤ δ + 1.5e-14 / cos l.latitude ∧ AngleNear l'.longitude l.longitude 2e-15 ∧
      |l'.altitude - l.altitude| ≤ 0.51 * v.magnitude * δ ^ 2 + 5e-14 * v.magnitude / cos l.latitude := by
  have hu := u_pos
  have hut := u_tiny
  obtain ⟨f, D, f0, hf, huniq, hD, hD2, hs, -, hlon, halt, hback⟩ := exact_lla h1 hl
  obtain ⟨d, E, n, a, θ, k1, hn, ha, a1, E0, E1, E2, E3, sθ, -, m1, m2, m3⟩ := lla_pair hpow h1 h2 f0 hf huniq hD hD2 hs hlat
  have hval := itrfToLla_value lib v rfl k1 hn ha a1
  obtain ⟨c, hc⟩ : ∃ c, c = cos l.latitude := ⟨_, rfl⟩
  have c1 := cos_le_one l.latitude
  have c0 := (cos_sq_89 hlat).2
  rw [foot_radius hs] at halt
  have hu2 : (1 / 2 ^ 52 : ℝ) = 2 * u := by unfold u; norm_num
  have b1 : |lib.asin a - arcsin a| ≤ 2 * u := by rw [← hu2]; exact hasin a a1
  obtain ⟨φ, hφ⟩ : ∃ φ, φ = lib.asin a := ⟨_, rfl⟩
  obtain ⟨r, hr⟩ : ∃ r, r = v.magnitude := ⟨_, rfl⟩
  have flat := height_flat h1 hback halt (by norm_num at c0; linarith) θ
  rw [← hc] at m1 m2 m3 c1 c0
  have c0' : 0 < c := by norm_num at c0; linarith
  rw [← hφ] at b1 hval
  have e3 : |φ - θ| ≤ 134 * u / c := by
    rw [le_div_iff₀ c0']
    have := abs_sub_le φ (arcsin a) θ
    have := mul_le_mul_of_nonneg_right this c0'.le
    have := mul_le_mul_of_nonneg_right b1 c0'.le
    have : u * c ≤ u := mul_le_of_le_one_right hu.le c1
    linarith
  have e2 : |φ - l.latitude| ≤ 1.5885e-4 * E / c + 132 * u / c := by
    rw [← add_div, le_div_iff₀ c0']
    have := abs_sub_le φ (arcsin a) l.latitude
    have := mul_le_mul_of_nonneg_right this c0'.le
    have := mul_le_mul_of_nonneg_right b1 c0'.le
    have : u * c ≤ u := mul_le_of_le_one_right hu.le c1
    linarith
  have e1 : |θ - l.latitude| ≤ 1.5885e-4 * E / c := by rwa [le_div_iff₀ c0']
  have hr2 : r ^ 2 = rho v ^ 2 + v.z ^ 2 := by
    rw [hr, Vec3.magnitude_sq, sq (rho v), rho_mul_self]; ring
  have hnear := (arc_near d).1
  rw [← hn, foot_radius sθ] at hnear
  have hround := height_rounded hlib (hr ▸ h1) hr2 (Real.sqrt_nonneg _) (rho_near v) e3 (by
    rw [div_le_iff₀ c0']; norm_num at hut c0 ⊢; linarith) (geoN_ge θ) hnear
  refine ⟨_, 1.5885e-4 * E / c, hval, by positivity, ?_, ?_, ?_, ?_, ?_, ?_⟩
  · rw [← hc, div_mul_cancel₀ _ c0'.ne']
    norm_num at E1 ⊢; linarith
  · rw [← hc, div_mul_cancel₀ _ c0'.ne']
    have r3 : 0 < v.magnitude ^ 3 := by have : 0 < v.magnitude := by linarith
                                        positivity
    have r4 : u * v.magnitude ^ 3 ≤ 1.11023e-16 * v.magnitude ^ 3 := by
      gcongr; unfold u; norm_num
    norm_num at r4 ⊢; linarith
  · intro hz; rw [E3 hz]; simp
  · refine e2.trans ?_
    rw [← hc]
    gcongr
    norm_num at hut ⊢; linarith
  · rw [hlon]
    have i1 : |Complex.arg ⟨v.x, v.y⟩| ≤ π := Complex.abs_arg_le_pi _
    have i2 := hatan v.y v.x
    have i3 := abs_sub_abs_le_abs_sub (lib.atan2 v.y v.x) (Complex.arg ⟨v.x, v.y⟩)
    have hp := Real.pi_lt_d2
    have i4 := wrapNeg_angle_near (x := lib.atan2 v.y v.x) (by norm_num at i2 hp ⊢; linarith)
    have i5 := (wrapNeg_angle (pyAtan2 v.y v.x)).symm
    refine ((i4.trans (AngleNear.of_abs i2)).trans i5).mono ?_
    norm_num at hut ⊢; linarith
  · rw [← hr] at flat ⊢
    have r0 : 0 < r := by rw [hr]; linarith
    refine (abs_sub_le _ (rho v * cos θ + v.z * sin θ - Earth.RADIUS * Earth.RADIUS / geoN θ) _).trans ?_
    have s1 : (θ - l.latitude) ^ 2 ≤ (1.5885e-4 * E / c) ^ 2 := by
      rw [← sq_abs]; exact pow_le_pow_left₀ (abs_nonneg _) e1 2
    have s2 : 0.51 * r * (θ - l.latitude) ^ 2 ≤ 0.51 * r * (1.5885e-4 * E / c) ^ 2 := by gcongr
    have s3 : 2 * r * (134 * u / c) + 150 * u * r ≤ 5e-14 * r / c := by
      rw [le_div_iff₀ c0', add_mul, show 2 * r * (134 * u / c) * c = 268 * (u * r) by field_simp; ring]
      have a1 : u * r * c ≤ u * r := mul_le_of_le_one_right (by positivity) c1
      have a2 : u * r ≤ 1.11023e-16 * r := by gcongr; unfold u; norm_num
      norm_num at a2 ⊢
      linarith
    rw [← hc]
    linarith

/-- a site below 100 km: the distance and the distance from the plane of the equator -/
theorem site_size {v : Vec3} {l : LLA} (hback : PositionConvert.llaToItrf l = .ok v) (h1 : -10 ≤ l.altitude) (h2 : l.altitude ≤ 100) :
    6000 ≤ v.magnitude ∧ v.magnitude ≤ 6478.2 ∧ |v.z| ≥ 6325 * |sin l.latitude| := by
  obtain ⟨lat, lon, h⟩ := l
  simp only at h1 h2 ⊢
  have hm := lla_magnitude (by linarith) (by linarith) hback
  rw [llaToItrf_ok, Except.ok.injEq] at hback
  simp only at hback
  have hN := geoN_ge lat
  have hg := geoE2_pos
  have h1E := one_sub_geoE2_pos
  have hcl := sin_sq_add_cos_sq lon
  have hcp := sin_sq_add_cos_sq lat
  have hA : 6325 ≤ geoN lat * (1 - Openspace.geoE2) + h := by
    have a : 6335 ≤ Earth.RADIUS * (1 - Openspace.geoE2) := by
      norm_num [Openspace.geoE2, Earth.RADIUS, Earth.FLATTENING]
    have b := mul_le_mul_of_nonneg_right hN h1E.le
    linarith
  have hz : v.z = (geoN lat * (1 - Openspace.geoE2) + h) * sin lat := by rw [← hback]
  refine ⟨hm.1, ?_, ?_⟩
  · -- the point of the ellipsoid, and the height
    have hX : geoN lat * (1 - Openspace.geoE2 * sin lat ^ 2) ≤ Earth.RADIUS := by
      have a := geoN_sq lat
      have b : geoN lat * (geoN lat * (1 - Openspace.geoE2 * sin lat ^ 2)) ≤ geoN lat * Earth.RADIUS := by
        have := mul_le_mul_of_nonneg_right hN gR_pos.le
        linarith
      exact le_of_mul_le_mul_left b (geoN_pos lat)
    have hX0 : 0 ≤ geoN lat * (1 - Openspace.geoE2 * sin lat ^ 2) := (mul_pos (geoN_pos lat) (geo_den_pos lat)).le
    have e : v.magnitude ^ 2 = geoN lat ^ 2 * (1 - Openspace.geoE2 * sin lat ^ 2) -
        geoN lat ^ 2 * sin lat ^ 2 * (Openspace.geoE2 * (1 - Openspace.geoE2)) +
        2 * h * (geoN lat * (1 - Openspace.geoE2 * sin lat ^ 2)) + h ^ 2 := by
      rw [Vec3.magnitude_sq, ← hback]
      simp only
      linear_combination ((geoN lat + h) * cos lat) ^ 2 * hcl + (geoN lat + h) ^ 2 * hcp
    have e1 : 0 ≤ geoN lat ^ 2 * sin lat ^ 2 * (Openspace.geoE2 * (1 - Openspace.geoE2)) := by positivity
    have e2 : 2 * h * (geoN lat * (1 - Openspace.geoE2 * sin lat ^ 2)) + h ^ 2 ≤ 200 * Earth.RADIUS + 10000 := by
      rcases le_total 0 h with h0 | h0
      · have a := mul_le_mul h2 hX hX0 (by norm_num)
        have b := pow_le_pow_left₀ h0 h2 2
        norm_num at b
        linarith
      · have a := mul_nonneg (neg_nonneg.mpr h0) hX0
        have b : h ^ 2 ≤ 10 ^ 2 := by rw [← neg_sq]; exact pow_le_pow_left₀ (by linarith) (by linarith) 2
        have := gR_pos
        norm_num at b
        linarith
    have e3 := geoN_sq lat
    have e4 : Earth.RADIUS ^ 2 + 200 * Earth.RADIUS + 10000 ≤ 6478.2 ^ 2 := by norm_num [Earth.RADIUS]
    refine (abs_le_of_sq_le_sq' ?_ (by norm_num)).2
    linarith
  · rw [hz, abs_mul, abs_of_pos (show 0 < geoN lat * (1 - Openspace.geoE2) + h by linarith)]
    exact mul_le_mul_of_nonneg_right hA (abs_nonneg _)

theorem site_numbers {r z S c δ : ℝ} (r0 : 0 ≤ r) (r2 : r ≤ 6478.2) (rz : |z| ≥ 6325 * S) (hc : 0.0174 ≤ c) (hS : 0 ≤ S)
    (hSc : S ^ 2 + c ^ 2 = 1) (δ0 : 0 ≤ δ) (h1 : δ * c ≤ 1.21e-8 * r) (h2 : |z| * (δ * c) ≤ 5.3e-17 * r ^ 3) :
    δ * (S * c) ≤ 2.2785e-9 ∧ 5e-14 * r / c ≤ 1.9e-8 ∧ 0.51 * r * δ ^ 2 ≤ 3.9e-5 ∧ 1.5e-14 / c ≤ 1e-12 := by
  have c0 : 0 < c := by norm_num at hc; linarith
  have dc : 0 ≤ δ * c := by positivity
  have r3 : r ^ 3 ≤ 6478.2 ^ 3 := pow_le_pow_left₀ r0 r2 3
  have a1 : δ * (S * c) ≤ 2.2785e-9 := by
    have := mul_le_mul_of_nonneg_right rz dc
    norm_num at r3 h2 ⊢
    linarith
  have key : ∀ B, δ ≤ B → 0 ≤ B → 0.51 * r * δ ^ 2 ≤ 0.51 * 6478.2 * B ^ 2 := fun B hB B0 => by
    have := pow_le_pow_left₀ δ0 hB 2
    gcongr
  refine ⟨a1, ?_, ?_, ?_⟩
  · rw [div_le_iff₀ c0]; norm_num at r2 hc ⊢; linarith
  · rcases le_total 0.8 c with h | h
    · have : δ ≤ 9.8e-5 := by
        have := mul_le_mul_of_nonneg_left h δ0
        norm_num at this h1 r2 ⊢; linarith
      refine (key _ this (by norm_num)).trans (by norm_num)
    · have s6 : 0.6 ≤ S := by
        by_contra hn
        push Not at hn
        have b1 := pow_lt_pow_left₀ hn hS two_ne_zero
        have b2 := pow_le_pow_left₀ c0.le h 2
        norm_num at b1 b2
        linarith
      have : δ ≤ 1e-6 := by
        have b1 : (0.6 * 0.0174 : ℝ) ≤ S * c := mul_le_mul s6 hc (by norm_num) hS
        have := mul_le_mul_of_nonneg_left b1 δ0
        norm_num at this a1 ⊢; linarith
      refine (key _ this (by norm_num)).trans (by norm_num)
  · rw [div_le_iff₀ c0]; norm_num at hc ⊢; linarith

theorem sin_cos_low {lat : ℝ} (h0 : π / 180 ≤ |lat|) (h1 : |lat| ≤ 89 * (π / 180)) : 0.0174 ≤ |sin lat| * cos lat := by
  have hpi := Real.pi_gt_d4
  have hpi2 := Real.pi_lt_d4
  have e : |sin lat| * cos lat = sin (2 * |lat|) / 2 := by
    rw [sin_two_mul, cos_abs]
    rcases le_total 0 lat with h | h
    · rw [abs_of_nonneg h, abs_of_nonneg (sin_nonneg_of_nonneg_of_le_pi h (by rw [abs_of_nonneg h] at h1; linarith))]; ring
    · rw [abs_of_nonpos h] at h1 ⊢
      rw [sin_neg, abs_of_nonpos (sin_nonpos_of_nonpos_of_neg_pi_le h (by linarith))]; ring
  have k : sin (π / 90) ≤ sin (2 * |lat|) := by
    rcases le_total (2 * |lat|) (π / 2) with h | h
    · exact sin_le_sin_of_le_of_le_pi_div_two (by linarith) h (by linarith)
    · rw [← sin_pi_sub (2 * |lat|)]
      exact sin_le_sin_of_le_of_le_pi_div_two (by linarith) (by linarith) (by linarith)
  have h2 := sin_gt_sub_cube (x := π / 90) (by positivity)
  have a1 : (349 / 10 ^ 4 : ℝ) ≤ π / 90 := by norm_num at hpi ⊢; linarith
  have a2 : (π / 90) ^ 3 ≤ (35 / 10 ^ 3) ^ 3 := by
    apply pow_le_pow_left₀ (by positivity); norm_num at hpi2 ⊢; linarith
  rw [e]
  norm_num at a1 a2 ⊢; linarith

end F64

/-- **C154**, what holds.  A position between 6000 and 50000 km from the centre whose exact geodetic latitude is within 89
degrees.  The error of the latitude is a number `δ` and 1.5e-14 over the cosine of the latitude; `δ` times that cosine is at most
1.21e-8 of the distance, and at most 5.3e-17 of its cube over the distance from the plane of the equator; it is zero in that plane.
The longitude is within 2e-15 up to whole turns.  The height is within half the square of `δ`, and 5e-14 over the cosine, of the
distance. -/
theorem C154_coordinates_partial {lib : F64.Libm} (hlib : Accurate lib) (hatan : Atan2Accurate lib) (hasin : AsinAccurate lib)
    (hpow : F64.PowAccurate lib) (pos : Vec3) (h1 : 6000 ≤ pos.magnitude) (h2 : pos.magnitude ≤ 50000) (l : LLA)
    (hl : PositionConvert.itrfToLla pos = .ok l) (hlat : |l.latitude| ≤ 89 * (π / 180)) :
    ∃ l' δ, F64.itrfToLla lib pos = .ok l' ∧ 0 ≤ δ ∧ δ * cos l.latitude ≤ 1.21e-8 * pos.magnitude ∧
      |pos.z| * (δ * cos l.latitude) ≤ 5.3e-17 * pos.magnitude ^ 3 ∧ (pos.z = 0 → δ = 0) ∧
      |l'.latitude - l.latitude| ≤ δ + 1.5e-14 / cos l.latitude ∧ AngleNear l'.longitude l.longitude 2e-15 ∧
      |l'.altitude - l.altitude| ≤ 0.51 * pos.magnitude * δ ^ 2 + 5e-14 * pos.magnitude / cos l.latitude :=
  F64.lla_error hlib hatan hasin hpow h1 h2 hl hlat

/-- Sites between 10 km below and 100 km above the ellipsoid, within 89 degrees of the equator.  The latitude is within 2.3e-9,
1.5 cm on the ground, over the sine and the cosine of the latitude; the height is within 4 cm. -/
theorem C154_sites_partial {lib : F64.Libm} (hlib : Accurate lib) (hatan : Atan2Accurate lib) (hasin : AsinAccurate lib)
    (hpow : F64.PowAccurate lib) (lat lon h : ℝ) (hlat : |lat| ≤ 89 * (π / 180)) (hlon : 0 ≤ lon) (hlon' : lon < 2 * π)
    (h1 : -10 ≤ h) (h2 : h ≤ 100) :
    ∃ pos l', PositionConvert.llaToItrf ⟨lat, lon, h⟩ = .ok pos ∧ PositionConvert.itrfToLla pos = .ok ⟨lat, lon, h⟩ ∧
      F64.itrfToLla lib pos = .ok l' ∧ |l'.latitude - lat| * (|sin lat| * cos lat) ≤ 2.3e-9 ∧
      AngleNear l'.longitude lon 2e-15 ∧ |l'.altitude - h| ≤ 4e-5 := by
  have hpi := Real.pi_pos
  obtain ⟨pos, hp, hl⟩ := C26_round_trip lat lon h (by linarith) hlon hlon' (by linarith)
  obtain ⟨r1, r2, rz⟩ := F64.site_size hp h1 h2
  obtain ⟨l', δ, k1, k2, k3, k4, -, k5, k6, k7⟩ := F64.lla_error hlib hatan hasin hpow r1 (by norm_num at r2; linarith) hl hlat
  simp only at rz k3 k4 k5 k6 k7
  have c0 := (F64.cos_sq_89 hlat).2
  have hcs : |sin lat| ^ 2 + cos lat ^ 2 = 1 := by rw [sq_abs]; exact sin_sq_add_cos_sq lat
  obtain ⟨n1, n2, n3, -⟩ := F64.site_numbers (by linarith) r2 rz c0 (abs_nonneg _) hcs k2 k3 k4
  have c0' : 0 < cos lat := by norm_num at c0; linarith
  refine ⟨pos, l', hp, hl, k1, ?_, k6, ?_⟩
  · refine (mul_le_mul_of_nonneg_right k5 (by positivity)).trans ?_
    have e : (δ + 1.5e-14 / cos lat) * (|sin lat| * cos lat) = δ * (|sin lat| * cos lat) + 1.5e-14 * |sin lat| := by
      field_simp
    rw [e]
    have := abs_sin_le_one lat
    norm_num at n1 ⊢; linarith
  · refine k7.trans ?_
    norm_num at n2 n3 ⊢; linarith

/-- From one to 89 degrees from the equator the latitude is within 1.4e-7, less than a metre, and the height within 0.02 mm. -/
theorem C154_off_equator_partial {lib : F64.Libm} (hlib : Accurate lib) (hatan : Atan2Accurate lib) (hasin : AsinAccurate lib)
    (hpow : F64.PowAccurate lib) (lat lon h : ℝ) (hlat0 : π / 180 ≤ |lat|) (hlat : |lat| ≤ 89 * (π / 180)) (hlon : 0 ≤ lon)
    (hlon' : lon < 2 * π) (h1 : -10 ≤ h) (h2 : h ≤ 100) :
    ∃ pos l', PositionConvert.llaToItrf ⟨lat, lon, h⟩ = .ok pos ∧ PositionConvert.itrfToLla pos = .ok ⟨lat, lon, h⟩ ∧
      F64.itrfToLla lib pos = .ok l' ∧ |l'.latitude - lat| ≤ 1.4e-7 ∧
      AngleNear l'.longitude lon 2e-15 ∧ |l'.altitude - h| ≤ 2e-8 := by
  have hpi := Real.pi_pos
  obtain ⟨pos, hp, hl⟩ := C26_round_trip lat lon h (by linarith) hlon hlon' (by linarith)
  obtain ⟨r1, r2, rz⟩ := F64.site_size hp h1 h2
  obtain ⟨l', δ, k1, k2, k3, k4, -, k5, k6, k7⟩ := F64.lla_error hlib hatan hasin hpow r1 (by norm_num at r2; linarith) hl hlat
  simp only at rz k3 k4 k5 k6 k7
  have c0 := (F64.cos_sq_89 hlat).2
  have hcs : |sin lat| ^ 2 + cos lat ^ 2 = 1 := by rw [sq_abs]; exact sin_sq_add_cos_sq lat
  obtain ⟨n1, n2, -, n4⟩ := F64.site_numbers (by linarith) r2 rz c0 (abs_nonneg _) hcs k2 k3 k4
  have hsc := mul_le_mul_of_nonneg_left (F64.sin_cos_low hlat0 hlat) k2
  have hδ : δ ≤ 1.31e-7 := by norm_num at hsc n1 ⊢; linarith
  refine ⟨pos, l', hp, hl, k1, k5.trans ?_, k6, k7.trans ?_⟩
  · norm_num at hδ n4 ⊢; linarith
  · have a1 : δ ^ 2 ≤ 1.31e-7 ^ 2 := pow_le_pow_left₀ k2 hδ 2
    have a2 : 0.51 * pos.magnitude * δ ^ 2 ≤ 0.51 * 6478.2 * 1.31e-7 ^ 2 := by gcongr
    norm_num at a2 n2 ⊢; linarith

/-- **C154** is false.  At the position (6380, 0, 3/65536) km, 4.6 cm north of the plane of the equator, the latitude that is
returned is wrong by more than 5e-7, three metres on the ground, with every C library whose power and arcsine are accurate. -/
theorem C154_violated {lib : F64.Libm} (hpow : F64.PowAccurate lib) (hasin : AsinAccurate lib) :
    ∃ (pos : Vec3) (l l' : LLA), IsBinary64 pos.x ∧ IsBinary64 pos.y ∧ IsBinary64 pos.z ∧
      PositionConvert.itrfToLla pos = .ok l ∧ PositionConvert.llaToItrf l = .ok pos ∧ F64.itrfToLla lib pos = .ok l' ∧
      5e-7 ≤ |l'.latitude - l.latitude| := by
  obtain ⟨l, h1, h2, h3, h4⟩ := F64.equator_exact
  obtain ⟨l', h5, h6⟩ := F64.equator_latitude hpow hasin
  have b0 : IsBinary64 0 := by rw [← F64.isDouble_iff, F64.IsDouble, F64.rnd_zero]
  have b1 : IsBinary64 6380 := by
    rw [← F64.isDouble_iff, F64.IsDouble]
    have := F64.rnd_int 6380 (by norm_num)
    simpa using this
  refine ⟨_, l, l', b1, b0, ?_, h1, h2, h5, ?_⟩
  · exact ⟨3, -16, by norm_num, by norm_num⟩
  · rcases h6 with ⟨h6, -⟩ | ⟨h6, -⟩
    · rw [abs_sub_comm]
      refine le_trans ?_ (le_abs_self _)
      norm_num at h6 ⊢; linarith
    · refine le_trans ?_ (le_abs_self _)
      norm_num at h4 h6 ⊢; linarith

/-- If the power is correctly rounded there, the site is even put on the wrong hemisphere. -/
theorem C154_wrong_hemisphere {lib : F64.Libm} (hpow : F64.PowAccurate lib) (hasin : AsinAccurate lib)
    (hround : ∀ x y, 0 < x → lib.pow x y = F64.rnd (x ^ y)) :
    ∃ (pos : Vec3) (l l' : LLA), IsBinary64 pos.x ∧ IsBinary64 pos.y ∧ IsBinary64 pos.z ∧ 0 < pos.z ∧
      PositionConvert.itrfToLla pos = .ok l ∧ 0 < l.latitude ∧ F64.itrfToLla lib pos = .ok l' ∧ l'.latitude ≤ -5e-7 := by
  obtain ⟨l, h1, h2, h3, h4⟩ := F64.equator_exact
  obtain ⟨l', h5, h6⟩ := F64.equator_latitude hpow hasin
  rw [hround _ _ (by norm_num), F64.equator_power] at h6
  have b0 : IsBinary64 0 := by rw [← F64.isDouble_iff, F64.IsDouble, F64.rnd_zero]
  have b1 : IsBinary64 6380 := by
    rw [← F64.isDouble_iff, F64.IsDouble]
    have := F64.rnd_int 6380 (by norm_num)
    simpa using this
  refine ⟨_, l, l', b1, b0, ⟨3, -16, by norm_num, by norm_num⟩, by norm_num, h1, h3, h5, ?_⟩
  rcases h6 with ⟨h6, -⟩ | ⟨-, h6⟩
  · norm_num at h6 ⊢; linarith
  · norm_num at h6

/-- the correctly rounded library meets the assumptions: the site is put on the wrong hemisphere -/
example : ∃ (pos : Vec3) (l l' : LLA), 0 < pos.z ∧ PositionConvert.itrfToLla pos = .ok l ∧ 0 < l.latitude ∧
    F64.itrfToLla F64.rounded pos = .ok l' ∧ l'.latitude ≤ -5e-7 := by
  obtain ⟨pos, l, l', -, -, -, h⟩ := C154_wrong_hemisphere (F64.powAccurate_rounded _ _ _ _) F64.asin_rounded (fun _ _ _ => rfl)
  exact ⟨pos, l, l', h⟩

/-- the observatory at 60 degrees of latitude, 500 m up -/
example : ∃ pos l', PositionConvert.llaToItrf ⟨60 * (π / 180), 1, 0.5⟩ = .ok pos ∧
    F64.itrfToLla F64.rounded pos = .ok l' ∧ |l'.latitude - 60 * (π / 180)| ≤ 1.4e-7 ∧ |l'.altitude - 0.5| ≤ 2e-8 := by
  have hpi := Real.pi_gt_d2
  norm_num at hpi
  have e : |60 * (π / 180)| = 60 * (π / 180) := abs_of_pos (by positivity)
  obtain ⟨pos, l', h1, -, h2, h3, -, h4⟩ := C154_off_equator_partial F64.rounded_accurate.1 F64.rounded_accurate.2
    F64.asin_rounded (F64.powAccurate_rounded _ _ _ _) (60 * (π / 180)) 1 0.5 (by rw [e]; linarith) (by rw [e]; linarith)
    (by norm_num) (by linarith) (by norm_num) (by norm_num)
  exact ⟨pos, l', h1, h2, h3, h4⟩

/-- a satellite over the equator: no error in the foot, so the latitude is zero to 1.5e-14 and the height right to 0.4 micrometres -/
example : ∃ l', F64.itrfToLla F64.rounded ⟨0, 7000, 0⟩ = .ok l' ∧ |l'.latitude| ≤ 1.5e-14 ∧
    ∃ l, PositionConvert.itrfToLla ⟨0, 7000, 0⟩ = .ok l ∧ |l'.altitude - l.altitude| ≤ 3.6e-10 := by
  have hm : (Vec3.mk 0 7000 0).magnitude = 7000 := Vec3.magnitude_of_dot (by norm_num) (by norm_num [Vec3.dot])
  obtain ⟨d, -, -, -, -, hok⟩ := itrfToLla_ok ⟨0, 7000, 0⟩ (F64.small_beta (by rw [hm]; norm_num)).1
  have hl : (geoFinish ⟨0, 7000, 0⟩ (pySign 0 * d)).latitude = 0 := by simp [geoFinish, pySign]
  obtain ⟨l', δ, h1, -, -, -, h2, h3, -, h4⟩ := C154_coordinates_partial F64.rounded_accurate.1 F64.rounded_accurate.2
    F64.asin_rounded (F64.powAccurate_rounded _ _ _ _) _ (by rw [hm]; norm_num) (by rw [hm]; norm_num) _ hok
    (by rw [hl]; simp; positivity)
  have h5 := h2 rfl
  subst h5
  refine ⟨l', h1, ?_, _, hok, ?_⟩
  · rw [hl] at h3; simpa using h3
  · refine h4.trans ?_
    rw [hl, hm, cos_zero]; norm_num

end Openspace
