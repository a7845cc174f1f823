import Verif.Model.DoubleEarth
import Verif.Lemmas.DoubleFrames
import Verif.Lemmas.DoubleSensing
import Verif.Props.DoubleHourAngle
import Verif.Props.EarthOrientation

/-! # Errors of the precession, nutation and rotation matrices in double precision -/

namespace Openspace.F64

open Real

theorem Sc.rescale {y x e s e' s' : ℝ} (h : Sc y x e s) (hs : e * s ≤ e' * s') (hx : |x| ≤ s') : Sc y x e' s' := by
  have hu := u_pos
  refine ⟨h.1.trans ?_, hx⟩
  have := mul_le_mul_of_nonneg_left hs hu.le
  linarith

theorem Sc.sine {lib : Libm} (hlib : Spec.Accurate lib) {y x e s k t : ℝ} (h : Sc y x e s) (hk : 2 + e * s ≤ k * t)
    (ht : 1 ≤ t) : Sc (lib.sin y) (sin x) k t := by
  have hu := u_pos
  refine ⟨?_, (abs_sin_le_one x).trans ht⟩
  have h1 := hlib.sin y
  rw [show (1 : ℝ) / 2 ^ 52 = 2 * u by norm_num [u]] at h1
  have h2 := abs_sin_sub y x
  have h3 := h.1
  have h4 := abs_sub_le (lib.sin y) (Real.sin y) (Real.sin x)
  have h5 := mul_le_mul_of_nonneg_left hk hu.le
  linarith

theorem Sc.cosine {lib : Libm} (hlib : Spec.Accurate lib) {y x e s k t : ℝ} (h : Sc y x e s) (hk : 2 + e * s ≤ k * t)
    (ht : 1 ≤ t) : Sc (lib.cos y) (cos x) k t := by
  have hu := u_pos
  refine ⟨?_, (abs_cos_le_one x).trans ht⟩
  have h1 := hlib.cos y
  rw [show (1 : ℝ) / 2 ^ 52 = 2 * u by norm_num [u]] at h1
  have h2 := abs_cos_sub y x
  have h3 := h.1
  have h4 := abs_sub_le (lib.cos y) (Real.cos y) (Real.cos x)
  have h5 := mul_le_mul_of_nonneg_left hk hu.le
  linarith

/-! ## angles -/

theorem degree_near : Near (rnd (pi / 180)) (π / 180) 2.01 := by
  have h := (near_pi.div' (Near.refl (180 : ℝ)) (by norm_num) le_rfl (by norm_num) (by norm_num) (by norm_num)).2.round'
    (by norm_num) (by norm_num)
  exact h.mono (by norm_num)

theorem radians_rel {y x k : ℝ} (h : Near y x k) (hk0 : 0 ≤ k) (hk : k ≤ 1000) :
    Near (radians y) (pyRadians x) (k + 3.02) := by
  have := (h.mul' degree_near (by norm_num) hk0 (by norm_num; linarith) (by norm_num)).round' (by linarith)
    (by norm_num; linarith)
  have e : pyRadians x = x * (π / 180) := by simp only [pyRadians, pyPi]; ring
  rw [e]
  exact this.mono (by linarith)

theorem radians_sc {y x e s : ℝ} (h : Sc y x e s) (he : 0 ≤ e) (he' : e ≤ 1e4) :
    Sc (radians y) (pyRadians x) (e + 3.03) (s * 0.0175) := by
  have hp := pi_lt_d4
  have hd := Sc.of_near degree_near (by norm_num) (s := 0.0175) (by
    rw [abs_of_pos (by have := pi_pos; positivity)]; linarith)
  have := h.mul hd he (by norm_num at he' ⊢; linarith) (by norm_num) (by norm_num)
  have e : pyRadians x = x * (π / 180) := by simp only [pyRadians, pyPi]; ring
  rw [e]
  exact this.mono (by linarith)

theorem dms_near (s : ℝ) : Near (dmsToRadians 0 0 (rnd s)) (Openspace.dmsToRadians 0 0 s) 7 := by
  have h1 := ((near_rnd s).div' (Near.refl (3600 : ℝ)) (by norm_num) le_rfl (by norm_num) (by norm_num)
    (by norm_num)).2.round' (by norm_num) (by norm_num)
  have h2 := radians_rel (h1.round' (by norm_num) (by norm_num)) (by norm_num) (by norm_num)
  have e : Openspace.dmsToRadians 0 0 s = pyRadians (s / 3600) := by
    simp [Openspace.dmsToRadians, MINUTES_IN_HOUR, SECONDS_IN_HOUR]
  rw [e, dmsToRadians, zero_div, rnd_zero, add_zero, rnd_zero, zero_add]
  exact h2.mono (by norm_num)

/-- a constant in arc seconds -/
theorem dms_sc {s b : ℝ} (hs : 0 ≤ s) (hb : s * 4.85e-6 ≤ b) :
    Sc (dmsToRadians 0 0 (rnd s)) (Openspace.dmsToRadians 0 0 s) 7 b := by
  refine Sc.of_near (dms_near s) (by norm_num) ?_
  have e : Openspace.dmsToRadians 0 0 s = s * (π / 648000) := by
    simp only [Openspace.dmsToRadians, MINUTES_IN_HOUR, SECONDS_IN_HOUR, pyRadians, pyPi]; ring
  have hp := pi_lt_d4
  rw [e, abs_of_nonneg (by have := pi_pos; positivity)]
  have : s * (π / 648000) ≤ s * 4.85e-6 := by gcongr; linarith
  linarith

theorem const_radians (s : ℝ) {b : ℝ} (hb : |s| * 0.0175 ≤ b) : Sc (radians (rnd s)) (pyRadians s) 5 b := by
  have h := radians_rel (near_rnd s) (by norm_num) (by norm_num)
  refine Sc.of_near (h.mono (by norm_num)) (by norm_num) ?_
  have e : pyRadians s = s * (π / 180) := by simp only [pyRadians, pyPi]; ring
  have hp := pi_lt_d4
  rw [e, abs_mul, abs_of_pos (a := π / 180) (by have := pi_pos; positivity)]
  have : |s| * (π / 180) ≤ |s| * 0.0175 := by gcongr; linarith
  linarith

/-! ## the time arguments -/

/-- days since J2000 -/
theorem days_sc {e : ℝ} (h0 : 1 ≤ e) (h1 : e ≤ 131072) :
    Sc (rnd (julianValue e - 2451545)) ((⟨e⟩ : Epoch).julianValue - Epoch.J2000_JULIAN_DATE) 34 80000 := by
  have hu := u_pos
  have hu' := u_tiny
  have e1 : (⟨e⟩ : Epoch).julianValue - Epoch.J2000_JULIAN_DATE = e - 51544.5 := by
    simp only [Epoch.julianValue, Epoch.MJD_ZERO, Epoch.J2000_JULIAN_DATE]; ring
  rw [e1]
  have a1 : |julianValue e - (e + 2400000.5)| ≤ 2540000 * u := by
    have := rnd_u (e + 2400000.5)
    rw [abs_of_pos (a := e + 2400000.5) (by linarith)] at this
    refine this.trans ?_
    have : u * (e + 2400000.5) ≤ u * 2540000 := by gcongr; linarith
    linarith
  have a2 : |julianValue e - 2451545 - (e - 51544.5)| ≤ 2540000 * u := by
    rw [show julianValue e - 2451545 - (e - 51544.5) = julianValue e - (e + 2400000.5) by ring]; exact a1
  have hx : |e - 51544.5| ≤ 79600 := by rw [abs_le]; constructor <;> linarith
  have a3 := rabs a2 (M := 80000) (by linarith)
  exact ⟨by linarith, by linarith⟩

/-- centuries since J2000 -/
theorem centuries_sc {e : ℝ} (h0 : 1 ≤ e) (h1 : e ≤ 131072) :
    Sc (julianCenturies e) (⟨e⟩ : Epoch).julianCenturies 36 2.2 := by
  have h := ((days_sc h0 h1).div (Near.refl (36525 : ℝ)) (by norm_num) (by norm_num) (by norm_num) le_rfl
    (by norm_num)).2
  have e1 : (⟨e⟩ : Epoch).julianCenturies = ((⟨e⟩ : Epoch).julianValue - Epoch.J2000_JULIAN_DATE) / 36525 := by
    simp only [Epoch.julianCenturies, Epoch.JULIAN_CENTURY]
  rw [e1, julianCenturies]
  exact (h.mono (by norm_num)).scale (by norm_num) (by rw [abs_of_pos (by norm_num)]; norm_num)

section

variable {a a' t t' A : ℝ}

theorem term1 (ha : Sc a' a 7 A) (ht : Sc t' t 36 2.2) : Sc (rnd (a' * t')) (a * t) 45 (A * 2.2) :=
  (ha.mul ht (by norm_num) (by norm_num) (by norm_num) (by norm_num)).mono (by norm_num)

theorem term2 (ha : Sc a' a 7 A) (ht : Sc t' t 36 2.2) :
    Sc (rnd (rnd (a' * t') * t')) (a * t * t) 83 (A * 2.2 * 2.2) :=
  ((term1 ha ht).mul ht (by norm_num) (by norm_num) (by norm_num) (by norm_num)).mono (by norm_num)

theorem term3 (ha : Sc a' a 7 A) (ht : Sc t' t 36 2.2) :
    Sc (rnd (rnd (rnd (a' * t') * t') * t')) (a * t * t * t) 121 (A * 2.2 * 2.2 * 2.2) :=
  ((term2 ha ht).mul ht (by norm_num) (by norm_num) (by norm_num) (by norm_num)).mono (by norm_num)

end

variable {e : ℝ}

/-- the three angles of the precession are correct to four units of rounding -/
theorem precX_sc (h0 : 1 ≤ e) (h1 : e ≤ 131072) : Sc (precX e)
    (Openspace.dmsToRadians 0 0 2306.2181 * (⟨e⟩ : Epoch).julianCenturies +
      Openspace.dmsToRadians 0 0 0.30188 * (⟨e⟩ : Epoch).julianCenturies * (⟨e⟩ : Epoch).julianCenturies +
      Openspace.dmsToRadians 0 0 0.017998 * (⟨e⟩ : Epoch).julianCenturies * (⟨e⟩ : Epoch).julianCenturies *
        (⟨e⟩ : Epoch).julianCenturies) 124 0.025 := by
  have ht := centuries_sc h0 h1
  have ha := term1 (dms_sc (s := 2306.2181) (b := 0.0112) (by norm_num) (by norm_num)) ht
  have hb := term2 (dms_sc (s := 0.30188) (b := 1.5e-6) (by norm_num) (by norm_num)) ht
  have hc := term3 (dms_sc (s := 0.017998) (b := 1e-7) (by norm_num) (by norm_num)) ht
  have s1 := (ha.mono (e' := 120) (by norm_num)).add (hb.mono (by norm_num)) (by norm_num) (by norm_num)
  have s2 := s1.add (hc.mono (by norm_num)) (by norm_num) (by norm_num)
  exact (s2.mono (by norm_num)).scale (by norm_num) (by norm_num)

theorem precY_sc (h0 : 1 ≤ e) (h1 : e ≤ 131072) : Sc (precY e)
    (Openspace.dmsToRadians 0 0 2004.3109 * (⟨e⟩ : Epoch).julianCenturies -
      Openspace.dmsToRadians 0 0 0.42665 * (⟨e⟩ : Epoch).julianCenturies * (⟨e⟩ : Epoch).julianCenturies -
      Openspace.dmsToRadians 0 0 0.041833 * (⟨e⟩ : Epoch).julianCenturies * (⟨e⟩ : Epoch).julianCenturies *
        (⟨e⟩ : Epoch).julianCenturies) 124 0.025 := by
  have ht := centuries_sc h0 h1
  have ha := term1 (dms_sc (s := 2004.3109) (b := 0.0112) (by norm_num) (by norm_num)) ht
  have hb := term2 (dms_sc (s := 0.42665) (b := 2.1e-6) (by norm_num) (by norm_num)) ht
  have hc := term3 (dms_sc (s := 0.041833) (b := 3e-7) (by norm_num) (by norm_num)) ht
  have s1 := (ha.mono (e' := 120) (by norm_num)).sub (hb.mono (by norm_num)) (by norm_num) (by norm_num)
  have s2 := s1.sub (hc.mono (by norm_num)) (by norm_num) (by norm_num)
  exact (s2.mono (by norm_num)).scale (by norm_num) (by norm_num)

theorem precZ_sc (h0 : 1 ≤ e) (h1 : e ≤ 131072) : Sc (precZ e)
    (Openspace.dmsToRadians 0 0 2306.2181 * (⟨e⟩ : Epoch).julianCenturies +
      Openspace.dmsToRadians 0 0 0.30188 * (⟨e⟩ : Epoch).julianCenturies * (⟨e⟩ : Epoch).julianCenturies +
      Openspace.dmsToRadians 0 0 0.017998 * (⟨e⟩ : Epoch).julianCenturies * (⟨e⟩ : Epoch).julianCenturies *
        (⟨e⟩ : Epoch).julianCenturies +
      Openspace.dmsToRadians 0 0 0.7928 * (⟨e⟩ : Epoch).julianCenturies * (⟨e⟩ : Epoch).julianCenturies +
      Openspace.dmsToRadians 0 0 0.000205 * (⟨e⟩ : Epoch).julianCenturies * (⟨e⟩ : Epoch).julianCenturies *
        (⟨e⟩ : Epoch).julianCenturies) 127 0.0255 := by
  have ht := centuries_sc h0 h1
  have hx := precX_sc h0 h1
  have hb := term2 (dms_sc (s := 0.7928) (b := 4e-6) (by norm_num) (by norm_num)) ht
  have hc := term3 (dms_sc (s := 0.000205) (b := 1e-9) (by norm_num) (by norm_num)) ht
  have s1 := hx.add (hb.mono (by norm_num)) (by norm_num) (by norm_num)
  have s2 := s1.add (hc.mono (by norm_num)) (by norm_num) (by norm_num)
  exact (s2.mono (by norm_num)).scale (by norm_num) (by norm_num)

theorem obliquity_sc (h0 : 1 ≤ e) (h1 : e ≤ 131072) : Sc (obliquity e) (Earth.obliquityAt ⟨e⟩) 125 0.412 := by
  have ht := centuries_sc h0 h1
  have hO := const_radians 23.43929111 (b := 0.411) (by rw [abs_of_pos (by norm_num)]; norm_num)
  have ha := term1 (dms_sc (s := 46.815) (b := 2.3e-4) (by norm_num) (by norm_num)) ht
  have hb := term2 (dms_sc (s := 0.00059) (b := 1e-8) (by norm_num) (by norm_num)) ht
  have hc := term3 (dms_sc (s := 0.001813) (b := 1e-8) (by norm_num) (by norm_num)) ht
  have s1 := (hO.mono (e' := 119) (by norm_num)).sub (ha.mono (by norm_num)) (by norm_num) (by norm_num)
  have s2 := s1.sub (hb.mono (by norm_num)) (by norm_num) (by norm_num)
  have s3 := s2.add (hc.mono (by norm_num)) (by norm_num) (by norm_num)
  exact (s3.mono (by norm_num)).scale (by norm_num) (by norm_num)

theorem nutArg1_sc (h0 : 1 ≤ e) (h1 : e ≤ 131072) : Sc (nutArg1 e)
    (pyRadians (125.0 - 0.05295 * ((⟨e⟩ : Epoch).julianValue - Epoch.J2000_JULIAN_DATE))) 41 77 := by
  have h := (Sc.of_near (near_rnd (0.05295 : ℝ)) (by norm_num) (s := 0.05295) (by rw [abs_of_pos (by norm_num)])).mul
    (days_sc h0 h1) (by norm_num) (by norm_num) (by norm_num) (by norm_num)
  have g : Sc (125 : ℝ) 125.0 (1 + 34 + 1.01) 125 := by
    rw [show (125.0 : ℝ) = 125 by norm_num]
    exact (Sc.exact (by rw [abs_of_pos (by norm_num)])).mono (by norm_num)
  have s := radians_sc (g.sub h (by norm_num) (by norm_num)) (by norm_num) (by norm_num)
  exact (s.mono (by norm_num)).scale (by norm_num) (by norm_num)

theorem nutArg2_sc (h0 : 1 ≤ e) (h1 : e ≤ 131072) : Sc (nutArg2 e)
    (pyRadians (200.9 + 1.97129 * ((⟨e⟩ : Epoch).julianValue - Epoch.J2000_JULIAN_DATE))) 41 2770 := by
  have h := (Sc.of_near (near_rnd (1.97129 : ℝ)) (by norm_num) (s := 1.97129) (by rw [abs_of_pos (by norm_num)])).mul
    (days_sc h0 h1) (by norm_num) (by norm_num) (by norm_num) (by norm_num)
  have g := (Sc.of_near (near_rnd (200.9 : ℝ)) (by norm_num) (s := 200.9) (by rw [abs_of_pos (by norm_num)])).mono
    (e' := 1 + 34 + 1.01) (by norm_num)
  have s := radians_sc (g.add h (by norm_num) (by norm_num)) (by norm_num) (by norm_num)
  exact (s.mono (by norm_num)).scale (by norm_num) (by norm_num)

variable {lib : Libm}

theorem dpsi_sc (hlib : Spec.Accurate lib) (h0 : 1 ≤ e) (h1 : e ≤ 131072) :
    Sc (dpsi lib e) (Earth.dpsiAt ⟨e⟩) 29000 1.2e-4 := by
  have s1 := Sc.sine hlib (nutArg1_sc h0 h1) (k := 3200) (t := 1) (by norm_num) le_rfl
  have s2 := Sc.sine hlib (nutArg2_sc h0 h1) (k := 28500) (t := 4) (by norm_num) (by norm_num)
  have a := const_radians (-0.0048) (b := 8.5e-5) (by rw [abs_neg, abs_of_pos (by norm_num)]; norm_num)
  have b := const_radians 0.0004 (b := 7.1e-6) (by rw [abs_of_pos (by norm_num)]; norm_num)
  have m1 := (a.mul s1 (by norm_num) (by norm_num) (by norm_num) (by norm_num)).mono (e' := 28510) (by norm_num)
  have m2 := (b.mul s2 (by norm_num) (by norm_num) (by norm_num) (by norm_num)).mono (e' := 28510) (by norm_num)
  exact ((m1.sub m2 (by norm_num) (by norm_num)).mono (by norm_num)).scale (by norm_num) (by norm_num)

theorem deps_sc (hlib : Spec.Accurate lib) (h0 : 1 ≤ e) (h1 : e ≤ 131072) :
    Sc (deps lib e) (Earth.depsAt ⟨e⟩) 29000 1.2e-4 := by
  have s1 := Sc.cosine hlib (nutArg1_sc h0 h1) (k := 3200) (t := 1) (by norm_num) le_rfl
  have s2 := Sc.cosine hlib (nutArg2_sc h0 h1) (k := 28500) (t := 4) (by norm_num) (by norm_num)
  have a := const_radians 0.0026 (b := 4.6e-5) (by rw [abs_of_pos (by norm_num)]; norm_num)
  have b := const_radians 0.0002 (b := 3.6e-6) (by rw [abs_of_pos (by norm_num)]; norm_num)
  have m1 := (a.mul s1 (by norm_num) (by norm_num) (by norm_num) (by norm_num)).mono (e' := 28510) (by norm_num)
  have m2 := (b.mul s2 (by norm_num) (by norm_num) (by norm_num) (by norm_num)).mono (e' := 28510) (by norm_num)
  exact ((m1.add m2 (by norm_num) (by norm_num)).mono (by norm_num)).scale (by norm_num) (by norm_num)

/-! ## matrices -/

/-- every entry of `m'` is an entry of `m` with an error of `k` units of `s` -/
structure ScM (m' m : Mat3) (k s : ℝ) : Prop where
  h11 : Sc m'.row1.x m.row1.x k s
  h12 : Sc m'.row1.y m.row1.y k s
  h13 : Sc m'.row1.z m.row1.z k s
  h21 : Sc m'.row2.x m.row2.x k s
  h22 : Sc m'.row2.y m.row2.y k s
  h23 : Sc m'.row2.z m.row2.z k s
  h31 : Sc m'.row3.x m.row3.x k s
  h32 : Sc m'.row3.y m.row3.y k s
  h33 : Sc m'.row3.z m.row3.z k s

/-- every component -/
structure ScV (v' v : Vec3) (k s : ℝ) : Prop where
  hx : Sc v'.x v.x k s
  hy : Sc v'.y v.y k s
  hz : Sc v'.z v.z k s

theorem ScM.transpose {m' m : Mat3} {k s : ℝ} (h : ScM m' m k s) : ScM m'.transpose m.transpose k s :=
  ⟨h.h11, h.h21, h.h31, h.h12, h.h22, h.h32, h.h13, h.h23, h.h33⟩

theorem ScV.exact (v : Vec3) : ScV v v 0 v.magnitude :=
  ⟨Sc.exact (component_le v).1, Sc.exact (component_le v).2.1, Sc.exact (component_le v).2.2⟩

/-- a matrix times a vector -/
theorem ScM.mulVec {m' m : Mat3} {v' v : Vec3} {k s l t k' t' : ℝ} (h : ScM m' m k s) (g : ScV v' v l t) (hk : 0 ≤ k)
    (hk' : k ≤ 4e4) (hl : 0 ≤ l) (hl' : l ≤ 4e4) (hs : (k + l + 3.02) * (3 * (s * t)) ≤ k' * t')
    (hm : (m.mulVec v).magnitude ≤ t') : ScV (F64.mulVec m' v') (m.mulVec v) k' t' := by
  obtain ⟨c1, c2, c3⟩ := component_le (m.mulVec v)
  exact ⟨(Sc.dot h.h11 h.h12 h.h13 g.hx g.hy g.hz hk hk' hl hl').rescale hs (c1.trans hm),
    (Sc.dot h.h21 h.h22 h.h23 g.hx g.hy g.hz hk hk' hl hl').rescale hs (c2.trans hm),
    (Sc.dot h.h31 h.h32 h.h33 g.hx g.hy g.hz hk hk' hl hl').rescale hs (c3.trans hm)⟩

theorem precession_sc (hlib : Spec.Accurate lib) (h0 : 1 ≤ e) (h1 : e ≤ 131072) :
    ScM (precession lib e) (Earth.precession ⟨e⟩) 22 2 := by
  have hx := precX_sc h0 h1
  have hy := precY_sc h0 h1
  have hz := precZ_sc h0 h1
  have sx := Sc.sine hlib hx (k := 6) (t := 1) (by norm_num) le_rfl
  have cx := Sc.cosine hlib hx (k := 6) (t := 1) (by norm_num) le_rfl
  have sy := Sc.sine hlib hy (k := 6) (t := 1) (by norm_num) le_rfl
  have cy := Sc.cosine hlib hy (k := 6) (t := 1) (by norm_num) le_rfl
  have sz := Sc.sine hlib hz (k := 6) (t := 1) (by norm_num) le_rfl
  have cz := Sc.cosine hlib hz (k := 6) (t := 1) (by norm_num) le_rfl
  have two : ∀ {a' a b' b : ℝ}, Sc a' a 6 1 → Sc b' b 6 1 → Sc (rnd (a' * b')) (a * b) 13.01 (1 * 1) := fun h g =>
    (h.mul g (by norm_num) (by norm_num) (by norm_num) (by norm_num)).mono (by norm_num)
  have three : ∀ {a' a b' b c' c : ℝ}, Sc a' a 6 1 → Sc b' b 6 1 → Sc c' c 6 1 →
      Sc (rnd (rnd (a' * b') * c')) (a * b * c) 20.02 (1 * 1 * 1) := fun h g f =>
    ((two h g).mul f (by norm_num) (by norm_num) (by norm_num) (by norm_num)).mono (by norm_num)
  have w2 : ∀ {a' a : ℝ}, Sc a' a 13.01 (1 * 1) → Sc a' a 22 2 := fun h =>
    (h.mono (by norm_num)).scale (by norm_num) (by norm_num)
  have plus : ∀ {a' a b' b : ℝ}, Sc a' a 13.01 (1 * 1) → Sc b' b 20.02 (1 * 1 * 1) → Sc (rnd (a' + b')) (a + b) 22 2 :=
    fun h g => (((h.mono (by norm_num)).add g (by norm_num) (by norm_num)).mono (by norm_num)).scale (by norm_num)
      (by norm_num)
  have minus : ∀ {a' a b' b : ℝ}, Sc a' a 13.01 (1 * 1) → Sc b' b 20.02 (1 * 1 * 1) → Sc (rnd (a' - b')) (a - b) 22 2 :=
    fun h g => (((h.mono (by norm_num)).sub g (by norm_num) (by norm_num)).mono (by norm_num)).scale (by norm_num)
      (by norm_num)
  exact ⟨plus (two sz.neg sx) (three cz cy cx), minus (two sz.neg cx) (three cz cy sx), w2 (two cz.neg sy),
    plus (two cz sx) (three sz cy cx), minus (two cz cx) (three sz cy sx), w2 (two sz.neg sy),
    w2 (two sy cx), w2 (two sy.neg sx), (cy.mono (by norm_num)).scale (by norm_num) (by norm_num)⟩

theorem nutation_sc (hlib : Spec.Accurate lib) (h0 : 1 ≤ e) (h1 : e ≤ 131072) :
    ScM (nutation lib e) (Earth.nutation ⟨e⟩) 4 1 := by
  have hd := dpsi_sc hlib h0 h1
  have hp := deps_sc hlib h0 h1
  have ce := Sc.cosine hlib (obliquity_sc h0 h1) (k := 60) (t := 1) (by norm_num) le_rfl
  have se := Sc.sine hlib (obliquity_sc h0 h1) (k := 60) (t := 1) (by norm_num) le_rfl
  have one : Sc (1 : ℝ) 1.0 4 1 := by
    rw [show (1.0 : ℝ) = 1 by norm_num]
    exact (Sc.exact (by norm_num)).mono (by norm_num)
  have small : ∀ {y x : ℝ}, Sc y x 29000 1.2e-4 → Sc y x 4 1 := fun h => h.rescale (by norm_num) (h.2.trans (by norm_num))
  have prod : ∀ {y x y' x' : ℝ}, Sc y x 29000 1.2e-4 → Sc y' x' 60 1 → Sc (rnd (y * y')) (x * x') 4 1 := fun h g =>
    have m := h.mul g (by norm_num) (by norm_num) (by norm_num) (by norm_num)
    m.rescale (by norm_num) (m.2.trans (by norm_num))
  exact ⟨one, prod hd.neg ce, prod hd.neg se, prod hd ce, one, small hp.neg, prod hd se, small hp, one⟩

/-- the rotation about the third axis -/
noncomputable def turn (g : ℝ) : Mat3 := ⟨⟨cos g, sin g, 0⟩, ⟨-sin g, cos g, 0⟩, ⟨0, 0, 1⟩⟩

theorem normalized_z : normalized ⟨0, 0, 1⟩ = .ok ⟨0, 0, 1⟩ := by
  have r1 : rnd 1 = 1 := isDouble_one
  have hm : magnitude ⟨0, 0, 1⟩ = 1 := by
    simp [magnitude, dot, rnd_zero, r1, Openspace.sqrtNN]
  simp [normalized, hm, div_ok, r1, scaled, rnd_zero]

/-- the matrix of a rotation about the polar axis -/
theorem rotationMatrix_sc (hlib : Spec.Accurate lib) (g : ℝ) :
    ∃ m, rotationMatrix lib ⟨0, 0, 1⟩ (-g) = .ok m ∧ ScM m (turn g) 8 1 := by
  have r1 : rnd 1 = 1 := isDouble_one
  have z : Sc (0 : ℝ) 0 8 1 := (Sc.exact (by norm_num)).mono (by norm_num)
  have ang : Sc (-g) (-g) 0 |g| := Sc.exact (by rw [abs_neg])
  have c := Sc.cosine hlib ang (k := 2) (t := 1) (by norm_num) le_rfl
  have s := Sc.sine hlib ang (k := 2) (t := 1) (by norm_num) le_rfl
  rw [cos_neg] at c
  rw [sin_neg] at s
  have c1 := (c.round (by norm_num) (by norm_num)).mono (e' := 8) (by norm_num)
  have s1 := (s.round (by norm_num) (by norm_num)).round (by norm_num) (by norm_num)
  have s2 := s1.mono (e' := 8) (by norm_num)
  have s3 := (((s.round (by norm_num) (by norm_num)).neg.round (by norm_num) (by norm_num)).mono (e' := 8) (by norm_num))
  rw [neg_neg] at s3
  -- the last entry
  have hu := u_pos
  have hu' := u_tiny
  obtain ⟨C, hC⟩ : ∃ C, C = lib.cos (-g) := ⟨_, rfl⟩
  have b1 : |C| ≤ 1.001 := by rw [hC]; exact (c.abs_le (by norm_num) (by norm_num)).trans (by norm_num)
  obtain ⟨b2, b3⟩ := abs_le.mp b1
  have b4 : |1 - C| ≤ 2.001 := by rw [abs_le]; constructor <;> linarith
  have d1 := rabs (y := 1 - C) (x := 1 - C) (E := 0) (M := 2.001) (by simp) (by linarith)
  have d2 := rabs d1 (M := 2.002) (by linarith)
  have d3 : |C + rnd (rnd (1 - C)) - 1| ≤ 4.1 * u := by
    rw [show C + rnd (rnd (1 - C)) - 1 = rnd (rnd (1 - C)) - (1 - C) by ring]; linarith
  have d4 := rabs d3 (M := 1.001) (by rw [abs_one]; linarith)
  have last : Sc (rnd (C + rnd (rnd (1 - C)))) 1 8 1 := ⟨by linarith, by norm_num⟩
  rw [hC] at last
  refine ⟨_, by
    simp only [rotationMatrix, normalized_z, ok_bind, pure_eq_ok]; rfl, ?_⟩
  simp only [mul_zero, zero_mul, rnd_zero, add_zero, zero_add, zero_sub, neg_zero, mul_one, one_mul, r1]
  rw [turn]
  exact ⟨c1, s3, z, s2, c1, z, z, z, last⟩

theorem rotation_sc (hlib : Spec.Accurate lib) (e : ℝ) :
    ∃ m, rotation lib e = .ok m ∧ ScM m (turn (gast lib e)) 8 1 := rotationMatrix_sc hlib (gast lib e)

end Openspace.F64
