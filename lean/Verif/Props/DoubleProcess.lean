import Verif.Props.DoubleGain
import Verif.Props.DoubleRelative
import Verif.Props.DoubleToIjk
import Verif.Lemmas.DoubleAngles

/-!
# C158: what the navigation filter makes of an observation in double precision
-/

namespace Openspace

open Real

namespace F64

/-! ## the Hill position of a slightly different point -/

/-- the position given by `to_hcw` with exact arithmetic, from the coordinates along the axes of the origin -/
theorem hcw_position {o s : GCRF} {M : Mat3} (hM : Openspace.frameMatrix o = .ok M) (hrot : M.IsRotation)
    (hR : 0 < o.position.magnitude) (hX : 0 < (M.mulVec s.position).x) : ∃ h, Openspace.gcrfToHcw o s = .ok h ∧
    h.position = ⟨s.position.magnitude - o.position.magnitude,
      arctan ((M.mulVec s.position).y / (M.mulVec s.position).x) * o.position.magnitude,
      arcsin ((M.mulVec s.position).z / s.position.magnitude) * o.position.magnitude⟩ := by
  have hPm := hrot.orth.magnitude_mulVec s.position
  have hsq := Vec3.magnitude_sq_dot (M.mulVec s.position)
  rw [hPm] at hsq
  simp only [Vec3.dot] at hsq
  have hr0 := s.position.magnitude_nonneg
  obtain ⟨R, hRe⟩ : ∃ R, R = o.position.magnitude := ⟨_, rfl⟩
  obtain ⟨r, hre⟩ : ∃ r, r = s.position.magnitude := ⟨_, rfl⟩
  obtain ⟨P, hP⟩ : ∃ P, P = M.mulVec s.position := ⟨_, rfl⟩
  rw [← hre] at hsq hr0
  rw [← hP] at hsq hX
  rw [← hRe] at hR
  have hr : 0 < r := by
    rcases hr0.eq_or_lt with h | h
    · rw [← h] at hsq; nlinarith [mul_self_nonneg P.y, mul_self_nonneg P.z, mul_pos hX hX]
    · exact h
  have hz : |P.z| < r := by
    apply abs_lt_of_sq_lt_sq _ hr.le
    nlinarith [mul_self_nonneg P.y, mul_pos hX hX]
  have hz' : |P.z / r| < 1 := by rw [abs_div, abs_of_pos hr, div_lt_one hr]; exact hz
  obtain ⟨z1, z2⟩ := abs_lt.mp hz'
  have hcos : 0 < Real.cos (arcsin (P.z / r)) := by
    rw [cos_arcsin]
    apply Real.sqrt_pos.mpr
    nlinarith
  have hcp0 : r * Real.cos (arcsin (P.z / r)) ≠ 0 := by positivity
  have key : ∃ V, Openspace.gcrfToHcw o s = .ok (State.new o.epoch ⟨r - R, pyAtan2 P.y P.x * R, arcsin (P.z / r) * R⟩ V) := by
    simp only [Openspace.gcrfToHcw, hM, ok_bind, ← hRe, ← hre, ← hP, pyDiv_ok hr.ne', pyDiv_ok hR.ne',
      pyAsin_ok z1.le z2.le, pyCos, pySin, pyDiv_ok hcp0, pure_eq_ok]
    exact ⟨_, rfl⟩
  obtain ⟨V, hV⟩ := key
  refine ⟨_, hV, ?_⟩
  rw [← hRe, ← hre, ← hP, ← pyAtan2_of_pos hX]
  rfl

theorem ratio_shift {X Y X' Y' R δ : ℝ} (hR : 0 < R) (hX : 6 / 10 * R ≤ X) (hY : |Y| ≤ 4 / 10 * R) (h1 : |X' - X| ≤ δ)
    (h2 : |Y' - Y| ≤ δ) (hδ : δ ≤ R / 100) : |Y' / X' - Y / X| ≤ 284 / 100 * δ / R := by
  have hδ0 : 0 ≤ δ := (abs_nonneg _).trans h1
  have hXp : 0 < X := by linarith
  have hX' : 59 / 100 * R ≤ X' := by linarith [(abs_le.mp h1).1]
  have hX'p : 0 < X' := by linarith
  rw [show Y' / X' - Y / X = ((Y' - Y) - Y * (X' - X) / X) / X' by field_simp; ring, abs_div, abs_of_pos hX'p,
    div_le_iff₀ hX'p]
  have t := abs_sub (Y' - Y) (Y * (X' - X) / X)
  have t2 : |Y * (X' - X) / X| ≤ 667 / 1000 * δ := by
    rw [abs_div, abs_mul, abs_of_pos hXp, div_le_iff₀ hXp]
    have a1 : |Y| * |X' - X| ≤ (4 / 10 * R) * δ := by gcongr
    have a2 : (6 / 10 * R) * δ ≤ X * δ := by gcongr
    nlinarith
  have t3 : 284 / 100 * δ / R * (59 / 100 * R) ≤ 284 / 100 * δ / R * X' := by gcongr
  have t4 : 284 / 100 * δ / R * (59 / 100 * R) = 284 / 100 * δ * (59 / 100) := by field_simp
  linarith

/-- the position in the Hill frame of a point near the origin, computed from a point that is off by `δ` -/
theorem hcw_shift {lib : Libm} (hlib : Spec.Accurate lib) (hatan : Spec.Atan2Accurate lib) (hasin : Spec.AsinAccurate lib)
    {o : GCRF} (hc : o.position.cross o.velocity ≠ ⟨0, 0, 0⟩)
    (ho : o.position.magnitude * o.velocity.magnitude ≤ 10 * (o.position.cross o.velocity).magnitude)
    {d p : Vec3} {δ : ℝ} (w : Vec3) (hd : d.magnitude ≤ 4 / 10 * o.position.magnitude)
    (hp : (p.minus (o.position.plus d)).magnitude ≤ δ) (hδ : δ ≤ o.position.magnitude / 100) :
    ∃ h q v, Openspace.gcrfToHcw o (GCRF.new o.epoch (o.position.plus d) w) = .ok h ∧
      gcrfToHcw lib o.position o.velocity p w = .ok (q, v) ∧
      |q.x - h.position.x| ≤ 480 * u * o.position.magnitude + 6 * δ ∧
      |q.y - h.position.y| ≤ 480 * u * o.position.magnitude + 6 * δ ∧
      |q.z - h.position.z| ≤ 480 * u * o.position.magnitude + 6 * δ := by
  obtain ⟨M, -, hM, -, hrot, hrow1, -⟩ := frame_pair hc ho
  have hR : 0 < o.position.magnitude := Vec3.magnitude_pos.mpr (position_ne_of_cross hc)
  have hδ0 : 0 ≤ δ := (Vec3.magnitude_nonneg _).trans hp
  -- coordinates along the axes of the origin
  have horg : M.mulVec o.position = ⟨o.position.magnitude, 0, 0⟩ := by
    have h1 := hrot.orth.r11
    have h2 := hrot.orth.r12
    have h3 := hrot.orth.r13
    simp only [Vec3.dot] at h1 h2 h3
    rw [← hrow1]
    have e : (M.row1.scaled o.position.magnitude).magnitude = o.position.magnitude := by rw [hrow1]
    rw [e]
    ext
    · simp only [Mat3.mulVec, Vec3.dot, Vec3.scaled]; linear_combination o.position.magnitude * h1
    · simp only [Mat3.mulVec, Vec3.dot, Vec3.scaled]; linear_combination o.position.magnitude * h2
    · simp only [Mat3.mulVec, Vec3.dot, Vec3.scaled]; linear_combination o.position.magnitude * h3
  obtain ⟨a, ha⟩ : ∃ a, a = o.position.plus d := ⟨_, rfl⟩
  have hlin : ∀ b c : Vec3, M.mulVec (b.plus c) = (M.mulVec b).plus (M.mulVec c) := by
    intro b c; ext <;> simp only [Mat3.mulVec, Vec3.dot, Vec3.plus] <;> ring
  have hlin' : ∀ b c : Vec3, M.mulVec (b.minus c) = (M.mulVec b).minus (M.mulVec c) := by
    intro b c; ext <;> simp only [Mat3.mulVec, Vec3.dot, Vec3.minus] <;> ring
  have hPa : M.mulVec a = (⟨o.position.magnitude, 0, 0⟩ : Vec3).plus (M.mulVec d) := by rw [ha, hlin, horg]
  have hdm := hrot.orth.magnitude_mulVec d
  obtain ⟨d1, d2, d3⟩ := component_le (M.mulVec d)
  rw [hdm] at d1 d2 d3
  have hpm := hrot.orth.magnitude_mulVec (p.minus a)
  obtain ⟨e1, e2, e3⟩ := component_le (M.mulVec (p.minus a))
  rw [hpm, hlin'] at e1 e2 e3
  rw [← ha] at hp
  have am := magnitude_sub_le p a
  have pm : |p.magnitude - a.magnitude| ≤ δ := am.trans hp
  have hax : 6 / 10 * o.position.magnitude ≤ (M.mulVec a).x := by
    rw [hPa]; simp only [Vec3.plus]; linarith [(_root_.abs_le.mp d1).1]
  have hay : |(M.mulVec a).y| ≤ 4 / 10 * o.position.magnitude := by
    rw [hPa]; simp only [Vec3.plus, zero_add]; linarith
  have haz : |(M.mulVec a).z| ≤ 4 / 10 * o.position.magnitude := by
    rw [hPa]; simp only [Vec3.plus, zero_add]; linarith
  have harad : 6 / 10 * o.position.magnitude ≤ a.magnitude := by
    have h1 := (component_le (M.mulVec a)).1
    rw [hrot.orth.magnitude_mulVec] at h1
    linarith [le_abs_self (M.mulVec a).x]
  have hamax : a.magnitude ≤ 14 / 10 * o.position.magnitude := by
    rw [ha]; linarith [Vec3.magnitude_plus_le o.position d]
  simp only [Vec3.minus] at e1 e2 e3
  have f1 := e1.trans hp
  have f2 := e2.trans hp
  have f3 := e3.trans hp
  have hpx : 59 / 100 * o.position.magnitude ≤ (M.mulVec p).x := by linarith [(_root_.abs_le.mp f1).1]
  have hpy : |(M.mulVec p).y| ≤ 41 / 100 * o.position.magnitude := by
    have := abs_sub_abs_le_abs_sub (M.mulVec p).y (M.mulVec a).y
    linarith
  have hpz : |(M.mulVec p).z| ≤ 41 / 100 * o.position.magnitude := by
    have := abs_sub_abs_le_abs_sub (M.mulVec p).z (M.mulVec a).z
    linarith
  have hpr := (_root_.abs_le.mp pm)
  have hrx : p.magnitude ≤ 2 * (M.mulVec p).x := by
    have hsq := Vec3.magnitude_sq_dot (M.mulVec p)
    rw [hrot.orth.magnitude_mulVec] at hsq
    simp only [Vec3.dot] at hsq
    have y2 : (M.mulVec p).y * (M.mulVec p).y ≤ (41 / 100 * o.position.magnitude) ^ 2 := by
      rw [← sq, ← sq_abs]; gcongr
    have z2 : (M.mulVec p).z * (M.mulVec p).z ≤ (41 / 100 * o.position.magnitude) ^ 2 := by
      rw [← sq, ← sq_abs]; gcongr
    have x2 : (59 / 100 * o.position.magnitude) ^ 2 ≤ (M.mulVec p).x ^ 2 := by gcongr
    apply (abs_le_of_sq_le_sq' _ (by linarith)).2
    nlinarith
  have hdot : o.position.dot p = (M.mulVec p).x * o.position.magnitude := by
    rw [← hrow1, Vec3.dot_scaled_left, hrow1]
    simp only [Mat3.mulVec]; ring
  obtain ⟨h, h1, h2⟩ := hcw_position (s := GCRF.new o.epoch a w) hM hrot hR (show 0 < (M.mulVec a).x by linarith)
  obtain ⟨h', h1', h2'⟩ := hcw_position (s := GCRF.new o.epoch p w) hM hrot hR (show 0 < (M.mulVec p).x by linarith)
  obtain ⟨h'', q, v, g1, g2, ⟨g3, g4, g5⟩, -⟩ := gcrfToHcw_near hlib hatan hasin (s := GCRF.new o.epoch p w) hc ho
    (show o.position.magnitude ≤ 2 * p.magnitude by linarith) (show p.magnitude ≤ 2 * o.position.magnitude by linarith)
    (show o.position.magnitude * p.magnitude ≤ 2 * o.position.dot p by rw [hdot]; nlinarith)
  rw [h1', Except.ok.injEq] at g1
  rw [← g1] at g3 g4 g5
  refine ⟨h, q, v, by rw [← ha]; exact h1, g2, ?_, ?_, ?_⟩
  · have t : |h'.position.x - h.position.x| ≤ δ := by
      rw [h2, h2']
      show |p.magnitude - o.position.magnitude - (a.magnitude - o.position.magnitude)| ≤ δ
      rw [sub_sub_sub_cancel_right]; exact pm
    have := abs_sub_le q.x h'.position.x h.position.x
    linarith [g3.1]
  · have t : |h'.position.y - h.position.y| ≤ 6 * δ := by
      rw [h2, h2']
      show |arctan ((M.mulVec p).y / (M.mulVec p).x) * o.position.magnitude
        - arctan ((M.mulVec a).y / (M.mulVec a).x) * o.position.magnitude| ≤ 6 * δ
      rw [← sub_mul, abs_mul, abs_of_pos hR]
      have t1 := (arctan_spread ((M.mulVec p).y / (M.mulVec p).x) ((M.mulVec a).y / (M.mulVec a).x)).trans
        (ratio_shift hR hax hay f1 f2 hδ)
      calc _ ≤ 284 / 100 * δ / o.position.magnitude * o.position.magnitude := by gcongr
        _ = 284 / 100 * δ := by field_simp
        _ ≤ _ := by linarith
    have := abs_sub_le q.y h'.position.y h.position.y
    linarith [g4.1]
  · have t : |h'.position.z - h.position.z| ≤ 6 * δ := by
      rw [h2, h2']
      show |arcsin ((M.mulVec p).z / p.magnitude) * o.position.magnitude
        - arcsin ((M.mulVec a).z / a.magnitude) * o.position.magnitude| ≤ 6 * δ
      rw [← sub_mul, abs_mul, abs_of_pos hR]
      have s1 : |(M.mulVec a).z / a.magnitude| ≤ 867 / 1000 := by
        rw [abs_div, abs_of_pos (show 0 < a.magnitude by linarith), div_le_iff₀ (by linarith)]; linarith
      have s2 : |(M.mulVec p).z / p.magnitude| ≤ 867 / 1000 := by
        rw [abs_div, abs_of_pos (show 0 < p.magnitude by linarith), div_le_iff₀ (by linarith)]; linarith
      have t1 := arcsin_spread s2 s1
      have t2 := ratio_shift hR harad haz pm f3 hδ
      calc _ ≤ 2.01 * (284 / 100 * δ / o.position.magnitude) * o.position.magnitude := by
            gcongr; exact t1.trans (by gcongr)
        _ = 2.01 * (284 / 100) * δ := by field_simp
        _ ≤ _ := by norm_num; linarith
    have := abs_sub_le q.z h'.position.z h.position.z
    linarith [g5.1]

/-! ## the displaced point -/

/-- cartesian coordinates of the observed direction with errors added to its range and angles -/
theorem displaced_near {lib : Libm} (hlib : Spec.Accurate lib) (hatan : Spec.Atan2Accurate lib) (d : Vec3) {re ae : ℝ}
    (hre : 0 ≤ re) (hae : |ae| ≤ 1) {c c' : Vec3}
    (hc : c = SphericalPosition.toCartesian ⟨(SphericalPosition.fromCartesian d).radius + re,
      (SphericalPosition.fromCartesian d).right_ascension + ae, (SphericalPosition.fromCartesian d).declination + ae⟩)
    (hc' : c' = toCartesian lib ⟨rnd ((fromCartesian lib d).radius + re), rnd ((fromCartesian lib d).right_ascension + ae),
      rnd ((fromCartesian lib d).declination + ae)⟩) :
    Sc c'.x c.x 54.4 (d.magnitude + re) ∧ Sc c'.y c.y 54.4 (d.magnitude + re) ∧ Sc c'.z c.z 54.4 (d.magnitude + re) := by
  have hu := u_tiny
  have hu0 := u_pos
  have hd0 := d.magnitude_nonneg
  have hp := Real.pi_lt_d2
  obtain ⟨-, -, -, -, q1, q2⟩ := C23_ranges d
  -- the range
  have hr : Near (rnd ((fromCartesian lib d).radius + re)) (d.magnitude + re) 5.3 := by
    have h1 := magnitude_near d
    unfold Near at h1 ⊢
    rw [abs_of_nonneg hd0] at h1
    have e : (fromCartesian lib d).radius = magnitude d := rfl
    rw [e]
    have h2 : |magnitude d + re - (d.magnitude + re)| ≤ 4.2 * u * (d.magnitude + re) := by
      rw [add_sub_add_right_eq_sub]
      refine h1.trans ?_
      gcongr; linarith
    rw [abs_of_nonneg (show 0 ≤ d.magnitude + re by linarith)]
    have h3 := rabs h2 (M := 1.001 * (d.magnitude + re)) (by
      rw [abs_of_nonneg (show 0 ≤ d.magnitude + re by linarith)]
      have : 4.2 * u * (d.magnitude + re) ≤ 0.001 * (d.magnitude + re) := by
        gcongr; norm_num at hu ⊢; linarith
      linarith)
    have : 0 ≤ u * (d.magnitude + re) := by positivity
    norm_num at h3 ⊢; linarith
  have sr : Sc (rnd ((fromCartesian lib d).radius + re)) (d.magnitude + re) 5.3 (d.magnitude + re) :=
    Sc.of_near hr (by norm_num) (by rw [abs_of_nonneg (show 0 ≤ d.magnitude + re by linarith)])
  -- the declination
  have hdec := declination_near hatan d
  have adec : |rnd ((fromCartesian lib d).declination + ae) - ((SphericalPosition.fromCartesian d).declination + ae)| ≤
      8.7 * u := by
    have h2 : |(fromCartesian lib d).declination + ae - ((SphericalPosition.fromCartesian d).declination + ae)| ≤ 6 * u := by
      rw [add_sub_add_right_eq_sub]; exact hdec
    refine (rabs h2 (M := 2.7) ?_).trans (by norm_num; linarith)
    have h3 : |(SphericalPosition.fromCartesian d).declination| ≤ π / 2 := _root_.abs_le.mpr ⟨q1, q2⟩
    have := abs_add_le (SphericalPosition.fromCartesian d).declination ae
    norm_num at hp hu ⊢
    linarith
  -- the right ascension
  obtain ⟨k, hk⟩ := rightAscension_near hatan d
  have hra := ascension_abs hatan d
  have ara : |rnd ((fromCartesian lib d).right_ascension + ae)
      - ((SphericalPosition.fromCartesian d).right_ascension + ae + k * (2 * π))| ≤ 34.1 * u := by
    have h1 := rnd_u ((fromCartesian lib d).right_ascension + ae)
    have h2 := abs_add_le (fromCartesian lib d).right_ascension ae
    have h3 : u * |(fromCartesian lib d).right_ascension + ae| ≤ u * 21 := by gcongr; linarith
    have h4 := abs_sub_le (rnd ((fromCartesian lib d).right_ascension + ae)) ((fromCartesian lib d).right_ascension + ae)
      ((SphericalPosition.fromCartesian d).right_ascension + ae + k * (2 * π))
    rw [show (fromCartesian lib d).right_ascension + ae - ((SphericalPosition.fromCartesian d).right_ascension + ae + k * (2 * π))
      = (fromCartesian lib d).right_ascension - ((SphericalPosition.fromCartesian d).right_ascension + 2 * π * k) by ring] at h4
    norm_num at h1 h3 ⊢
    linarith
  have cd := (Sc.cos hlib adec).mono (e' := 10.7) (by norm_num)
  have sd := (Sc.sin hlib adec).mono (e' := 10.7) (by norm_num)
  have ca := (Sc.cos hlib ara).mono (e' := 36.1) (by norm_num)
  have sa := (Sc.sin hlib ara).mono (e' := 36.1) (by norm_num)
  rw [cos_add_int_mul_two_pi] at ca
  rw [sin_add_int_mul_two_pi] at sa
  have m1 := (cd.mul ca (by norm_num) (by norm_num) (by norm_num) (by norm_num)).mul sr (by norm_num) (by norm_num)
    (by norm_num) (by norm_num)
  have m2 := (cd.mul sa (by norm_num) (by norm_num) (by norm_num) (by norm_num)).mul sr (by norm_num) (by norm_num)
    (by norm_num) (by norm_num)
  have m3 := sd.mul sr (by norm_num) (by norm_num) (by norm_num) (by norm_num)
  rw [mul_one, one_mul] at m1 m2
  rw [one_mul] at m3
  rw [hc, hc']
  exact ⟨m1.mono (by norm_num), m2.mono (by norm_num), m3.mono (by norm_num)⟩

/-- a rounded sum of two vectors -/
theorem plus_near {a b b' : Vec3} {E M : ℝ} (h : |b'.x - b.x| ≤ E ∧ |b'.y - b.y| ≤ E ∧ |b'.z - b.z| ≤ E)
    (hM : (a.plus b).magnitude + E ≤ M) : ((plus a b').minus (a.plus b)).magnitude ≤ 1.7321 * (E + M * u) := by
  obtain ⟨c1, c2, c3⟩ := component_le (a.plus b)
  have key : ∀ x y y' : ℝ, |y' - y| ≤ E → |x + y| ≤ (a.plus b).magnitude → |rnd (x + y') - (x + y)| ≤ E + M * u :=
    fun x y y' h1 h2 => rabs (by rwa [add_sub_add_left_eq_sub]) (by linarith)
  exact magnitude_le_of (key _ _ _ h.1 c1) (key _ _ _ h.2.1 c2) (key _ _ _ h.2.2 c3)

end F64

/-- What the filter measures.  For an observer whose velocity is at least 6 degrees off the radial direction, with target and
error vector both within 0.4 of the distance of the observer, the relative position the filter takes as the measurement is
within 6e-14 of that distance from the one `to_hcw` gives with exact arithmetic for the observed point, and the errors are
within 1.2e-13 of it from those it gives for the displaced point. -/
theorem C158_measurement {lib : F64.Libm} (hlib : Spec.Accurate lib) (hatan : Spec.Atan2Accurate lib)
    (hasin : Spec.AsinAccurate lib) (o : GCRF) (d E : Vec3) (re ae ρ : ℝ) (hρ : ρ = o.position.magnitude)
    (hp : o.position ≠ ⟨0, 0, 0⟩) (hv : o.velocity ≠ ⟨0, 0, 0⟩)
    (ho : ρ * o.velocity.magnitude ≤ 10 * (o.position.cross o.velocity).magnitude)
    (hE : E = (SphericalPosition.toCartesian ⟨(SphericalPosition.fromCartesian d).radius + re,
      (SphericalPosition.fromCartesian d).right_ascension + ae,
      (SphericalPosition.fromCartesian d).declination + ae⟩).minus d)
    (hre : 0 ≤ re) (hae : |ae| ≤ 1) (h1 : d.magnitude ≤ 4 / 10 * ρ) (h2 : E.magnitude ≤ 4 / 10 * ρ) :
    ∃ hz he z e, gcrfToHcw o (GCRF.new o.epoch (o.position.plus d) o.velocity) = .ok hz ∧
      gcrfToHcw o (GCRF.new o.epoch (o.position.plus E) o.velocity) = .ok he ∧
      F64.Kalman.hillMeasurement lib (F64.spaceObservation lib o d re ae) = .ok z ∧
      F64.Kalman.hillErrors lib (F64.spaceObservation lib o d re ae) = .ok e ∧
      (|z.x - hz.position.x| ≤ 6 / 10 ^ 14 * ρ ∧ |z.y - hz.position.y| ≤ 6 / 10 ^ 14 * ρ ∧
        |z.z - hz.position.z| ≤ 6 / 10 ^ 14 * ρ) ∧
      |e.x - he.position.x| ≤ 12 / 10 ^ 14 * ρ ∧ |e.y - he.position.y| ≤ 12 / 10 ^ 14 * ρ ∧
      |e.z - he.position.z| ≤ 12 / 10 ^ 14 * ρ := by
  have hu : F64.u ≤ 1112 / 10 ^ 19 := by unfold F64.u; norm_num
  have hu0 := F64.u_pos
  have hc : o.position.cross o.velocity ≠ ⟨0, 0, 0⟩ := by
    intro h
    rw [h, Vec3.magnitude_eq_zero.mpr rfl, hρ] at ho
    have := mul_pos (Vec3.magnitude_pos.mpr hp) (Vec3.magnitude_pos.mpr hv)
    linarith
  have hρ0 : 0 < ρ := by rw [hρ]; exact Vec3.magnitude_pos.mpr hp
  have hρu : F64.u * ρ ≤ 1112 / 10 ^ 19 * ρ := by gcongr
  have hρu0 : 0 ≤ F64.u * ρ := by positivity
  have hodm := Vec3.magnitude_plus_le o.position d
  have hoEm := Vec3.magnitude_plus_le o.position E
  rw [← hρ] at hodm hoEm
  -- the measurement
  have g1 := F64.plus_near (a := o.position) (b := d) (b' := d) (E := 0) (M := 1.4 * ρ) (by simp)
    (by norm_num at h1 ⊢; linarith)
  obtain ⟨hz, z, v, a1, a2, a3, a4, a5⟩ := F64.hcw_shift hlib hatan hasin hc (by rw [← hρ]; exact ho) o.velocity
    (by rw [← hρ]; exact h1) g1 (by rw [← hρ]; norm_num at hρu ⊢; linarith)
  -- the errors
  obtain ⟨c, hcc⟩ : ∃ c, c = SphericalPosition.toCartesian ⟨(SphericalPosition.fromCartesian d).radius + re,
      (SphericalPosition.fromCartesian d).right_ascension + ae, (SphericalPosition.fromCartesian d).declination + ae⟩ :=
    ⟨_, rfl⟩
  obtain ⟨c', hcc'⟩ : ∃ c, c = F64.toCartesian lib ⟨F64.rnd ((F64.fromCartesian lib d).radius + re),
      F64.rnd ((F64.fromCartesian lib d).right_ascension + ae), F64.rnd ((F64.fromCartesian lib d).declination + ae)⟩ :=
    ⟨_, rfl⟩
  obtain ⟨s1, s2, s3⟩ := F64.displaced_near hlib hatan d hre hae hcc hcc'
  rw [← hcc] at hE
  have hrange : d.magnitude + re ≤ 8 / 10 * ρ := by
    have e1 : c.magnitude = d.magnitude + re := by
      have hr : (SphericalPosition.fromCartesian d).radius = d.magnitude := rfl
      apply Vec3.magnitude_of_dot (by linarith [d.magnitude_nonneg])
      rw [hcc]
      simp only [SphericalPosition.toCartesian, Vec3.dot, Vec3.scaled, hr, pyCos, pySin]
      have i1 := Real.sin_sq_add_cos_sq ((SphericalPosition.fromCartesian d).right_ascension + ae)
      have i2 := Real.sin_sq_add_cos_sq ((SphericalPosition.fromCartesian d).declination + ae)
      linear_combination (d.magnitude + re) ^ 2 * i2 +
        (d.magnitude + re) ^ 2 * Real.cos ((SphericalPosition.fromCartesian d).declination + ae) ^ 2 * i1
    have e2 : c = E.plus d := by rw [hE]; ext <;> simp [Vec3.minus, Vec3.plus]
    have := Vec3.magnitude_plus_le E d
    rw [← e2] at this
    linarith
  have hb : 54.4 * F64.u * (d.magnitude + re) ≤ 43.6 * (F64.u * ρ) := by
    have : F64.u * (d.magnitude + re) ≤ F64.u * (8 / 10 * ρ) := by gcongr
    norm_num at this ⊢; linarith
  obtain ⟨E1, E2, E3⟩ := F64.component_le E
  have key : ∀ x y y' : ℝ, |y' - y| ≤ 54.4 * F64.u * (d.magnitude + re) → |y - x| ≤ E.magnitude →
      |F64.rnd (y' - x) - (y - x)| ≤ 44.1 * (F64.u * ρ) := fun x y y' i1 i2 => by
    refine (F64.rabs (x := y - x) (E := 43.6 * (F64.u * ρ)) (M := 0.41 * ρ) (by
      rw [sub_sub_sub_cancel_right]; linarith) (by norm_num at hρu h2 ⊢; linarith)).trans ?_
    norm_num; linarith
  have g2 := F64.plus_near (a := o.position) (b := E) (b' := F64.minus c' d) (E := 44.1 * (F64.u * ρ)) (M := 1.41 * ρ)
    (by
      have x1 : |c.x - d.x| ≤ E.magnitude := by rw [hE] at E1 ⊢; exact E1
      have x2 : |c.y - d.y| ≤ E.magnitude := by rw [hE] at E2 ⊢; exact E2
      have x3 : |c.z - d.z| ≤ E.magnitude := by rw [hE] at E3 ⊢; exact E3
      have y1 := key _ _ _ s1.1 x1
      have y2 := key _ _ _ s2.1 x2
      have y3 := key _ _ _ s3.1 x3
      rw [hE]
      exact ⟨y1, y2, y3⟩)
    (by norm_num at h2 hρu ⊢; linarith)
  obtain ⟨he, e, v', b1, b2, b3, b4, b5⟩ := F64.hcw_shift hlib hatan hasin hc (by rw [← hρ]; exact ho) o.velocity
    (by rw [← hρ]; exact h2) g2 (by rw [← hρ]; norm_num at hρu ⊢; linarith)
  rw [← hρ] at a3 a4 a5 b3 b4 b5
  have fa : 480 * F64.u * ρ + 6 * (1.7321 * (0 + 1.4 * ρ * F64.u)) ≤ 6 / 10 ^ 14 * ρ := by norm_num at hρu ⊢; linarith
  have fb : 480 * F64.u * ρ + 6 * (1.7321 * (44.1 * (F64.u * ρ) + 1.41 * ρ * F64.u)) ≤ 12 / 10 ^ 14 * ρ := by
    norm_num at hρu ⊢; linarith
  refine ⟨hz, he, z, e, a1, b1, ?_, ?_, ⟨a3.trans fa, a4.trans fa, a5.trans fa⟩, b3.trans fb, b4.trans fb, b5.trans fb⟩
  · have e1 : F64.Kalman.hillMeasurement lib (F64.spaceObservation lib o d re ae) =
        (F64.gcrfToHcw lib o.position o.velocity (F64.plus o.position d) o.velocity >>= fun h => pure h.1) := rfl
    rw [e1, a2]; rfl
  · have e1 : F64.Kalman.hillErrors lib (F64.spaceObservation lib o d re ae) =
        (F64.gcrfToHcw lib o.position o.velocity (F64.plus o.position (F64.minus (F64.toCartesian lib
          ⟨F64.rnd ((F64.fromCartesian lib d).radius + re), F64.rnd ((F64.fromCartesian lib d).right_ascension + ae),
            F64.rnd ((F64.fromCartesian lib d).declination + ae)⟩) d)) o.velocity >>= fun h => pure h.1) := rfl
    rw [e1, ← hcc', b2]; rfl

/-- the square of a number known to within `ε` -/
theorem F64.square_near {x y ε : ℝ} (h : |y - x| ≤ ε) :
    |F64.rnd (y * y) - x ^ 2| ≤ 2.1 * ε * |x| + 12 / 10 ^ 17 * x ^ 2 + 1.1 * ε ^ 2 := by
  have hu := F64.u_tiny
  have hu0 := F64.u_pos
  have hε : 0 ≤ ε := (abs_nonneg _).trans h
  have hx := abs_nonneg x
  have hy : |y| ≤ |x| + ε := by linarith [abs_sub_abs_le_abs_sub y x]
  have h1 : |y * y - x ^ 2| ≤ ε * (2 * |x| + ε) := by
    rw [show y * y - x ^ 2 = (y - x) * (y + x) by ring, abs_mul]
    have := abs_add_le y x
    gcongr
    linarith
  have h2 : |x ^ 2| + ε * (2 * |x| + ε) ≤ (|x| + ε) ^ 2 := by rw [abs_pow]; nlinarith
  refine (F64.rabs h1 h2).trans ?_
  have h3 : (|x| + ε) ^ 2 * F64.u ≤ (|x| + ε) ^ 2 * (12 / 10 ^ 17) := by gcongr
  have h4 : 0 ≤ ε * |x| := by positivity
  have h5 : 0 ≤ ε ^ 2 := by positivity
  rw [← sq_abs x]
  nlinarith

/-- One call of `process`: the filter's time becomes that of the observation, its measurement and measurement covariance are
those of the observation up to the errors of `C158_measurement`. -/
theorem C158_process {lib : F64.Libm} (hlib : Spec.Accurate lib) (hatan : Spec.Atan2Accurate lib)
    (hasin : Spec.AsinAccurate lib) (s s' : RelativeKalman) (o : GCRF) (d E : Vec3) (re ae ρ : ℝ)
    (h : F64.Kalman.process lib (F64.spaceObservation lib o d re ae) s = (.ok (), s')) (hρ : ρ = o.position.magnitude)
    (hp : o.position ≠ ⟨0, 0, 0⟩) (hv : o.velocity ≠ ⟨0, 0, 0⟩)
    (ho : ρ * o.velocity.magnitude ≤ 10 * (o.position.cross o.velocity).magnitude)
    (hE : E = (SphericalPosition.toCartesian ⟨(SphericalPosition.fromCartesian d).radius + re,
      (SphericalPosition.fromCartesian d).right_ascension + ae,
      (SphericalPosition.fromCartesian d).declination + ae⟩).minus d)
    (hre : 0 ≤ re) (hae : |ae| ≤ 1) (h1 : d.magnitude ≤ 4 / 10 * ρ) (h2 : E.magnitude ≤ 4 / 10 * ρ) :
    s'.epoch = o.epoch ∧ s'.range_error = re ∧ s'.angular_error = ae ∧ s'.propagator.n = s.propagator.n ∧
    ∃ hz he z R, gcrfToHcw o (GCRF.new o.epoch (o.position.plus d) o.velocity) = .ok hz ∧
      gcrfToHcw o (GCRF.new o.epoch (o.position.plus E) o.velocity) = .ok he ∧ s'.z = some z ∧ s'.r = some R ∧
      (|z.x - hz.position.x| ≤ 6 / 10 ^ 14 * ρ ∧ |z.y - hz.position.y| ≤ 6 / 10 ^ 14 * ρ ∧
        |z.z - hz.position.z| ≤ 6 / 10 ^ 14 * ρ) ∧
      ∃ v : Vec3, R = ⟨⟨v.x, 0, 0⟩, ⟨0, v.y, 0⟩, ⟨0, 0, v.z⟩⟩ ∧
        ∀ B : ℝ → ℝ, (∀ x, B x = 26 / 10 ^ 14 * ρ * |x| + 12 / 10 ^ 17 * x ^ 2 + 2 / 10 ^ 26 * ρ ^ 2) →
          |v.x - he.position.x ^ 2| ≤ B he.position.x ∧ |v.y - he.position.y ^ 2| ≤ B he.position.y ∧
          |v.z - he.position.z ^ 2| ≤ B he.position.z := by
  obtain ⟨hz, he, z, e, a1, a2, a3, a4, a5, b1, b2, b3⟩ :=
    C158_measurement hlib hatan hasin o d E re ae ρ hρ hp hv ho hE hre hae h1 h2
  obtain ⟨z', e', f, inv, c1, c2, -, p, k, x10, x00, -, -, -, -, -, rfl⟩ := F64.Kalman.process_ok h
  rw [a3, Except.ok.injEq] at c1
  rw [a4, Except.ok.injEq] at c2
  subst c1 c2
  have hρ0 : 0 ≤ ρ := by rw [hρ]; exact Vec3.magnitude_nonneg _
  refine ⟨rfl, rfl, rfl, rfl, hz, he, z, _, a1, a2, rfl, rfl, a5,
    ⟨F64.rnd (e.x * e.x), F64.rnd (e.y * e.y), F64.rnd (e.z * e.z)⟩, rfl, fun B hB => ?_⟩
  have key : ∀ x y : ℝ, |y - x| ≤ 12 / 10 ^ 14 * ρ → |F64.rnd (y * y) - x ^ 2| ≤ B x := fun x y hxy => by
    rw [hB]
    refine (F64.square_near hxy).trans ?_
    have i1 : 0 ≤ ρ * |x| := by positivity
    have i2 : 0 ≤ ρ ^ 2 := by positivity
    norm_num
    nlinarith
  exact ⟨key _ _ b1, key _ _ b2, key _ _ b3⟩

/-- The prediction in the same call: the estimate is carried forward by the elapsed time, to the precision of two roundings,
with the rounding error of `C129_step`. -/
theorem C158_prediction {lib : F64.Libm} (hlib : Spec.Accurate lib) (s s' : RelativeKalman) (ob : SpaceObservation)
    (h : F64.Kalman.process lib ob s = (.ok (), s')) {a : ℝ} (ha : 0 < a) (st : State) (p : Hill)
    (hp : Hill.new st a = .ok p) (hx : p.state.vector = s.x00) (hn : F64.hillRate a = .ok s.propagator.n) (L T : ℝ)
    (hT : T = 86400 * (ob.observer_state.epoch.value - s.epoch.value))
    (hr : |s.x00.x| ≤ L ∧ |s.x00.y| ≤ L ∧ |s.x00.z| ≤ L)
    (hv : |s.x00.vx| ≤ p.n * L ∧ |s.x00.vy| ≤ p.n * L ∧ |s.x00.vz| ≤ p.n * L) :
    ∃ t x q, |t - T| ≤ 2.3 / 10 ^ 16 * |T| ∧ s'.x10 = some x ∧ Hill.stepBySeconds t p = (.ok (), q) ∧
      ∀ e, e = 6 / 10 ^ 14 * (1 + p.n * |t|) * L →
        (|x.x - q.state.vector.x| ≤ e ∧ |x.y - q.state.vector.y| ≤ e ∧ |x.z - q.state.vector.z| ≤ e) ∧
        |x.vx - q.state.vector.vx| ≤ p.n * e ∧ |x.vy - q.state.vector.vy| ≤ p.n * e ∧
        |x.vz - q.state.vector.vz| ≤ p.n * e := by
  obtain ⟨z', e', f, inv, -, -, hf, p', k, x10, x00, -, -, -, hx10, -, rfl⟩ := F64.Kalman.process_ok h
  obtain ⟨t, ht⟩ : ∃ t, t = F64.rnd (F64.rnd (ob.observer_state.epoch.value - s.epoch.value) * SECONDS_IN_DAY) := ⟨_, rfl⟩
  obtain ⟨n', Y, q, g1, g2, g3, g4⟩ := C129_step hlib ha st L t p hp (by rw [hx]; exact hr) (by rw [hx]; exact hv)
  rw [hn, Except.ok.injEq] at g1
  rw [← ht] at hf
  rw [← g1, hx, F64.hillStep, hf, ok_bind, pure_eq_ok, Except.ok.injEq, ← hx10] at g2
  subst g2
  refine ⟨t, _, q, ?_, rfl, g3, g4⟩
  have hu : F64.u ≤ 1112 / 10 ^ 19 := by unfold F64.u; norm_num
  have e1 : F64.Near t (( ob.observer_state.epoch.value - s.epoch.value) * SECONDS_IN_DAY) (0 + 1.001 + 0 + 0.01 + 1.001) := by
    rw [ht]
    exact ((((F64.Near.refl (ob.observer_state.epoch.value - s.epoch.value)).round' (by norm_num) (by norm_num)).mul'
      (F64.Near.refl SECONDS_IN_DAY) (by norm_num) (by norm_num) (by norm_num) (by norm_num)).round' (by norm_num)
      (by norm_num)).mono (by norm_num)
  have e2 : (ob.observer_state.epoch.value - s.epoch.value) * SECONDS_IN_DAY = T := by
    rw [hT, SECONDS_IN_DAY]; ring
  rw [e2] at e1
  unfold F64.Near at e1
  refine e1.trans ?_
  gcongr
  norm_num at hu ⊢; linarith

/-- A first observation, of a satellite 10 km off a geosynchronous one, 1 km of range error and an angular error `ae`: the
call returns, and all three theorems apply to it. -/
example (ae : ℝ) (hae : |ae| ≤ 1) : ∃ p s s' hz z q x, Hill.new (State.new ⟨0⟩ ⟨0, -10, 0⟩ ⟨0, 0, 0⟩) 42164 = .ok p ∧
    F64.Kalman.process F64.rounded (F64.spaceObservation F64.rounded geoState ⟨0, 10, 0⟩ 1 ae) s = (.ok (), s') ∧
    gcrfToHcw geoState (GCRF.new ⟨59932⟩ ⟨42164, 10, 0⟩ ⟨0, 3.0747, 0⟩) = .ok hz ∧ s'.z = some z ∧
    |z.y - hz.position.y| ≤ 6 / 10 ^ 14 * 42164 ∧ Hill.stepBySeconds 0 p = (.ok (), q) ∧ s'.x10 = some x ∧
    |x.y - q.state.vector.y| ≤ 6 / 10 ^ 13 := by
  obtain ⟨p, hp, hn, h2, -, hs⟩ := hill_new_ok (State.new ⟨0⟩ ⟨0, -10, 0⟩ ⟨0, 0, 0⟩) (show (0:ℝ) < 42164 by norm_num)
  have hv : p.state.vector = ⟨0, -10, 0, 0, 0, 0⟩ := by
    rw [hs]; simp [State.copy, State.new, Vec6.fromPosVel]
  obtain ⟨n', g1, g2, -⟩ := F64.hillRate_near (show (0:ℝ) < 42164 by norm_num)
  obtain ⟨ra, hra⟩ : ∃ ra, ra = (F64.fromCartesian F64.rounded ⟨0, 10, 0⟩).right_ascension := ⟨_, rfl⟩
  obtain ⟨dec, hdec⟩ : ∃ ra, ra = (F64.fromCartesian F64.rounded ⟨0, 10, 0⟩).declination := ⟨_, rfl⟩
  have hob : F64.spaceObservation F64.rounded geoState ⟨0, 10, 0⟩ 1 ae = ⟨geoState, ⟨0, 10, 0⟩, 10, ra, dec, 1, ae⟩ := by
    have e1 : F64.rnd 100 = 100 := by have := F64.rnd_int 100 (by norm_num); exact_mod_cast this
    have e2 : F64.rnd 10 = 10 := by have := F64.rnd_int 10 (by norm_num); exact_mod_cast this
    have e3 : F64.magnitude ⟨0, 10, 0⟩ = 10 := by
      simp only [F64.magnitude, F64.dot, sqrtNN, mul_zero, F64.rnd_zero, zero_add, add_zero,
        show (10:ℝ) * 10 = 100 by norm_num, e1]
      rw [show (100:ℝ) = 10 ^ 2 by norm_num, Real.sqrt_sq (by norm_num), e2]
    have e4 : (F64.fromCartesian F64.rounded ⟨0, 10, 0⟩).radius = 10 := e3
    simp only [F64.spaceObservation, e4, hra, hdec]
    rfl
  obtain ⟨s, s', P, R, k1, k2, -⟩ := geo_observation { p with n := n' } g2.ne' ra dec ae
  rw [← hob] at k2
  have e1 : geoState.position.magnitude = 42164 :=
    Vec3.magnitude_of_dot (by norm_num) (by simp only [geoState, GCRF.new, State.new, Vec3.copy, Vec3.dot]; norm_num)
  have e2 : geoState.velocity.magnitude = 3.0747 :=
    Vec3.magnitude_of_dot (by norm_num) (by simp only [geoState, GCRF.new, State.new, Vec3.copy, Vec3.dot]; norm_num)
  have e3 : (geoState.position.cross geoState.velocity).magnitude = 42164 * 3.0747 :=
    Vec3.magnitude_of_dot (by norm_num) (by
      simp only [geoState, GCRF.new, State.new, Vec3.copy, Vec3.dot, Vec3.cross]; norm_num)
  have e4 : (⟨0, 10, 0⟩ : Vec3).magnitude = 10 := Vec3.magnitude_of_dot (by norm_num) (by simp only [Vec3.dot]; norm_num)
  have hE : ∀ c : SphericalPosition, c.radius = 11 → (c.toCartesian.minus ⟨0, 10, 0⟩).magnitude ≤ 4 / 10 * 42164 := by
    intro c hc
    have m : c.toCartesian.magnitude = 11 := by
      apply Vec3.magnitude_of_dot (by norm_num)
      simp only [SphericalPosition.toCartesian, Vec3.dot, Vec3.scaled, hc, pyCos, pySin]
      have i1 := Real.sin_sq_add_cos_sq c.right_ascension
      have i2 := Real.sin_sq_add_cos_sq c.declination
      linear_combination 121 * i2 + 121 * Real.cos c.declination ^ 2 * i1
    have h := F64.minus_triangle c.toCartesian ⟨0, 0, 0⟩ ⟨0, 10, 0⟩
    have h1 : (c.toCartesian.minus ⟨0, 0, 0⟩) = c.toCartesian := by ext <;> simp [Vec3.minus]
    have h2 : ((⟨0, 0, 0⟩ : Vec3).minus ⟨0, 10, 0⟩).magnitude = 10 :=
      Vec3.magnitude_of_dot (by norm_num) (by simp only [Vec3.minus, Vec3.dot]; norm_num)
    rw [h1, h2, m] at h
    linarith
  have hrad : (SphericalPosition.fromCartesian ⟨0, 10, 0⟩).radius + 1 = 11 := by
    have : (SphericalPosition.fromCartesian ⟨0, 10, 0⟩).radius = (⟨0, 10, 0⟩ : Vec3).magnitude := rfl
    rw [this, e4]; norm_num
  obtain ⟨-, -, -, -, hz, he, z, R', q1, -, q2, -, ⟨-, q3, -⟩, -⟩ := C158_process F64.rounded_accurate.1
    F64.rounded_accurate.2 F64.asin_rounded s s' geoState ⟨0, 10, 0⟩ _ 1 ae 42164 k2 e1.symm
    (Vec3.magnitude_pos.mp (by rw [e1]; norm_num)) (Vec3.magnitude_pos.mp (by rw [e2]; norm_num))
    (by rw [e2, e3]; norm_num) rfl (by norm_num) hae (by rw [e4]; norm_num) (hE _ hrad)
  have hs0 : s.x00 = p.state.vector ∧ s.propagator.n = n' ∧ s.epoch = geoState.epoch := by
    simp only [F64.Kalman.new] at k1
    rcases hm : F64.hillMatrix F64.rounded n' 0 with e | f
    · simp [hm] at k1
    · simp only [hm, ok_bind, pure_eq_ok, Except.ok.injEq] at k1
      rw [← k1]; exact ⟨rfl, rfl, rfl⟩
  have hn0 := hn.le
  obtain ⟨t, x, q, t1, t2, t3, t4⟩ := C158_prediction F64.rounded_accurate.1 s s' _ k2 (show (0:ℝ) < 42164 by norm_num) _ p
    hp hs0.1.symm (by rw [hs0.2.1]; exact g1) 10 0 (by rw [hs0.2.2]; show _ = 86400 * (geoState.epoch.value - _); ring)
    (by rw [hs0.1, hv]; norm_num)
    (by rw [hs0.1, hv]; simp only [abs_zero]; refine ⟨?_, ?_, ?_⟩ <;> positivity)
  have ht : t = 0 := by simpa using t1
  subst ht
  refine ⟨p, s, s', hz, z, q, x, hp, k2, ?_, q2, q3, t3, t2, (t4 _ rfl).1.2.1.trans (le_of_eq ?_)⟩
  · have hpp : geoState.position.plus ⟨0, 10, 0⟩ = ⟨42164, 10, 0⟩ := by
      ext <;> simp [geoState, GCRF.new, State.new, Vec3.copy, Vec3.plus]
    rw [hpp] at q1
    exact q1
  · rw [abs_zero, mul_zero]; norm_num

end Openspace
