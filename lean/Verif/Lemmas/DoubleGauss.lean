import Verif.Lemmas.DoubleRatio
import Verif.Lemmas.DoubleElementAngles
import Verif.Lemmas.DoubleBurn

/-!
# Size and shape of the orbit through two positions in double precision
-/

namespace Openspace

namespace F64

open Real Spec

/-! ## the plane -/

theorem dot_le (a b : Vec3) : |a.dot b| ≤ a.magnitude * b.magnitude := by
  have := abs_dot_le a b
  have h1 := abs_add_le (a.x * b.x + a.y * b.y) (a.z * b.z)
  have h2 := abs_add_le (a.x * b.x) (a.y * b.y)
  simp only [Vec3.dot]
  linarith

/-- the part of the second position across the first -/
theorem across_near {ra rb : Vec3} (ha : ra ≠ ⟨0, 0, 0⟩) (hb : 0 < rb.magnitude) {ea : Vec3}
    (hea : ea = ra.scaled (1 / ra.magnitude)) :
    ∃ ea', normalized ra = .ok ea' ∧ (ea'.minus ea).magnitude ≤ 6.3 * u ∧ |dot rb ea' - rb.dot ea| ≤ 9.5 * u * rb.magnitude ∧
      ((minus rb (scaled ea' (dot rb ea'))).minus (rb.minus (ea.scaled (rb.dot ea)))).magnitude ≤ 18.2 * u * rb.magnitude := by
  have hu := u_pos
  have hu' := u_tiny
  have us : u ≤ 0.00001 := hu'.trans (by norm_num)
  obtain ⟨ea', e1, n1⟩ := normalized_near ha
  rw [← hea] at n1
  have m1 : ea.magnitude = 1 := by rw [hea]; exact unit_magnitude ha
  have m2 := magnitude_le_of_minus ea' ea
  rw [m1] at m2
  have m3 : ea'.magnitude ≤ 1.001 := by linarith
  have m30 := Vec3.magnitude_nonneg ea'
  obtain ⟨B, hB⟩ : ∃ B, B = rb.magnitude := ⟨_, rfl⟩
  have uB : 0 < u * B := by rw [hB]; positivity
  have uB' : u * B ≤ 0.00001 * B := by rw [hB]; gcongr
  have d1 := dot_error rb ea'
  have d2 : |rb.dot ea' - rb.dot ea| ≤ B * (6.3 * u) := by
    rw [show rb.dot ea' - rb.dot ea = rb.dot (ea'.minus ea) by simp only [Vec3.dot, Vec3.minus]; ring]
    refine (dot_le _ _).trans ?_
    rw [← hB]; gcongr
    rw [hB]; exact hb.le
  have d3 : |dot rb ea' - rb.dot ea| ≤ 9.5 * u * B := by
    have t := abs_sub_le (dot rb ea') (rb.dot ea') (rb.dot ea)
    rw [← hB] at d1
    have : 3.1 * u * (B * ea'.magnitude) ≤ 3.1 * u * (B * 1.001) := by rw [hB]; gcongr
    linarith
  have d4 : |rb.dot ea| ≤ B := by
    have := dot_le rb ea
    rwa [m1, mul_one, ← hB] at this
  obtain ⟨q', hq'⟩ : ∃ q, q = dot rb ea' := ⟨_, rfl⟩
  obtain ⟨q, hq⟩ : ∃ q, q = rb.dot ea := ⟨_, rfl⟩
  rw [← hq', ← hq] at d3
  rw [← hq] at d4
  have d5 : |q'| ≤ 1.001 * B := by
    have := abs_sub_abs_le_abs_sub q' q
    linarith
  refine ⟨ea', e1, n1, by rw [← hq', ← hq, ← hB]; exact d3, ?_⟩
  rw [← hq', ← hq, ← hB]
  -- the projection
  have s1 := scaled_round (a := ea') (Near.refl q') le_rfl (by norm_num)
  have s2 : ((ea'.scaled q').minus (ea.scaled q)).magnitude ≤ 16 * u * B := by
    have e : (ea'.scaled q').minus (ea.scaled q) = ((ea'.minus ea).scaled q').plus (ea.scaled (q' - q)) := by
      ext <;> simp only [Vec3.scaled, Vec3.minus, Vec3.plus] <;> ring
    rw [e]
    refine (Vec3.magnitude_plus_le _ _).trans ?_
    rw [Vec3.magnitude_scaled_abs, Vec3.magnitude_scaled_abs, m1, mul_one]
    have : |q'| * (ea'.minus ea).magnitude ≤ 1.001 * B * (6.3 * u) := by
      have := Vec3.magnitude_nonneg (ea'.minus ea)
      gcongr
      linarith [abs_nonneg q]
    linarith
  have s3 : ((scaled ea' q').minus (ea.scaled q)).magnitude ≤ 17.1 * u * B := by
    have t := minus_triangle (scaled ea' q') (ea'.scaled q') (ea.scaled q)
    have : (0 + 1.01) * u * (|q'| * ea'.magnitude) ≤ (0 + 1.01) * u * (1.001 * B * 1.001) := by
      gcongr
      linarith [abs_nonneg q]
    linarith
  have t1 := minus_round rb (scaled ea' q')
  have e2 : (rb.minus (scaled ea' q')).minus (rb.minus (ea.scaled q)) = ((scaled ea' q').minus (ea.scaled q)).scaled (-1) := by
    ext <;> simp only [Vec3.scaled, Vec3.minus] <;> ring
  have t2 : ((rb.minus (scaled ea' q')).minus (rb.minus (ea.scaled q))).magnitude ≤ 17.1 * u * B := by
    rw [e2, Vec3.magnitude_scaled_abs, abs_neg, abs_one, one_mul]; exact s3
  have t3 : (rb.minus (ea.scaled q)).magnitude ≤ B := by
    refine (abs_le_of_sq_le_sq' ?_ (by rw [hB]; exact hb.le)).2
    have m1' : ea.dot ea = 1 := by rw [← Vec3.magnitude_sq_dot, m1]; norm_num
    rw [Vec3.magnitude_sq_dot, hB, Vec3.magnitude_sq_dot]
    have : (rb.minus (ea.scaled q)).dot (rb.minus (ea.scaled q)) = rb.dot rb - 2 * q * rb.dot ea + q ^ 2 * ea.dot ea := by
      simp only [Vec3.dot, Vec3.minus, Vec3.scaled]; ring
    rw [this, m1', ← hq]
    nlinarith [sq_nonneg q]
  have t4 := magnitude_le_of_minus (rb.minus (scaled ea' q')) (rb.minus (ea.scaled q))
  have t5 := minus_triangle (minus rb (scaled ea' q')) (rb.minus (scaled ea' q')) (rb.minus (ea.scaled q))
  have t6 : u * (rb.minus (scaled ea' q')).magnitude ≤ u * (1.001 * B) := by gcongr; linarith
  linarith

/-! ## the whole plane -/

theorem across_magnitude {ra rb ea : Vec3} {A B c s : ℝ} (hA : 0 < A) (hAe : ra.magnitude = A) (hBe : rb.magnitude = B) (hB : 0 < B)
    (hs : 0 < s) (hcs : s ^ 2 + c ^ 2 = 1) (hd : ra.dot rb = A * B * c) (hea : ea = ra.scaled (1 / ra.magnitude)) :
    rb.dot ea = B * c ∧ (rb.minus (ea.scaled (rb.dot ea))).magnitude = B * s := by
  have h1 : rb.dot ea = B * c := by
    have : rb.dot ea = ra.dot rb * (1 / A) := by rw [hea, hAe]; simp only [Vec3.dot, Vec3.scaled]; ring
    rw [this, hd]; field_simp
  refine ⟨h1, Vec3.magnitude_of_dot (by positivity) ?_⟩
  have m1 : ea.dot ea = 1 := by
    have : ea.dot ea = ra.dot ra * (1 / A) ^ 2 := by rw [hea, hAe]; simp only [Vec3.dot, Vec3.scaled]; ring
    rw [this, ← Vec3.magnitude_sq_dot, hAe]; field_simp
  have : (rb.minus (ea.scaled (rb.dot ea))).dot (rb.minus (ea.scaled (rb.dot ea)))
      = rb.dot rb - 2 * rb.dot ea * rb.dot ea + rb.dot ea ^ 2 * ea.dot ea := by
    simp only [Vec3.dot, Vec3.minus, Vec3.scaled]; ring
  rw [this, m1, h1, ← Vec3.magnitude_sq_dot, hBe]
  linear_combination -B ^ 2 * hcs

/-- the direction across the first position -/
theorem across_dir {r0 r0' e0' : Vec3} {B s : ℝ} (hB : 0 < B) (sp : 0 < s) (hs1 : s ≤ 1) (m1 : r0.magnitude = B * s)
    (r1 : (r0'.minus r0).magnitude ≤ 18.2 * u * B) (r0ne' : r0' ≠ ⟨0, 0, 0⟩) (r0ne : r0 ≠ ⟨0, 0, 0⟩)
    (n2 : (e0'.minus (r0'.scaled (1 / r0'.magnitude))).magnitude ≤ 6.3 * u) {e0 : Vec3} (he0 : e0 = r0.scaled (1 / r0.magnitude)) :
    (e0'.minus e0).magnitude ≤ 42.7 * u / s := by
  have hu := u_pos
  have Bs : 0 < B * s := by positivity
  have t := minus_triangle e0' (r0'.scaled (1 / r0'.magnitude)) e0
  have t2 := direction_near r0' r0 r0ne' r0ne
  rw [← he0, m1] at t2
  have t3 : 2 * (r0'.minus r0).magnitude / (B * s) ≤ 36.4 * u / s := by
    rw [div_le_div_iff₀ Bs sp]
    nlinarith
  have t4 : 6.3 * u ≤ 6.3 * u / s := by rw [le_div_iff₀ sp]; nlinarith
  have : 36.4 * u / s + 6.3 * u / s = 42.7 * u / s := by ring
  linarith

/-- the normal of the plane -/
theorem plane_normal {ea ea' e0 e0' w : Vec3} {s : ℝ} (hs : 0.01 ≤ s) (hs1 : s ≤ 1) (ua : ea.magnitude = 1) (u0 : e0.magnitude = 1)
    (n1 : (ea'.minus ea).magnitude ≤ 6.3 * u) (n3 : (e0'.minus e0).magnitude ≤ 42.7 * u / s) (x1 : ea.cross e0 = w) :
    ((cross ea' e0').minus w).magnitude ≤ 53 * u / s := by
  have hu := u_pos
  have hu' := u_tiny
  have us : u ≤ 0.0000001 := hu'.trans (by norm_num)
  have sp : 0 < s := by norm_num at hs; linarith
  have us0 : 42.7 * u / s ≤ 0.001 := by
    rw [div_le_iff₀ sp]; norm_num at hs ⊢; linarith
  have b1 := magnitude_le_of_minus ea' ea
  have b2 := magnitude_le_of_minus e0' e0
  rw [ua] at b1
  rw [u0] at b2
  have b3 : ea'.magnitude ≤ 1.001 := by linarith
  have b4 : e0'.magnitude ≤ 1.001 := by linarith
  have p1 := Vec3.magnitude_nonneg ea'
  have p2 := Vec3.magnitude_nonneg e0'
  have p3 := Vec3.magnitude_nonneg (ea'.minus ea)
  have c1 := cross_near ea' e0'
  have c2 : 3 * u * (ea'.magnitude * e0'.magnitude) ≤ 3 * u * (1.001 * 1.001) := by gcongr
  have c3 : ((ea'.cross e0').minus (ea.cross e0)).magnitude ≤ 6.4 * u + 42.7 * u / s := by
    have e : (ea'.cross e0').minus (ea.cross e0) = ((ea'.minus ea).cross e0').plus (ea.cross (e0'.minus e0)) := by
      ext <;> simp only [Vec3.cross, Vec3.minus, Vec3.plus] <;> ring
    rw [e]
    refine (Vec3.magnitude_plus_le _ _).trans ?_
    have h1 := cross_magnitude_le (ea'.minus ea) e0'
    have h2 := cross_magnitude_le ea (e0'.minus e0)
    rw [ua, one_mul] at h2
    have : (ea'.minus ea).magnitude * e0'.magnitude ≤ 6.3 * u * 1.001 := by gcongr
    linarith
  have t := minus_triangle (cross ea' e0') (ea'.cross e0') (ea.cross e0)
  rw [x1] at t c3
  have t4 : 10 * u ≤ 10 * u / s := by rw [le_div_iff₀ sp]; nlinarith
  have : 10 * u / s + 42.7 * u / s ≤ 53 * u / s := by
    rw [← add_div]; gcongr; linarith
  linarith

/-- the length of the part across the first position -/
theorem across_length {r0' : Vec3} {B s : ℝ} (hB : 0 < B) (sp : 0 < s) (hs1 : s ≤ 1) (r3 : |r0'.magnitude - B * s| ≤ 18.2 * u * B)
    (uBs : 18.2 * u * B ≤ 0.001 * (B * s)) : Near (magnitude r0') (B * s) (22.8 / s) := by
  have hu := u_pos
  have Bs : 0 < B * s := by positivity
  obtain ⟨r4, r5⟩ := _root_.abs_le.mp r3
  have r6 := magnitude_near r0'
  unfold Near at r6
  rw [abs_of_nonneg (Vec3.magnitude_nonneg r0')] at r6
  unfold Near
  rw [abs_of_pos Bs, show 22.8 / s * u * (B * s) = 22.8 * u * B by field_simp]
  have t := abs_sub_le (magnitude r0') r0'.magnitude (B * s)
  have : 4.2 * u * r0'.magnitude ≤ 4.2 * u * (1.001 * B) := by
    have : B * s ≤ B * 1 := by gcongr
    gcongr
    linarith
  have : 0 < u * B := by positivity
  linarith

/-- the quantities computed from the two positions alone -/
theorem plane_near {lib : Libm} {ra rb : Vec3} {A B c s : ℝ} (hA : 0 < A) (hAe : ra.magnitude = A) (hBe : rb.magnitude = B)
    (hB : 0 < B) (hs : 0.01 ≤ s) (hs1 : s ≤ 1) (hcs : s ^ 2 + c ^ 2 = 1) (hd : ra.dot rb = A * B * c) {w : Vec3}
    (hw : ra.cross rb = w.scaled (A * B * s)) :
    ∃ pl, gaussPlane lib ra rb = .ok pl ∧ pl.ra_mag = magnitude ra ∧ pl.rb_mag = magnitude rb ∧ Near pl.r0_mag (B * s) (22.8 / s) ∧
      |dot rb pl.ea - B * c| ≤ 9.5 * u * B ∧ (pl.w.minus w).magnitude ≤ 53 * u / s ∧
      pl.ua = lib.atan2 ra.z (rnd (rnd (-ra.x * pl.w.y) + rnd (ra.y * pl.w.x))) ∧
      pl.inc = wrapNeg (lib.atan2 (rnd (sqrtNN (rnd (rnd (pl.w.x * pl.w.x) + rnd (pl.w.y * pl.w.y))))) pl.w.z) ∧
      pl.raan = wrapNeg (lib.atan2 pl.w.x (-pl.w.y)) := by
  have hu := u_pos
  have hu' := u_tiny
  have us : u ≤ 0.0000001 := hu'.trans (by norm_num)
  have sp : 0 < s := by norm_num at hs; linarith
  have hra : ra ≠ ⟨0, 0, 0⟩ := Vec3.magnitude_pos.mp (hAe ▸ hA)
  obtain ⟨ea, hea⟩ : ∃ ea, ea = ra.scaled (1 / ra.magnitude) := ⟨_, rfl⟩
  obtain ⟨ea', e1, n1, d1, r1⟩ := across_near hra (hBe ▸ hB) hea
  obtain ⟨q1, m1⟩ := across_magnitude hA hAe hBe hB sp hcs hd hea
  obtain ⟨r0', hr0'⟩ : ∃ r, r = minus rb (scaled ea' (dot rb ea')) := ⟨_, rfl⟩
  obtain ⟨r0, hr0⟩ : ∃ r, r = rb.minus (ea.scaled (rb.dot ea)) := ⟨_, rfl⟩
  rw [← hr0', ← hr0, hBe] at r1
  rw [← hr0] at m1
  rw [q1, hBe] at d1
  have uBs : 18.2 * u * B ≤ 0.001 * (B * s) := by
    have : 18.2 * u ≤ 0.001 * s := by norm_num at hs ⊢; linarith
    nlinarith
  have r2 := magnitude_sub_le r0' r0
  rw [m1] at r2
  have r3 := r2.trans r1
  obtain ⟨r4, r5⟩ := _root_.abs_le.mp r3
  have Bs : 0 < B * s := by positivity
  have r0ne' : r0' ≠ ⟨0, 0, 0⟩ := Vec3.magnitude_pos.mp (by linarith)
  have r0ne : r0 ≠ ⟨0, 0, 0⟩ := Vec3.magnitude_pos.mp (by linarith)
  obtain ⟨e0', e2, n2⟩ := normalized_near r0ne'
  have r7 := across_length hB sp hs1 r3 uBs
  have hpl : gaussPlane lib ra rb = .ok ⟨magnitude ra, magnitude rb, ea', magnitude r0', cross ea' e0',
      lib.atan2 ra.z (rnd (rnd (-ra.x * (cross ea' e0').y) + rnd (ra.y * (cross ea' e0').x))),
      wrapNeg (lib.atan2 (rnd (sqrtNN (rnd (rnd ((cross ea' e0').x * (cross ea' e0').x) + rnd ((cross ea' e0').y * (cross ea' e0').y)))))
        (cross ea' e0').z), wrapNeg (lib.atan2 (cross ea' e0').x (-(cross ea' e0').y))⟩ := by
    simp only [gaussPlane, e1, ok_bind, ← hr0', e2, pure_eq_ok]
  refine ⟨_, hpl, rfl, rfl, r7, d1, ?_, rfl, rfl, rfl⟩
  -- the normal
  obtain ⟨e0, he0⟩ : ∃ e, e = r0.scaled (1 / r0.magnitude) := ⟨_, rfl⟩
  have n3 := across_dir hB sp hs1 m1 r1 r0ne' r0ne n2 he0
  refine plane_normal hs hs1 (by rw [hea]; exact unit_magnitude hra) (by rw [he0]; exact unit_magnitude r0ne) n1 n3 ?_
  have : ea.cross e0 = (ra.cross rb).scaled (1 / A * (1 / (B * s))) := by
    rw [he0, m1, hr0, hea, hAe]
    ext <;> simp only [Vec3.cross, Vec3.scaled, Vec3.minus] <;> ring
  rw [this, hw]
  have e : A * B * s * (1 / A * (1 / (B * s))) = 1 := by field_simp
  ext <;> simp only [Vec3.scaled]
  · linear_combination w.x * e
  · linear_combination w.y * e
  · linear_combination w.z * e

/-! ## shape -/

/-- rounding the quotient -/
theorem shape_round {w N e η γ x : ℝ} (γ0 : 0 < γ) (hγ : 1e-4 ≤ γ) (hx : γ ≤ |x|) (hxe : |x| ≤ e) (he : e ≤ 0.9) (Np : 0 < N)
    (N1 : N ≤ 0.9001) (dN : |N - e| ≤ η) (e2 : |w - N| ≤ 12.4 * u * (1 / γ)) : |rnd w - e| ≤ η + 1.5e-15 / γ := by
  have hu := u_pos
  have hu' := u_tiny
  have us : u ≤ 1e-12 := hu'.trans (by norm_num)
  obtain ⟨g, hg⟩ : ∃ g, g = 1 / γ := ⟨_, rfl⟩
  have g1 : 1 ≤ g := by
    rw [hg, le_div_iff₀ γ0]
    linarith
  have g2 : u * g ≤ 1e-8 := by
    have : g ≤ 10 ^ 4 := by rw [hg, div_le_iff₀ γ0]; norm_num at hγ ⊢; linarith
    calc u * g ≤ 1e-12 * 10 ^ 4 := by gcongr
      _ = _ := by norm_num
  rw [← hg] at e2
  have e3 := rabs e2 (M := 0.91) (by rw [abs_of_pos Np]; norm_num at g2 N1 ⊢; linarith)
  have e4 := abs_sub_le (rnd (w)) N e
  have e5 : 13.4 * u * g ≤ 1.5e-15 / γ := by
    rw [div_eq_mul_one_div, ← hg]
    have g0 : 0 ≤ g := by linarith
    have : 13.4 * u ≤ 1.5e-15 := by
      unfold u; norm_num
    gcongr
  have : 0.91 * u ≤ 0.91 * (u * g) := by nlinarith
  linarith

/-- the eccentricity from its components -/
theorem shape_core {lib : Libm} (hlib : Accurate lib) (hatan : Atan2Accurate lib) {x z x' z' e η γ : ℝ}
    (hxz : x * x + z * z = e * e) (he0 : 0 ≤ e) (he : e ≤ 0.9) (hγ : 1e-4 ≤ γ) (hx : γ ≤ |x|) (hη0 : 0 ≤ η) (hη : η ≤ 2e-9)
    (h : (x' - x) ^ 2 + (z' - z) ^ 2 ≤ η ^ 2) :
    ∃ e', div x' (lib.cos (wrapNeg (lib.atan2 z' x'))) = .ok e' ∧ |e' - e| ≤ η + 1.5e-15 / γ := by
  have hu := u_pos
  have hu' := u_tiny
  have us : u ≤ 1e-12 := hu'.trans (by norm_num)
  have γ0 : 0 < γ := lt_of_lt_of_le (by norm_num) hγ
  obtain ⟨N, hN⟩ : ∃ N, N = √(x' * x' + z' * z') := ⟨_, rfl⟩
  have N2 : x' * x' + z' * z' = N * N := by
    rw [hN, mul_self_sqrt (add_nonneg (mul_self_nonneg _) (mul_self_nonneg _))]
  have N0 : 0 ≤ N := by rw [hN]; exact sqrt_nonneg _
  have hx' : |x' - x| ≤ η := abs_le_of_sq_le_sq (by nlinarith [sq_nonneg (z' - z)]) hη0
  have x1 : 0.9999 * γ ≤ |x'| := by
    have := abs_sub_abs_le_abs_sub x x'
    rw [abs_sub_comm] at this
    have : (2e-9 : ℝ) ≤ 0.0001 * 1e-4 := by norm_num
    linarith
  have x0 : 0 < |x'| := by linarith
  have xN : |x'| ≤ N := by
    refine abs_le_of_sq_le_sq ?_ N0
    nlinarith [mul_self_nonneg z']
  have Np : 0 < N := by linarith
  have dN : |N - e| ≤ η := by
    refine abs_le_of_sq_le_sq ?_ hη0
    have cs : x * x' + z * z' ≤ e * N := by
      refine (abs_le_of_sq_le_sq' ?_ (by positivity)).2
      nlinarith [sq_nonneg (x * z' - z * x')]
    nlinarith
  have N1 : N ≤ 0.9001 := by
    have := (_root_.abs_le.mp dN).2
    norm_num at hη he ⊢; linarith
  -- the anomaly
  have hc := mul_cos_atan2 z' x'
  rw [← hN] at hc
  obtain ⟨k, hk⟩ := atan2_wrapped hatan (x := x') (y := z') (x' := x') (y' := z') (d := 0) Np N2 le_rfl (by norm_num) (by positivity)
  obtain ⟨t, ht⟩ : ∃ t, t = wrapNeg (lib.atan2 z' x') := ⟨_, rfl⟩
  obtain ⟨v, hv⟩ : ∃ v, v = pyAtan2 z' x' := ⟨_, rfl⟩
  rw [← ht, ← hv] at hk
  rw [← hv] at hc
  rw [← ht]
  have c1 : |cos t - cos v| ≤ 13 * u := by
    have e : cos v = cos (v + 2 * π * k) := by rw [mul_comm (2 * π) (k : ℝ)]; exact (cos_add_int_mul_two_pi v k).symm
    rw [e]
    have := cos_lipschitz t (v + 2 * π * k)
    norm_num at hk
    linarith
  have c2 := hlib.cos t
  rw [show (1 : ℝ) / 2 ^ 52 = 2 * u by unfold u; norm_num] at c2
  obtain ⟨c, hcc⟩ : ∃ c, c = lib.cos t := ⟨_, rfl⟩
  rw [← hcc] at c2 ⊢
  have c3 : |c - cos v| ≤ 15 * u := by
    have := abs_sub_le c (cos t) (cos v)
    linarith
  have c4 : 1.11 * γ ≤ |cos v| := by
    have : |x'| = N * |cos v| := by rw [← hc, abs_mul, abs_of_pos Np]
    have : N * |cos v| ≤ 0.9001 * |cos v| := by gcongr
    linarith
  have c5 : 1.1 * γ ≤ |c| := by
    have := abs_sub_abs_le_abs_sub (cos v) c
    rw [abs_sub_comm] at this
    have : 15 * u ≤ 0.01 * 1e-4 := by norm_num at us ⊢; linarith
    linarith
  have c0 : 0 < |c| := by linarith
  have cne : c ≠ 0 := abs_pos.mp c0
  refine ⟨_, div_ok cne, ?_⟩
  have e1 : x' / c - N = -(N * (c - cos v)) / c := by
    rw [← hc]; field_simp; ring
  have e2 : |x' / c - N| ≤ 12.4 * u * (1 / γ) := by
    rw [e1, abs_div, abs_neg, abs_mul, abs_of_pos Np, div_le_iff₀ c0]
    calc N * |c - cos v| ≤ 0.9001 * (15 * u) := by gcongr
      _ ≤ 12.4 * u * (1 / γ) * (1.1 * γ) := by
        rw [show 12.4 * u * (1 / γ) * (1.1 * γ) = 12.4 * 1.1 * u by field_simp]
        linarith
      _ ≤ _ := by gcongr
  refine shape_round γ0 hγ hx ?_ he Np N1 dN e2
  refine abs_le_of_sq_le_sq ?_ he0
  nlinarith [mul_self_nonneg z]

/-- `p / r - 1` -/
theorem ecos_near {p p' A A' K : ℝ} (hp : Near p' p K) (hK0 : 0 ≤ K) (hK : K ≤ 40000) (hA : Near A' A 4.2) (hA0 : 0 < A) (hp0 : 0 < p)
    (h : p / A ≤ 1.9) : ∃ q, div p' A' = .ok q ∧ |rnd (q - 1) - (p / A - 1)| ≤ 1.9 * (K + 7) * u := by
  have hu := u_pos
  have hu' := u_tiny
  have us : u ≤ 1e-12 := hu'.trans (by norm_num)
  obtain ⟨q, e, -, n⟩ := hp.divr hA hA0.ne' hK0 (by norm_num) (by linarith) (by norm_num)
  refine ⟨q, e, ?_⟩
  unfold Near at n
  have h0 : 0 < p / A := by positivity
  rw [abs_of_pos h0] at n
  have n2 : |q - 1 - (p / A - 1)| ≤ (K + 5.3) * u * 1.9 := by
    rw [show q - 1 - (p / A - 1) = q - p / A by ring]
    refine n.trans ?_
    have : (K + 4.2 + 1.003) * u * (p / A) ≤ (K + 4.2 + 1.003) * u * 1.9 := by gcongr
    have : (K + 4.2 + 1.003) * u * 1.9 ≤ (K + 5.3) * u * 1.9 := by gcongr ?_ * u * 1.9; linarith
    linarith
  have Ku : (K + 5.3) * u * 1.9 ≤ 0.001 := by
    calc (K + 5.3) * u * 1.9 ≤ (40000 + 5.3) * 1e-12 * 1.9 := by gcongr
      _ ≤ 0.001 := by norm_num
  have n3 := rabs n2 (M := 1.1) (by
    have : |p / A - 1| ≤ 1 := by rw [_root_.abs_le]; constructor <;> linarith
    linarith)
  linarith

/-- the other component of the eccentricity -/
theorem esin_near {x y c s x' y' c' s' z ε : ℝ} (hx : |x' - x| ≤ ε) (hy : |y' - y| ≤ ε) (hc : |c' - c| ≤ 15.5 * u) (hs : |s' - s| ≤ 28.2 * u)
    (hx1 : |x| ≤ 0.9) (hy1 : |y| ≤ 0.9) (hc1 : |c| ≤ 1) (hs0 : 0.01 ≤ s) (hs1 : s ≤ 1) (hz : z = (x * c - y) / s) (hz1 : |z| ≤ 0.9)
    (hε0 : 60000 * u ≤ ε) (hε : ε ≤ 1e-11) :
    ∃ z', div (rnd (rnd (x' * c') - y')) s' = .ok z' ∧ |z' - z| ≤ 2.01 * (ε / s) := by
  have hu := u_pos
  have hu' := u_tiny
  have us : u ≤ 1e-12 := hu'.trans (by norm_num)
  have sp : 0 < s := by norm_num at hs0; linarith
  have ε0 : 0 < ε := lt_of_lt_of_le (by positivity) hε0
  have x2 : |x'| ≤ 0.91 := by
    have := abs_sub_abs_le_abs_sub x' x
    norm_num at hε hx1 ⊢; linarith
  have p1 : |x' * c' - x * c| ≤ ε + 14.2 * u := by
    rw [show x' * c' - x * c = x' * (c' - c) + (x' - x) * c by ring]
    refine (abs_add_le _ _).trans ?_
    rw [abs_mul, abs_mul]
    have a1 : |x'| * |c' - c| ≤ 0.91 * (15.5 * u) := by gcongr
    have a2 : |x' - x| * |c| ≤ ε * 1 := by gcongr
    linarith
  have p2 := rabs p1 (M := 1) (by
    have : |x * c| ≤ 0.9 * 1 := by rw [abs_mul]; gcongr
    norm_num at hε us this ⊢; linarith)
  have p3 : |rnd (x' * c') - y' - (x * c - y)| ≤ 2 * ε + 15.2 * u := by
    rw [show rnd (x' * c') - y' - (x * c - y) = (rnd (x' * c') - x * c) - (y' - y) by ring]
    refine (abs_sub _ _).trans ?_
    linarith
  have num : x * c - y = z * s := by rw [hz]; field_simp
  have p4 := rabs p3 (M := 1) (by
    rw [num, abs_mul, abs_of_pos sp]
    have : |z| * s ≤ 0.9 * 1 := by gcongr
    norm_num at hε us this ⊢; linarith)
  obtain ⟨w', hw'⟩ : ∃ w, w = rnd (rnd (x' * c') - y') := ⟨_, rfl⟩
  rw [← hw'] at p4 ⊢
  rw [num] at p4
  have s2 : 0.9999 * s ≤ s' := by
    have := (_root_.abs_le.mp hs).1
    norm_num at us hs0 ⊢; linarith
  have sp' : 0 < s' := by linarith
  refine ⟨_, div_ok sp'.ne', ?_⟩
  have q1 : |w' / s' - z| ≤ 2.001 * (ε / s) := by
    have e : w' / s' - z = ((w' - z * s) - z * (s' - s)) / s' := by field_simp; ring
    rw [e, abs_div, abs_of_pos sp', div_le_iff₀ sp']
    refine (abs_sub _ _).trans ?_
    rw [abs_mul]
    have a1 : |z| * |s' - s| ≤ 0.9 * (28.2 * u) := by gcongr
    calc |w' - z * s| + |z| * |s' - s| ≤ 2.001 * 0.9999 * ε := by linarith
      _ = 2.001 * (ε / s) * (0.9999 * s) := by field_simp
      _ ≤ _ := by gcongr
  have es : ε ≤ ε / s := by rw [le_div_iff₀ sp]; nlinarith
  have es2 : ε / s ≤ 0.001 := by
    rw [div_le_iff₀ sp]; norm_num at hε hs0 ⊢; linarith
  have q2 := rabs q1 (M := 1) (by linarith)
  linarith

/-- the semi-major axis -/
theorem axis_core {p p' e e' ζ : ℝ} (hp : Near p' p 36200) (hp0 : 0 < p) (he0 : 0 ≤ e) (he : e ≤ 0.9) (h : |e' - e| ≤ ζ) (hζ0 : 1.7e-11 ≤ ζ)
    (hζ : ζ ≤ 3e-9) : 0 ≤ rnd (1 - rnd (e' * e')) ∧
      ∃ a', div p' (rnd (1 - rnd (e' * e'))) = .ok a' ∧ |a' - p / (1 - e * e)| ≤ 10 * ζ * (p / (1 - e * e)) := by
  have hu := u_pos
  have hu' := u_tiny
  have u1 : 36200 * u ≤ 0.25 * ζ := by
    calc 36200 * u ≤ 0.25 * 1.7e-11 := by unfold u; norm_num
      _ ≤ _ := by gcongr
  have u2 : u ≤ 0.0001 * ζ := by linarith
  have e1 : |e' * e' - e * e| ≤ 1.801 * ζ := by
    rw [show e' * e' - e * e = (e' - e) * (e' - e) + 2 * e * (e' - e) by ring]
    refine (abs_add_le _ _).trans ?_
    rw [abs_mul, abs_mul, abs_of_nonneg (show 0 ≤ 2 * e by positivity)]
    have a1 : |e' - e| * |e' - e| ≤ 3e-9 * ζ := by
      have := h.trans hζ
      gcongr
    have a2 : 2 * e * |e' - e| ≤ 2 * 0.9 * ζ := by gcongr
    norm_num at a1 a2 ⊢; linarith
  have ζ1 : ζ ≤ 0.00001 := hζ.trans (by norm_num)
  have ee0 : 0 ≤ e * e := mul_self_nonneg e
  have ee1 : e * e ≤ 0.81 := by nlinarith
  have e2 := rabs e1 (M := 1) (by rw [abs_of_nonneg ee0]; linarith)
  have e3 : |1 - rnd (e' * e') - (1 - e * e)| ≤ 1.8012 * ζ := by
    rw [show 1 - rnd (e' * e') - (1 - e * e) = -(rnd (e' * e') - e * e) by ring, abs_neg]
    linarith
  have e4 := rabs e3 (M := 1.1) (by rw [abs_of_nonneg (by linarith)]; linarith)
  obtain ⟨q', hq'⟩ : ∃ q, q = rnd (1 - rnd (e' * e')) := ⟨_, rfl⟩
  obtain ⟨q, hq⟩ : ∃ q, q = 1 - e * e := ⟨_, rfl⟩
  rw [← hq', ← hq] at e4
  rw [← hq', ← hq]
  have q0 : 0.19 ≤ q := by rw [hq]; linarith
  have q1 : |q' - q| ≤ 9.49 * ζ * q := by
    have : 9.49 * ζ * 0.19 ≤ 9.49 * ζ * q := by gcongr
    linarith
  have q2 : 0.999 * q ≤ q' := by
    have := (_root_.abs_le.mp q1).1
    have : ζ * q ≤ 0.00001 * q := by gcongr
    linarith
  have qp : 0 < q := by linarith
  have qp' : 0 < q' := by linarith
  refine ⟨qp'.le, _, div_ok qp'.ne', ?_⟩
  obtain ⟨a, ha⟩ : ∃ a, a = p / q := ⟨_, rfl⟩
  have a0 : 0 < a := by rw [ha]; positivity
  have pa : p = a * q := by rw [ha]; field_simp
  rw [← ha]
  unfold Near at hp
  rw [abs_of_pos hp0] at hp
  have r1 : |p' / q' - a| ≤ 9.8 * ζ * a := by
    have e : p' / q' - a = ((p' - p) - a * (q' - q)) / q' := by rw [pa]; field_simp; ring
    rw [e, abs_div, abs_of_pos qp', div_le_iff₀ qp']
    refine (abs_sub _ _).trans ?_
    rw [abs_mul, abs_of_pos a0]
    have b1 : 36200 * u * p ≤ 0.25 * ζ * p := by gcongr
    have b2 : a * |q' - q| ≤ a * (9.49 * ζ * q) := by gcongr
    have ζ0 : 0 < ζ := lt_of_lt_of_le (by norm_num) hζ0
    calc |p' - p| + a * |q' - q| ≤ 0.25 * ζ * (a * q) + a * (9.49 * ζ * q) := by rw [← pa]; linarith
      _ = 9.74 * ζ * a * q := by ring
      _ ≤ 9.8 * ζ * a * (0.999 * q) := by
        have : 0 < ζ * a * q := by positivity
        linarith
      _ ≤ _ := by gcongr
  have r2 := rabs r1 (M := 1.1 * a) (by
    rw [abs_of_pos a0]
    have : ζ * a ≤ 0.00001 * a := by gcongr
    linarith)
  have : u * a ≤ 0.0001 * ζ * a := by gcongr
  have : 0 < ζ * a := by
    have ζ0 : 0 < ζ := lt_of_lt_of_le (by norm_num) hζ0
    positivity
  linarith

/-- the semi-latus rectum -/
theorem gauss_parameter {A' A R' R n' r tau τ s : ℝ} (hA : Near A' A 4.2) (hR : Near R' R (22.8 / s)) (hs : 0.01 ≤ s)
    (hn : Near n' r 15800) (ht : Near tau τ 5.1) (hτ : 0 < τ) :
    ∃ b, div (rnd (rnd (A' * R') * n')) tau = .ok b ∧ Near (rnd (b * b)) ((A * R * r / τ) * (A * R * r / τ)) 36200 := by
  have sp : 0 < s := by norm_num at hs; linarith
  have h1 : 22.8 / s ≤ 2280 := by
    rw [div_le_iff₀ sp]; norm_num at hs ⊢; linarith
  have m1 := hA.mulr (hR.mono h1) (by norm_num) (by norm_num) (by norm_num) (by norm_num)
  have m2 := m1.mulr hn (by norm_num) (by norm_num) (by norm_num) (by norm_num)
  obtain ⟨b, eb, -, nb⟩ := m2.divr ht hτ.ne' (by norm_num) (by norm_num) (by norm_num) (by norm_num)
  exact ⟨b, eb, (nb.mulr nb (by norm_num) (by norm_num) (by norm_num) (by norm_num)).mono (by norm_num)⟩

/-- cosine of the angle between the positions -/
theorem cosd_near {q' B B' c : ℝ} (hq : |q' - B * c| ≤ 9.5 * u * B) (hB : 0 < B) (hB' : Near B' B 4.2) (hc : |c| ≤ 1) :
    ∃ c', div q' B' = .ok c' ∧ |c' - c| ≤ 15.5 * u := by
  have hu := u_pos
  have hu' := u_tiny
  have us : u ≤ 0.0000001 := hu'.trans (by norm_num)
  unfold Near at hB'
  rw [abs_of_pos hB] at hB'
  obtain ⟨b1, -⟩ := _root_.abs_le.mp hB'
  have uB : u * B ≤ 0.0000001 * B := by gcongr
  have b2 : 0.999 * B ≤ B' := by linarith
  have Bp : 0 < B' := by linarith
  refine ⟨_, div_ok Bp.ne', ?_⟩
  have h1 : |q' / B' - c| ≤ 13.8 * u := by
    have e : q' / B' - c = ((q' - B * c) - c * (B' - B)) / B' := by field_simp; ring
    rw [e, abs_div, abs_of_pos Bp, div_le_iff₀ Bp]
    refine (abs_sub _ _).trans ?_
    rw [abs_mul]
    have : |c| * |B' - B| ≤ 1 * (4.2 * u * B) := by gcongr
    have : 13.8 * u * (0.999 * B) ≤ 13.8 * u * B' := by gcongr
    have : 0 < u * B := by positivity
    linarith
  have h2 := rabs h1 (M := 1.1) (by linarith)
  linarith

/-- sine of the angle between the positions -/
theorem sind_near {R' B B' s : ℝ} (hR : Near R' (B * s) (22.8 / s)) (hB : 0 < B) (hB' : Near B' B 4.2) (hs : 0.01 ≤ s) (hs1 : s ≤ 1) :
    ∃ s', div R' B' = .ok s' ∧ |s' - s| ≤ 28.2 * u := by
  have hu := u_pos
  have sp : 0 < s := by norm_num at hs; linarith
  have h1 : 22.8 / s ≤ 2280 := by
    rw [div_le_iff₀ sp]; norm_num at hs ⊢; linarith
  obtain ⟨z, ez, -, nz⟩ := hR.divr hB' hB.ne' (by positivity) (by norm_num) (by linarith) (by norm_num)
  refine ⟨z, ez, ?_⟩
  unfold Near at nz
  rw [mul_div_cancel_left₀ _ hB.ne', abs_of_pos sp] at nz
  refine nz.trans ?_
  have : (22.8 / s + 4.2 + 1.003) * u * s = 22.8 * u + 5.203 * u * s := by field_simp; ring
  rw [this]
  nlinarith

/-- size of the errors of the two components of the eccentricity together -/
theorem eta_le {ε s dx dz : ℝ} (hε : ε = 1.9 * (36200 + 7) * u) (sp : 0 < s) (hs1 : s ≤ 1) (hx : |dx| ≤ ε) (hz : |dz| ≤ 2.01 * (ε / s)) :
    dx ^ 2 + dz ^ 2 ≤ (1.72e-11 / s) ^ 2 := by
  have hu := u_pos
  have ε0 : 0 < ε := by rw [hε]; positivity
  have h1 : ε / s ≤ 7.64e-12 / s := by
    gcongr
    rw [hε]; unfold u; norm_num
  have h2 : ε ≤ ε / s := by rw [le_div_iff₀ sp]; nlinarith
  have h3 : dx ^ 2 ≤ (7.64e-12 / s) ^ 2 := by
    rw [← sq_abs dx]
    have := abs_nonneg dx
    gcongr
    linarith
  have h4 : dz ^ 2 ≤ (2.01 * (7.64e-12 / s)) ^ 2 := by
    rw [← sq_abs dz]
    have := abs_nonneg dz
    gcongr
    linarith
  have h5 : (1.72e-11 / s) ^ 2 = (1.72e-11) ^ 2 * (1 / s) ^ 2 := by ring
  have h6 : (7.64e-12 / s) ^ 2 = (7.64e-12) ^ 2 * (1 / s) ^ 2 := by ring
  have h7 : (2.01 * (7.64e-12 / s)) ^ 2 = (2.01 * 7.64e-12) ^ 2 * (1 / s) ^ 2 := by ring
  rw [h5]
  rw [h6] at h3
  rw [h7] at h4
  have h8 : 0 < (1 / s) ^ 2 := by positivity
  have h9 : (7.64e-12 : ℝ) ^ 2 * (1 / s) ^ 2 + (2.01 * 7.64e-12) ^ 2 * (1 / s) ^ 2 ≤ (1.72e-11) ^ 2 * (1 / s) ^ 2 := by
    rw [← add_mul]
    gcongr
    norm_num
  linarith

/-- the mean anomaly computed from eccentricity and true anomaly -/
noncomputable def gaussMean (lib : Libm) (e ta : ℝ) : ℝ :=
  let E := lib.atan2 (rnd (rnd (√(rnd (1 - rnd (e * e)))) * lib.sin ta)) (rnd (lib.cos ta + e))
  rnd (E - rnd (e * lib.sin E))

/-- the elements computed from the plane and the ratio -/
theorem elements_near {lib : Libm} (hlib : Accurate lib) (hatan : Atan2Accurate lib) (epoch : Epoch) {pl : Gauss.Plane} {rb : Vec3}
    {A B c s r n' tau τ e ν d a : ℝ} (hA : Near pl.ra_mag A 4.2) (hB : Near pl.rb_mag B 4.2) (hR : Near pl.r0_mag (B * s) (22.8 / s))
    (hdot : |dot rb pl.ea - B * c| ≤ 9.5 * u * B) (hA0 : 0 < A) (hB0 : 0 < B) (hs : 0.01 ≤ s)
    (hsd : s = sin d) (hcd : c = cos d) (hn : Near n' r 15800) (ht : Near tau τ 5.1) (hτ : 0 < τ)
    (he0 : 0 ≤ e) (he : e ≤ 0.9) (ha : 0 < a) (hp : a * (1 - e * e) = (A * (B * s) * r / τ) * (A * (B * s) * r / τ))
    (hpa : A * (1 + e * cos ν) = a * (1 - e * e)) (hpb : B * (1 + e * cos (ν + d)) = a * (1 - e * e))
    {γ : ℝ} (hγ : 1e-4 ≤ γ) (hγx : γ ≤ |e * cos ν|) :
    ∃ ce z' x', gaussElements lib epoch pl rb n' tau = .ok ce ∧ ce.epoch = epoch ∧ ce.inclination = pl.inc ∧ ce.raan = pl.raan ∧
      |ce.eccentricity - e| ≤ 1.72e-11 / s + 1.5e-15 / γ ∧
      |ce.semimajor_axis - a| ≤ 10 * (1.72e-11 / s + 1.5e-15 / γ) * a ∧
      (x' - e * cos ν) ^ 2 + (z' - e * sin ν) ^ 2 ≤ (1.72e-11 / s) ^ 2 ∧
      ce.argument_of_perigee = wrapNeg (rnd (pl.ua - wrapNeg (lib.atan2 z' x'))) ∧
      ce.mean_anomaly = gaussMean lib ce.eccentricity (wrapNeg (lib.atan2 z' x')) := by
  have hu := u_pos
  have hu' := u_tiny
  have sp : 0 < s := by norm_num at hs; linarith
  have hs1 : s ≤ 1 := by rw [hsd]; exact sin_le_one d
  have hc1 : |c| ≤ 1 := by rw [hcd]; exact abs_cos_le_one d
  have γ0 : 0 < γ := lt_of_lt_of_le (by norm_num) hγ
  obtain ⟨b, e1, np⟩ := gauss_parameter hA hR hs hn ht hτ
  obtain ⟨p, hpe⟩ : ∃ p, p = a * (1 - e * e) := ⟨_, rfl⟩
  rw [← hp, ← hpe] at np
  rw [← hpe] at hpa hpb
  have e21 : 0 < 1 - e * e := by nlinarith
  have p0 : 0 < p := by rw [hpe]; positivity
  obtain ⟨p', hp'⟩ : ∃ q, q = rnd (b * b) := ⟨_, rfl⟩
  rw [← hp'] at np
  have abs_le : ∀ t : ℝ, |e * cos t| ≤ 0.9 := by
    intro t
    rw [abs_mul, abs_of_nonneg he0]
    calc e * |cos t| ≤ 0.9 * 1 := by gcongr; exact abs_cos_le_one t
      _ = 0.9 := by norm_num
  have qa : p / A - 1 = e * cos ν := by rw [← hpa]; field_simp; ring
  have qb : p / B - 1 = e * cos (ν + d) := by rw [← hpb]; field_simp; ring
  have la := (_root_.abs_le.mp (abs_le ν)).2
  have lb := (_root_.abs_le.mp (abs_le (ν + d))).2
  obtain ⟨pa, e2, na⟩ := ecos_near np (by norm_num) (by norm_num) hA hA0 p0 (by linarith)
  obtain ⟨pb, e3, nb⟩ := ecos_near np (by norm_num) (by norm_num) hB hB0 p0 (by linarith)
  rw [qa] at na
  rw [qb] at nb
  obtain ⟨c', e4, nc⟩ := cosd_near hdot hB0 hB hc1
  obtain ⟨s', e5, ns⟩ := sind_near hR hB0 hB hs hs1
  obtain ⟨ε, hε⟩ : ∃ ε, ε = 1.9 * (36200 + 7) * u := ⟨_, rfl⟩
  rw [← hε] at na nb
  have hz : e * sin ν = (e * cos ν * c - e * cos (ν + d)) / s := by
    rw [eq_div_iff sp.ne', hcd, hsd, cos_add]; ring
  have hz1 : |e * sin ν| ≤ 0.9 := by
    rw [abs_mul, abs_of_nonneg he0]
    calc e * |sin ν| ≤ 0.9 * 1 := by gcongr; exact abs_sin_le_one ν
      _ = 0.9 := by norm_num
  obtain ⟨z', e6, nz⟩ := esin_near na nb nc ns (abs_le _) (abs_le _) hc1 hs hs1 hz hz1 (by rw [hε]; linarith)
    (by rw [hε]; unfold u; norm_num)
  obtain ⟨x', hx'⟩ : ∃ x, x = rnd (pa - 1) := ⟨_, rfl⟩
  obtain ⟨y', hy'⟩ : ∃ x, x = rnd (pb - 1) := ⟨_, rfl⟩
  rw [← hx'] at na e6
  rw [← hy'] at e6
  have i1 : (1.72e-11 : ℝ) / s ≤ 1.72e-9 := by
    rw [div_le_iff₀ sp]; norm_num at hs ⊢; linarith
  have i2 : (1.5e-15 : ℝ) / γ ≤ 1.5e-11 := by
    rw [div_le_iff₀ γ0]; norm_num at hγ ⊢; linarith
  have i3 : (1.72e-11 : ℝ) ≤ 1.72e-11 / s := by
    rw [le_div_iff₀ sp]; norm_num; linarith
  have i4 : (0 : ℝ) ≤ 1.5e-15 / γ := by positivity
  obtain ⟨e', e7, ne⟩ := shape_core hlib hatan (x := e * cos ν) (z := e * sin ν) (x' := x') (z' := z')
    (by linear_combination e * e * cos_sq_add_sin_sq ν) he0 he hγ hγx (η := 1.72e-11 / s) (by positivity)
    (i1.trans (by norm_num)) (eta_le hε sp hs1 na nz)
  obtain ⟨ζ, hζ⟩ : ∃ ζ, ζ = 1.72e-11 / s + 1.5e-15 / γ := ⟨_, rfl⟩
  rw [← hζ] at ne
  obtain ⟨h0, sma, e8, nsma⟩ := axis_core np p0 he0 he ne (by rw [hζ]; norm_num at i3 i4 ⊢; linarith)
    (by rw [hζ]; norm_num at i1 i2 ⊢; linarith)
  rw [show p / (1 - e * e) = a by rw [hpe]; exact mul_div_cancel_right₀ _ e21.ne'] at nsma
  rw [← hζ]
  have fin : gaussElements lib epoch pl rb n' tau = .ok ⟨epoch, sma, e', pl.inc, pl.raan,
      wrapNeg (rnd (pl.ua - wrapNeg (lib.atan2 z' x'))), gaussMean lib e' (wrapNeg (lib.atan2 z' x'))⟩ := by
    simp only [gaussElements, e1, ok_bind, ← hp', e2, e3, ← hx', ← hy', e4, e5, e6, e7, e8, sqrt_ok h0, pure_eq_ok]
    rfl
  exact ⟨_, z', x', fin, rfl, rfl, rfl, ne, nsma, eta_le hε sp hs1 na nz, rfl, rfl⟩

end F64

end Openspace
