import Verif.Model.DoubleAttitude
import Verif.Spec.NearTriad
import Verif.Lemmas.DoubleEquator
import Verif.Props.Attitude
import Verif.Props.DoubleForces
import Verif.Props.DoubleVectors

/-! # C160: the attitude of a spacecraft in double precision -/

namespace Openspace

open Real Spec

namespace F64

theorem dot_le (a b : Vec3) : |a.dot b| ≤ a.magnitude * b.magnitude := by
  rw [← Vec3.inner_toE, ← Vec3.norm_toE, ← Vec3.norm_toE]; exact abs_real_inner_le_norm _ _

/-- scalars of `triad_core` -/
theorem triad_numbers {P A C Q W K pa : ℝ} (hA : 0 < A) (hC : 0 < C) (hP : 0 ≤ P) (hW : 0 ≤ W) (hK1 : 1 ≤ K) (hK : K ≤ 1e12)
    (h1 : C - 3 * u * (K * C) ≤ P) (h2 : |pa| ≤ 3 * u * (K * C) * A) (h3 : W ^ 2 = P ^ 2 * A ^ 2 - pa ^ 2)
    (h4 : |Q - W| ≤ 3 * u * (P * A)) :
    |pa| ≤ 8e-16 * K * (P * A) ∧ 3 * u * (P * A) ≤ 8e-16 * K * Q ∧
      (1 - 8e-16 * K) * (P * Q * A) ≤ W ^ 2 - 3 * u * (P * A) * W := by
  have hu := u_pos
  have hu' : u ≤ 1112 / 10 ^ 19 := by unfold u; norm_num
  have uK : u * K ≤ 1112 / 10 ^ 19 * K := by gcongr
  have k1 : 3 * u * K ≤ 3.34e-4 := by norm_num at hK ⊢; linarith
  have c1 : 3 * u * (K * C) ≤ 3.34e-4 * C := by rw [← mul_assoc]; gcongr
  have c2 : C ≤ 1.0004 * P := by norm_num at c1 ⊢; linarith
  have hP' : 0 < P := by linarith
  have pA : 0 < P * A := by positivity
  have p1 : |pa| ≤ 3.35e-16 * K * (P * A) := by
    refine h2.trans ?_
    calc 3 * u * (K * C) * A = 3 * (u * K) * C * A := by ring
      _ ≤ 3 * (1112 / 10 ^ 19 * K) * (1.0004 * P) * A := by gcongr
      _ ≤ _ := by
        have : 0 ≤ K * (P * A) := by positivity
        norm_num; linarith
  obtain ⟨η, hη⟩ : ∃ η, η = 3.35e-16 * K := ⟨_, rfl⟩
  rw [← hη] at p1
  have hη0 : 0 < η := by rw [hη]; positivity
  have hη1 : η ≤ 3.4e-4 := by rw [hη]; norm_num at hK ⊢; linarith
  have hη2 : η * η ≤ 3.4e-4 * η := by gcongr
  have p2 : pa ^ 2 ≤ (η * (P * A)) ^ 2 := by rw [← sq_abs]; gcongr
  have w1 : (1 - η * η) * (P * A) ^ 2 ≤ W ^ 2 := by rw [h3]; nlinarith
  have w2 : W ≤ P * A := by
    apply abs_le_of_sq_le_sq' _ pA.le |>.2
    rw [h3]; nlinarith [sq_nonneg pa]
  have w3 : (1 - η * η) * (P * A) ≤ W := by
    have : (1 - η * η) * (P * A) ^ 2 ≤ W * (P * A) := w1.trans (by rw [sq]; gcongr)
    nlinarith
  obtain ⟨q1, q2⟩ := abs_le.mp h4
  have uP : u * (P * A) ≤ 1112 / 10 ^ 19 * (P * A) := by gcongr
  have hηP : η * η * (P * A) ≤ 1e-6 * (P * A) := by
    refine mul_le_mul_of_nonneg_right ?_ pA.le
    norm_num at hη1 hη2 ⊢; linarith
  have q3 : 0.999 * (P * A) ≤ Q := by norm_num at hηP uP ⊢; linarith
  have q4 : Q ≤ (1 + 3 * u) * (P * A) := by linarith
  refine ⟨p1.trans ?_, ?_, ?_⟩
  · gcongr; rw [hη]; norm_num; linarith
  · calc 3 * u * (P * A) ≤ 3 * (1112 / 10 ^ 19) * (P * A) := by gcongr
      _ ≤ 8e-16 * 1 * (0.999 * (P * A)) := by norm_num; linarith
      _ ≤ _ := by gcongr
  · have e1 : 0 ≤ 1 - 8e-16 * K := by norm_num at hK ⊢; linarith
    have a1 : (1 - 8e-16 * K) * (P * Q * A) ≤ (1 - 8e-16 * K) * ((1 + 3 * u) * (P * A) ^ 2) := by
      refine mul_le_mul_of_nonneg_left ?_ e1
      have := mul_le_mul_of_nonneg_right q4 pA.le
      nlinarith
    have a2 : 3 * u * (P * A) * W ≤ 3 * u * (P * A) ^ 2 := by
      have := mul_le_mul_of_nonneg_left w2 (show 0 ≤ 3 * u * (P * A) by positivity)
      nlinarith
    have a3 : (1 - 8e-16 * K) * (1 + 3 * u) ≤ 1 - η * η - 3 * u := by
      have : 0 ≤ K * u := by positivity
      rw [hη] at hη2
      norm_num at hη2 ⊢
      rw [hη]
      norm_num
      nlinarith
    have a4 := mul_le_mul_of_nonneg_right a3 (sq_nonneg (P * A))
    linarith

/-- two cross products, each with its rounding error -/
theorem triad_core {a b c p q w : Vec3} {K : ℝ} (ha : a ≠ ⟨0, 0, 0⟩) (hc0 : c ≠ ⟨0, 0, 0⟩) (hK1 : 1 ≤ K) (hK : K ≤ 1e12) (hc : c.dot a = 0)
    (hB : a.magnitude * b.magnitude ≤ K * c.magnitude) (hp : (p.minus c).magnitude ≤ 3 * u * (a.magnitude * b.magnitude))
    (hwa : w.dot a = 0) (hwp : w.dot p = 0) (hw : w.dot w = p.dot p * a.dot a - p.dot a ^ 2)
    (hq : (q.minus w).magnitude ≤ 3 * u * (p.magnitude * a.magnitude)) :
    |p.dot a| ≤ 8e-16 * K * (p.magnitude * a.magnitude) ∧ |q.dot a| ≤ 8e-16 * K * (q.magnitude * a.magnitude) ∧
      |q.dot p| ≤ 8e-16 * K * (q.magnitude * p.magnitude) ∧
      (1 - 8e-16 * K) * (p.magnitude * q.magnitude * a.magnitude) ≤ q.dot w := by
  have hu := u_pos
  have hA := Vec3.magnitude_pos.mpr ha
  have hC := Vec3.magnitude_pos.mpr hc0
  have e1 : (p.minus c).magnitude ≤ 3 * u * (K * c.magnitude) := hp.trans (by gcongr)
  have d1 : p.dot a = (p.minus c).dot a := by
    have : (p.minus c).dot a = p.dot a - c.dot a := by simp only [Vec3.dot, Vec3.minus]; ring
    rw [this, hc, sub_zero]
  have h1 := (_root_.abs_le.mp (magnitude_sub_le p c)).1
  have h2 : |p.dot a| ≤ 3 * u * (K * c.magnitude) * a.magnitude := by
    rw [d1]; exact (dot_le _ _).trans (mul_le_mul_of_nonneg_right e1 hA.le)
  have h3 : w.magnitude ^ 2 = p.magnitude ^ 2 * a.magnitude ^ 2 - p.dot a ^ 2 := by
    rw [Vec3.magnitude_sq_dot, Vec3.magnitude_sq_dot, Vec3.magnitude_sq_dot, hw]
  have h4 := (magnitude_sub_le q w).trans hq
  obtain ⟨r1, r2, r3⟩ := triad_numbers hA hC p.magnitude_nonneg w.magnitude_nonneg hK1 hK (by linarith) h2 h3 h4
  refine ⟨r1, ?_, ?_, ?_⟩
  · have : q.dot a = (q.minus w).dot a := by
      have : (q.minus w).dot a = q.dot a - w.dot a := by simp only [Vec3.dot, Vec3.minus]; ring
      rw [this, hwa, sub_zero]
    rw [this]
    refine (dot_le _ _).trans ?_
    rw [← mul_assoc]
    exact mul_le_mul_of_nonneg_right (hq.trans r2) hA.le
  · have : q.dot p = (q.minus w).dot p := by
      have : (q.minus w).dot p = q.dot p - w.dot p := by simp only [Vec3.dot, Vec3.minus]; ring
      rw [this, hwp, sub_zero]
    rw [this]
    refine (dot_le _ _).trans ?_
    rw [← mul_assoc]
    exact mul_le_mul_of_nonneg_right (hq.trans r2) p.magnitude_nonneg
  · have e : q.dot w = w.magnitude ^ 2 + (q.minus w).dot w := by
      rw [Vec3.magnitude_sq_dot]; simp only [Vec3.dot, Vec3.minus]; ring
    have f := (_root_.abs_le.mp (dot_le (q.minus w) w)).1
    have g := mul_le_mul_of_nonneg_right hq w.magnitude_nonneg
    rw [e]
    linarith

theorem cross_angle (a b : Vec3) : (a.cross b).magnitude = a.magnitude * b.magnitude * sin (InnerProductGeometry.angle a.toE b.toE) := by
  have h1 := InnerProductGeometry.sin_angle_nonneg a.toE b.toE
  refine Vec3.magnitude_of_dot (mul_nonneg (mul_nonneg a.magnitude_nonneg b.magnitude_nonneg) h1) ?_
  have h2 := InnerProductGeometry.cos_angle_mul_norm_mul_norm a.toE b.toE
  rw [Vec3.norm_toE, Vec3.norm_toE, Vec3.inner_toE] at h2
  rw [Vec3.lagrange, ← h2, ← Vec3.magnitude_sq_dot, ← Vec3.magnitude_sq_dot]
  have := sin_sq_add_cos_sq (InnerProductGeometry.angle a.toE b.toE)
  linear_combination (-(a.magnitude ^ 2 * b.magnitude ^ 2)) * this

/-- the second axis is made first, the first one from it (`lvlh` and `target`) -/
theorem triad_yx {a b c y : Vec3} {K : ℝ} (ha : a ≠ ⟨0, 0, 0⟩) (hc0 : c ≠ ⟨0, 0, 0⟩) (hK1 : 1 ≤ K) (hK : K ≤ 1e12) (hc : c.dot a = 0)
    (hB : a.magnitude * b.magnitude ≤ K * c.magnitude) (hy : (y.minus c).magnitude ≤ 3 * u * (a.magnitude * b.magnitude)) :
    NearTriad (cross y a) y a (8e-16 * K) := by
  obtain ⟨h1, h2, h3, h4⟩ := triad_core (w := y.cross a) ha hc0 hK1 hK hc hB hy (by simp only [Vec3.dot, Vec3.cross]; ring)
    (by simp only [Vec3.dot, Vec3.cross]; ring) (Vec3.lagrange y a) (cross_near y a)
  refine ⟨h3, h1, ?_, ?_⟩
  · rw [Vec3.dot_comm, mul_comm a.magnitude]; exact h2
  · rw [mul_comm (cross y a).magnitude]; exact h4

/-- the first axis is made first, the second one from it (`solar`) -/
theorem triad_xy {a b c x : Vec3} {K : ℝ} (ha : a ≠ ⟨0, 0, 0⟩) (hc0 : c ≠ ⟨0, 0, 0⟩) (hK1 : 1 ≤ K) (hK : K ≤ 1e12) (hc : c.dot a = 0)
    (hB : a.magnitude * b.magnitude ≤ K * c.magnitude) (hx : (x.minus c).magnitude ≤ 3 * u * (a.magnitude * b.magnitude)) :
    NearTriad x (cross a x) a (8e-16 * K) := by
  obtain ⟨h1, h2, h3, h4⟩ := triad_core (w := a.cross x) ha hc0 hK1 hK hc hB hx (by simp only [Vec3.dot, Vec3.cross]; ring)
    (by simp only [Vec3.dot, Vec3.cross]; ring)
    (by rw [Vec3.lagrange, Vec3.dot_comm a x]; ring) (by rw [mul_comm x.magnitude]; exact cross_near a x)
  refine ⟨?_, h2, ?_, ?_⟩
  · rw [Vec3.dot_comm, mul_comm x.magnitude]; exact h3
  · rw [Vec3.dot_comm, mul_comm a.magnitude]; exact h1
  · have : x.dot ((cross a x).cross a) = (cross a x).dot (a.cross x) := by simp only [Vec3.dot, Vec3.cross]; ring
    rw [this]; exact h4

theorem opposite {a : Vec3} (hx : IsDouble a.x) (hy : IsDouble a.y) (hz : IsDouble a.z) : scaled a (-1) = a.scaled (-1) := by
  have key : ∀ x, IsDouble x → rnd (x * -1) = x * -1 := by
    intro x h; rw [mul_neg_one, rnd_opp, h]
  ext <;> simp only [scaled, Vec3.scaled] <;> apply key <;> assumption

theorem opposite_magnitude (a : Vec3) : (a.scaled (-1)).magnitude = a.magnitude := by
  rw [Vec3.magnitude_scaled_abs, abs_neg, abs_one, one_mul]

/-- the vector to the Sun, for a spacecraft within a million kilometres of the Earth -/
theorem sunVector_near {lib : Libm} (hlib : Accurate lib) (s : GCRF) (h0 : 1 ≤ s.epoch.value) (h1 : s.epoch.value ≤ 131072)
    (h : s.position.magnitude ≤ 1e6) :
    ((sunVector lib s.position s.epoch.value).minus s.sunVector).magnitude ≤ 4.1e-3 ∧ 1.45e8 ≤ s.sunVector.magnitude ∧
      |s.sunVector.z| ≤ 0.42 * s.sunVector.magnitude := by
  have hu := u_pos
  have hu' := u_tiny
  have a3 := C140_sun hlib h0 h1
  obtain ⟨b2, b3, b4⟩ := C30_sun s.epoch
  rw [show (⟨s.epoch.value⟩ : Epoch) = s.epoch from rfl] at a3
  norm_num at b2 b3 a3 h
  have r1 := minus_round (sunPosition lib s.epoch.value) s.position
  have r2 := minus_minus_le (Sun.getPosition s.epoch) s.position (sunPosition lib s.epoch.value) s.position
  have r3 : (s.position.minus s.position).magnitude = 0 := by
    have : s.position.minus s.position = ⟨0, 0, 0⟩ := by ext <;> simp [Vec3.minus]
    rw [this]; simp [Vec3.magnitude, sqrtNN]
  have r4 := Vec3.magnitude_minus_le (sunPosition lib s.epoch.value) s.position
  have r5 := magnitude_le_of_minus (sunPosition lib s.epoch.value) (Sun.getPosition s.epoch)
  have r6 : u * ((sunPosition lib s.epoch.value).minus s.position).magnitude ≤ 12 / 10 ^ 17 * 2e8 := by
    refine mul_le_mul hu' (by norm_num; linarith) (Vec3.magnitude_nonneg _) (by norm_num)
  have r7 := minus_triangle (minus (sunPosition lib s.epoch.value) s.position)
    ((sunPosition lib s.epoch.value).minus s.position) s.sunVector
  rw [← GCRF.sunVector] at r2
  have r9 := magnitude_minus_ge (Sun.getPosition s.epoch) s.position
  have g : (Sun.getPosition s.epoch).magnitude ≤ s.sunVector.magnitude + s.position.magnitude := by
    rw [GCRF.sunVector]; linarith
  refine ⟨?_, ?_, ?_⟩
  · rw [sunVector]; norm_num at r6 ⊢; linarith
  · norm_num; linarith
  · -- the Sun is in the plane of the ecliptic
    have z0 : |(Sun.getPosition s.epoch).z| ≤ 0.41 * (Sun.getPosition s.epoch).magnitude := by
      obtain ⟨p, hp⟩ : ∃ p, p = Sun.getPosition s.epoch := ⟨_, rfl⟩
      rw [← hp] at b4 ⊢
      have hm := Vec3.magnitude_sq_dot p
      simp only [Vec3.dot] at hm b4
      have hs := sin_sq_add_cos_sq Earth.OBLIQUITY_OF_ECLIPTIC
      have hs1 : |sin Earth.OBLIQUITY_OF_ECLIPTIC| ≤ 0.41 := by
        refine (abs_sin_le_abs).trans ?_
        have h3 := pi_lt_d4
        have h4 := Real.pi_pos
        rw [Earth.OBLIQUITY_OF_ECLIPTIC, pyRadians, pyPi, abs_of_pos (by positivity)]
        norm_num at h3 ⊢; linarith
      have hs2 : sin Earth.OBLIQUITY_OF_ECLIPTIC ^ 2 ≤ 0.41 ^ 2 := by rw [← sq_abs]; gcongr
      have e : p.z ^ 2 = sin Earth.OBLIQUITY_OF_ECLIPTIC ^ 2 * (p.y ^ 2 + p.z ^ 2) := by
        have : (p.z * cos Earth.OBLIQUITY_OF_ECLIPTIC) ^ 2 = (p.y * sin Earth.OBLIQUITY_OF_ECLIPTIC) ^ 2 := by
          have : p.z * cos Earth.OBLIQUITY_OF_ECLIPTIC = p.y * sin Earth.OBLIQUITY_OF_ECLIPTIC := by linarith
          rw [this]
        linear_combination this - p.z ^ 2 * hs
      apply abs_le_of_sq_le_sq _ (mul_nonneg (by norm_num) p.magnitude_nonneg)
      rw [mul_pow, hm, e]
      have : sin Earth.OBLIQUITY_OF_ECLIPTIC ^ 2 * (p.y ^ 2 + p.z ^ 2) ≤ 0.41 ^ 2 * (p.y ^ 2 + p.z ^ 2) := by gcongr
      nlinarith [sq_nonneg p.x]
    have z1 := (component_le s.position).2.2
    have z2 : |s.sunVector.z| ≤ |(Sun.getPosition s.epoch).z| + |s.position.z| := by
      rw [GCRF.sunVector]; exact abs_sub _ _
    norm_num at z0 ⊢
    linarith

theorem cross_change (a b a' b' : Vec3) : ((a'.cross b').minus (a.cross b)).magnitude ≤
    (a'.minus a).magnitude * b'.magnitude + a.magnitude * (b'.minus b).magnitude := by
  have e : (a'.cross b').minus (a.cross b) = ((a'.minus a).cross b').plus (a.cross (b'.minus b)) := by
    ext <;> simp only [Vec3.cross, Vec3.minus, Vec3.plus] <;> ring
  rw [e]
  exact (Vec3.magnitude_plus_le _ _).trans (add_le_add (cross_magnitude_le _ _) (cross_magnitude_le _ _))

theorem magnitude_both (a b : Vec3) : a.magnitude ≤ b.magnitude + (a.minus b).magnitude ∧
    b.magnitude ≤ a.magnitude + (a.minus b).magnitude := by
  obtain ⟨h1, h2⟩ := _root_.abs_le.mp (magnitude_sub_le a b)
  constructor <;> linarith

theorem ne_of_magnitude {a : Vec3} (h : 0 < a.magnitude) : a ≠ ⟨0, 0, 0⟩ := Vec3.magnitude_pos.mp h

end F64

/-- **C160**, mode `lvlh`.  The payload axis points exactly at the centre of the Earth, the y axis along the angular momentum, and the axes are orthogonal and right-handed to
8e-16 over the sine of the angle between position and velocity. -/
theorem C160_lvlh {pos vel : Vec3} (hx : IsBinary64 pos.x) (hy : IsBinary64 pos.y) (hz : IsBinary64 pos.z)
    (hp : pos ≠ ⟨0, 0, 0⟩) (hv : vel ≠ ⟨0, 0, 0⟩) (hs : 1e-12 ≤ sin (InnerProductGeometry.angle pos.toE vel.toE)) :
    let b := F64.lvlhAxes pos vel
    b.body_z = pos.scaled (-1) ∧ (b.body_y.minus (pos.cross vel)).magnitude ≤ 3.4e-16 * (pos.magnitude * vel.magnitude) ∧
      NearTriad b.body_x b.body_y b.body_z (8e-16 / sin (InnerProductGeometry.angle pos.toE vel.toE)) := by
  rw [← F64.isDouble_iff] at hx hy hz
  have hop := F64.opposite hx hy hz
  have hP := Vec3.magnitude_pos.mpr hp
  have hV := Vec3.magnitude_pos.mpr hv
  have hc := F64.cross_angle pos vel
  obtain ⟨σ, hσ⟩ : ∃ σ, σ = sin (InnerProductGeometry.angle pos.toE vel.toE) := ⟨_, rfl⟩
  rw [← hσ] at hs hc ⊢
  have hσ0 : 0 < σ := lt_of_lt_of_le (by norm_num) hs
  have hσ1 : σ ≤ 1 := by rw [hσ]; exact sin_le_one _
  have hK1 : 1 ≤ 1 / σ := by rw [le_div_iff₀ hσ0]; linarith
  have hK : 1 / σ ≤ 1e12 := by rw [div_le_iff₀ hσ0]; norm_num at hs ⊢; linarith
  have hu' : F64.u ≤ 1112 / 10 ^ 19 := by unfold F64.u; norm_num
  refine ⟨hop, (F64.cross_near pos vel).trans (by gcongr; linarith), ?_⟩
  have hm := F64.opposite_magnitude pos
  have key := F64.triad_yx (a := pos.scaled (-1)) (b := vel) (c := pos.cross vel) (y := F64.cross pos vel) (K := 1 / σ)
    (F64.ne_of_magnitude (by rw [hm]; exact hP)) (F64.ne_of_magnitude (by rw [hc]; positivity)) hK1 hK
    (by simp only [Vec3.dot, Vec3.cross, Vec3.scaled]; ring) (by rw [hm, hc]; apply le_of_eq; field_simp)
    (by rw [hm]; exact F64.cross_near pos vel)
  rw [mul_one_div] at key
  simp only [F64.lvlhAxes, F64.earthVector, hop]
  exact key

/-- Mode `solar`, for a spacecraft within a million kilometres of the Earth from 1858 to 2217.  The payload axis is within 4.1 m of
the vector from the Sun, 2.9e-11 of its length, and the axes are orthogonal and right-handed to 1e-15. -/
theorem C160_solar {lib : F64.Libm} (hlib : Accurate lib) (s : GCRF) (h0 : 1 ≤ s.epoch.value) (h1 : s.epoch.value ≤ 131072)
    (h : s.position.magnitude ≤ 1e6) :
    let b := F64.solarAxes lib s.position s.epoch.value
    (b.body_z.minus (s.sunVector.scaled (-1))).magnitude ≤ 4.1e-3 ∧ 1.45e8 ≤ s.sunVector.magnitude ∧
      (b.body_x.minus ((s.sunVector.scaled (-1)).cross ⟨0, 0, 1⟩)).magnitude ≤ 4.1e-3 + 3.4e-16 * b.body_z.magnitude ∧
      NearTriad b.body_x b.body_y b.body_z 1e-15 := by
  obtain ⟨a1, a2, a3⟩ := F64.sunVector_near hlib s h0 h1 h
  have hop : F64.scaled (F64.sunVector lib s.position s.epoch.value) (-1) =
      (F64.sunVector lib s.position s.epoch.value).scaled (-1) :=
    F64.opposite (F64.isDouble_rnd _) (F64.isDouble_rnd _) (F64.isDouble_rnd _)
  obtain ⟨w, hw⟩ : ∃ w, w = F64.sunVector lib s.position s.epoch.value := ⟨_, rfl⟩
  rw [← hw] at a1 hop
  have b1 := (abs_le.mp (F64.magnitude_sub_le w s.sunVector)).1
  have b2 := (F64.component_le (w.minus s.sunVector)).2.2
  have b3 : |w.z| ≤ |s.sunVector.z| + |(w.minus s.sunVector).z| := by
    have : w.z = s.sunVector.z + (w.minus s.sunVector).z := by simp [Vec3.minus]
    rw [this]; exact abs_add_le _ _
  have b4 : |w.z| ≤ 0.43 * w.magnitude := by norm_num at a1 a2 a3 ⊢; linarith
  have b5 : 0 < w.magnitude := by norm_num at a1 a2; linarith
  have hm := F64.opposite_magnitude w
  obtain ⟨z, hz⟩ : ∃ z, z = w.scaled (-1) := ⟨_, rfl⟩
  have hzz : |z.z| ≤ 0.43 * z.magnitude := by
    rw [hz, hm]; simpa [Vec3.scaled] using b4
  have hz0 : 0 < z.magnitude := by rw [hz, hm]; exact b5
  have hk : (⟨0, 0, 1⟩ : Vec3).magnitude = 1 := Vec3.magnitude_of_dot zero_le_one (by simp [Vec3.dot])
  have hc : z.magnitude ≤ 1.12 * (z.cross ⟨0, 0, 1⟩).magnitude := by
    apply abs_le_of_sq_le_sq' _ (mul_nonneg (by norm_num) (Vec3.magnitude_nonneg _)) |>.2
    have e : (z.cross ⟨0, 0, 1⟩).magnitude ^ 2 = z.magnitude ^ 2 - z.z ^ 2 := by
      rw [Vec3.magnitude_sq_dot, Vec3.magnitude_sq_dot]; simp only [Vec3.dot, Vec3.cross]; ring
    have e2 : z.z ^ 2 ≤ (0.43 * z.magnitude) ^ 2 := by rw [← sq_abs]; gcongr
    rw [mul_pow, e]
    norm_num at e2 ⊢
    nlinarith
  have key := F64.triad_xy (a := z) (b := ⟨0, 0, 1⟩) (c := z.cross ⟨0, 0, 1⟩) (x := F64.cross z ⟨0, 0, 1⟩) (K := 1.12)
    (F64.ne_of_magnitude hz0) (F64.ne_of_magnitude (by linarith)) (by norm_num) (by norm_num)
    (by simp only [Vec3.dot, Vec3.cross]; ring) (by rw [hk, mul_one]; exact hc) (F64.cross_near _ _)
  have ez : F64.scaled w (-1) = z := by rw [hop, hz]
  simp only [F64.solarAxes, ← hw, ez]
  have a4 : (z.minus (s.sunVector.scaled (-1))).magnitude ≤ 4.1e-3 := by
    have e : z.minus (s.sunVector.scaled (-1)) = (w.minus s.sunVector).scaled (-1) := by
      rw [hz]; ext <;> simp only [Vec3.minus, Vec3.scaled] <;> ring
    rw [e, F64.opposite_magnitude]; exact a1
  refine ⟨a4, a2, ?_, ?_⟩
  · have hu' : F64.u ≤ 1112 / 10 ^ 19 := by unfold F64.u; norm_num
    have c1 := F64.cross_near z ⟨0, 0, 1⟩
    have c2 := F64.cross_change (s.sunVector.scaled (-1)) ⟨0, 0, 1⟩ z ⟨0, 0, 1⟩
    have c3 := F64.minus_triangle (F64.cross z ⟨0, 0, 1⟩) (z.cross ⟨0, 0, 1⟩) ((s.sunVector.scaled (-1)).cross ⟨0, 0, 1⟩)
    have c4 : ((⟨0, 0, 1⟩ : Vec3).minus ⟨0, 0, 1⟩).magnitude = 0 := by rw [Vec3.magnitude_eq_zero]; ext <;> simp [Vec3.minus]
    rw [c4, mul_zero, add_zero, hk, mul_one] at c2
    rw [hk, mul_one] at c1
    have c5 : 3 * F64.u * z.magnitude ≤ 3.4e-16 * z.magnitude := by gcongr; linarith
    linarith
  · obtain ⟨k1, k2, k3, k4⟩ := key
    have hx := (F64.cross z ⟨0, 0, 1⟩).magnitude_nonneg
    have hy := (F64.cross z (F64.cross z ⟨0, 0, 1⟩)).magnitude_nonneg
    refine ⟨k1.trans ?_, k2.trans ?_, k3.trans ?_, le_trans ?_ k4⟩
    · gcongr; norm_num
    · gcongr; norm_num
    · gcongr; norm_num
    · gcongr; norm_num

/-- Mode `target`.  The payload axis is within 1.2e-16 of the length of the vector to the target, and the axes are orthogonal and
right-handed to 8.1e-16 over the sine of the angle between target and Sun. -/
theorem C160_target {lib : F64.Libm} (hlib : Accurate lib) (s : GCRF) (h0 : 1 ≤ s.epoch.value) (h1 : s.epoch.value ≤ 131072)
    (h : s.position.magnitude ≤ 1e6) (target : Vec3) (ht : target ≠ s.position)
    (hs : 1e-7 ≤ sin (InnerProductGeometry.angle (target.minus s.position).toE s.sunVector.toE)) :
    let b := F64.targetAxes lib s.position s.epoch.value target
    (b.body_z.minus (target.minus s.position)).magnitude ≤ 1.2e-16 * (target.minus s.position).magnitude ∧
      (b.body_y.minus ((target.minus s.position).cross s.sunVector)).magnitude ≤
        3.1e-11 * ((target.minus s.position).magnitude * s.sunVector.magnitude) ∧
      NearTriad b.body_x b.body_y b.body_z
        (8.1e-16 / sin (InnerProductGeometry.angle (target.minus s.position).toE s.sunVector.toE)) := by
  obtain ⟨a1, a2, -⟩ := F64.sunVector_near hlib s h0 h1 h
  have hu := F64.u_pos
  have hu' := F64.u_tiny
  have hc := F64.cross_angle (target.minus s.position) s.sunVector
  have z1 := F64.minus_round target s.position
  have hd : target.minus s.position ≠ ⟨0, 0, 0⟩ := by
    intro e; apply ht
    have e1 := congrArg Vec3.x e
    have e2 := congrArg Vec3.y e
    have e3 := congrArg Vec3.z e
    simp only [Vec3.minus] at e1 e2 e3
    ext <;> linarith
  simp only [F64.targetAxes, F64.targetVector]
  obtain ⟨w', hw'⟩ : ∃ w', w' = F64.sunVector lib s.position s.epoch.value := ⟨_, rfl⟩
  obtain ⟨z', hz'⟩ : ∃ z', z' = F64.minus target s.position := ⟨_, rfl⟩
  obtain ⟨σ, hσ⟩ : ∃ σ, σ = sin (InnerProductGeometry.angle (target.minus s.position).toE s.sunVector.toE) := ⟨_, rfl⟩
  obtain ⟨z, hz⟩ : ∃ z, z = target.minus s.position := ⟨_, rfl⟩
  obtain ⟨w, hw⟩ : ∃ w, w = s.sunVector := ⟨_, rfl⟩
  have hσ1 : σ ≤ 1 := by rw [hσ]; exact sin_le_one _
  rw [← hσ] at hs hc ⊢
  rw [← hz, ← hw] at hc
  rw [← hz] at hd ⊢
  rw [← hz, ← hz'] at z1
  rw [← hw', ← hw] at a1
  rw [← hw] at a2
  rw [← hw', ← hz', ← hw]
  have Z := Vec3.magnitude_pos.mpr hd
  have W : 0 < w.magnitude := lt_of_lt_of_le (by norm_num) a2
  have hσ0 : 0 < σ := lt_of_lt_of_le (by norm_num) hs
  have b0 : (z'.minus z).magnitude ≤ 1.2e-16 * z.magnitude := z1.trans (by gcongr; norm_num at hu' ⊢; exact hu')
  have b1 := F64.magnitude_both z' z
  have b2 := F64.magnitude_both w' w
  have aw : (w'.minus w).magnitude ≤ 3e-11 * w.magnitude := by norm_num at a1 a2 ⊢; linarith
  have c1 := F64.cross_change z w z' w'
  have c2 := (abs_le.mp (F64.magnitude_sub_le (z'.cross w') (z.cross w))).1
  have zw : 0 < z.magnitude * w.magnitude := by positivity
  have w1 : w'.magnitude ≤ 1.0001 * w.magnitude := by norm_num at aw ⊢; linarith [b2.1]
  have z2 : z'.magnitude ≤ 1.0001 * z.magnitude := by norm_num at b0 ⊢; linarith [b1.1]
  have c3 : (z'.minus z).magnitude * w'.magnitude ≤ 1.2e-16 * z.magnitude * (1.0001 * w.magnitude) :=
    mul_le_mul b0 w1 (Vec3.magnitude_nonneg _) (by positivity)
  have c4 : z.magnitude * (w'.minus w).magnitude ≤ z.magnitude * (3e-11 * w.magnitude) := by gcongr
  have c5 : 1e-7 * (z.magnitude * w.magnitude) ≤ σ * (z.magnitude * w.magnitude) := by gcongr
  have c6 : 0.999 * (σ * (z.magnitude * w.magnitude)) ≤ (z'.cross w').magnitude := by
    rw [hc] at c2; norm_num at c3 c4 c5 ⊢; linarith
  have c7 : z'.magnitude * w'.magnitude ≤ 1.0001 * z.magnitude * (1.0001 * w.magnitude) :=
    mul_le_mul z2 w1 (Vec3.magnitude_nonneg _) (by positivity)
  refine ⟨b0, ?_, ?_⟩
  · have d1 := F64.cross_near z' w'
    have d2 := F64.minus_triangle (F64.cross z' w') (z'.cross w') (z.cross w)
    have d3 : 3 * F64.u * (z'.magnitude * w'.magnitude) ≤ 3 * (12 / 10 ^ 17) * (1.0001 * z.magnitude * (1.0001 * w.magnitude)) := by
      have := mul_nonneg z'.magnitude_nonneg w'.magnitude_nonneg
      gcongr
    norm_num at d3 c3 c4 ⊢
    linarith
  have hK1 : 1 ≤ 1.01 / σ := by rw [le_div_iff₀ hσ0]; linarith
  have hK : 1.01 / σ ≤ 1e12 := by rw [div_le_iff₀ hσ0]; norm_num at hs ⊢; linarith
  have hB : z'.magnitude * w'.magnitude ≤ 1.01 / σ * (z'.cross w').magnitude := by
    rw [div_mul_eq_mul_div, le_div_iff₀ hσ0]
    have := mul_le_mul_of_nonneg_right c7 hσ0.le
    norm_num at this c6 ⊢; nlinarith
  have hz0 : 0 < z'.magnitude := by norm_num at b0; linarith [b1.2]
  have key := F64.triad_yx (a := z') (b := w') (c := z'.cross w') (y := F64.cross z' w') (K := 1.01 / σ)
    (F64.ne_of_magnitude hz0) (F64.ne_of_magnitude (lt_of_lt_of_le (by positivity) c6)) hK1 hK
    (by simp only [Vec3.dot, Vec3.cross]; ring) hB (F64.cross_near _ _)
  obtain ⟨k1, k2, k3, k4⟩ := key
  have hε : 8e-16 * (1.01 / σ) ≤ 8.1e-16 / σ := by
    rw [← mul_div_assoc]; gcongr; norm_num
  have hx := (F64.cross (F64.cross z' w') z').magnitude_nonneg
  have hy := (F64.cross z' w').magnitude_nonneg
  refine ⟨k1.trans ?_, k2.trans ?_, k3.trans ?_, le_trans ?_ k4⟩
  · gcongr
  · gcongr
  · gcongr
  · gcongr

/-- The end of a slew from the axis `z` to the direction `v` is within 1.1e-7 of the slew rate, and 16 picodays, of the exact one. -/
theorem C160_slew {acos : ℝ → ℝ} (hacos : AcosAccurate acos) {e k : ℝ} (h0 : 0 ≤ e) (h1 : e ≤ 131072) (hk : 0 ≤ k) {z v : Vec3}
    (hz : z ≠ ⟨0, 0, 0⟩) (hv : v ≠ ⟨0, 0, 0⟩) :
    ∃ T, F64.slewStop acos e k z v = .ok T ∧ |T - (e + InnerProductGeometry.angle z.toE v.toE * k)| ≤ 1.1e-7 * k + 1.6e-11 := by
  obtain ⟨t, e1, e2⟩ := C111_accuracy hacos hz hv
  have g0 := InnerProductGeometry.angle_nonneg z.toE v.toE
  have g1 := InnerProductGeometry.angle_le_pi z.toE v.toE
  refine ⟨_, by simp only [F64.slewStop, e1, ok_bind, pure_eq_ok]; rfl, ?_⟩
  obtain ⟨γ, hγ⟩ : ∃ γ, γ = InnerProductGeometry.angle z.toE v.toE := ⟨_, rfl⟩
  rw [← hγ] at e2 g0 g1 ⊢
  have hp := pi_lt_d2
  have hu := F64.u_pos
  have hu' := F64.u_tiny
  have m1 : |t * k - γ * k| ≤ 1 / 10 ^ 7 * k := by rw [← sub_mul, abs_mul, abs_of_nonneg hk]; gcongr
  have m2 : γ * k ≤ 3.15 * k := by gcongr; linarith
  have m3 : 0 ≤ γ * k := mul_nonneg g0 hk
  have m4 := F64.rabs m1 (M := 3.2 * k) (by rw [abs_of_nonneg m3]; norm_num; linarith)
  have m5 : |e + F64.rnd (t * k) - (e + γ * k)| ≤ 1 / 10 ^ 7 * k + 3.2 * k * F64.u := by rwa [add_sub_add_left_eq_sub]
  have uk : k * F64.u ≤ k * (12 / 10 ^ 17) := by gcongr
  have m6 := F64.rabs m5 (M := 131072 + 3.2 * k)
    (by rw [abs_of_nonneg (by linarith)]; norm_num at uk ⊢; linarith)
  refine m6.trans ?_
  norm_num at uk hu' ⊢
  linarith

/-- a circular orbit at 7000 km: the axes are orthogonal to 8e-16 -/
example : NearTriad (F64.lvlhAxes ⟨7000, 0, 0⟩ ⟨0, 7.5, 0⟩).body_x (F64.lvlhAxes ⟨7000, 0, 0⟩ ⟨0, 7.5, 0⟩).body_y
    (F64.lvlhAxes ⟨7000, 0, 0⟩ ⟨0, 7.5, 0⟩).body_z 8e-16 := by
  have hr : InnerProductGeometry.angle (⟨7000, 0, 0⟩ : Vec3).toE (⟨0, 7.5, 0⟩ : Vec3).toE = π / 2 := by
    rw [← InnerProductGeometry.inner_eq_zero_iff_angle_eq_pi_div_two, Vec3.inner_toE]; simp [Vec3.dot]
  have b0 : IsBinary64 0 := by rw [← F64.isDouble_iff, F64.IsDouble, F64.rnd_zero]
  have b1 : IsBinary64 7000 := by
    rw [← F64.isDouble_iff, F64.IsDouble]
    have := F64.rnd_int 7000 (by norm_num)
    simpa using this
  have := (C160_lvlh (pos := ⟨7000, 0, 0⟩) (vel := ⟨0, 7.5, 0⟩) b1 b0 b0 (by simp) (by simp; norm_num)
    (by rw [hr, sin_pi_div_two]; norm_num)).2.2
  rwa [hr, sin_pi_div_two, div_one] at this

/-- the correctly rounded library meets the assumptions of the second part -/
example (s : GCRF) (h0 : s.epoch.value = 60310.5) (h : s.position = ⟨7000, 0, 0⟩) :
    NearTriad (F64.solarAxes F64.rounded s.position s.epoch.value).body_x (F64.solarAxes F64.rounded s.position s.epoch.value).body_y
      (F64.solarAxes F64.rounded s.position s.epoch.value).body_z 1e-15 := by
  have hm : s.position.magnitude = 7000 := by
    rw [h]; exact Vec3.magnitude_of_dot (by norm_num) (by norm_num [Vec3.dot])
  exact (C160_solar F64.rounded_accurate.1 s (by rw [h0]; norm_num) (by rw [h0]; norm_num) (by rw [hm]; norm_num)).2.2.2

end Openspace
