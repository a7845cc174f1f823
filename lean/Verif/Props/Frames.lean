import Verif.Props.Observations

/-!
# C77: inertial and Earth-fixed positions correspond one to one
-/

namespace Openspace

open Real

theorem nutation_surj (t : Epoch) (w : Vec3) : ∃ v, (Earth.nutation t).mulVec v = w := by
  have hk : 0 ≤ (nutAxis t).dot (nutAxis t) := by
    simp only [Vec3.dot]; nlinarith [mul_self_nonneg (nutAxis t).x, mul_self_nonneg (nutAxis t).y, mul_self_nonneg (nutAxis t).z]
  obtain ⟨k, hke⟩ : ∃ k, k = nutAxis t := ⟨_, rfl⟩
  rw [← hke] at hk
  have hne : 1 + k.dot k ≠ 0 := by positivity
  refine ⟨((w.minus (k.cross w)).plus (k.scaled (k.dot w))).scaled (1 / (1 + k.dot k)), ?_⟩
  rw [nutation_mulVec, ← hke]
  simp only [Vec3.dot] at hne
  ext <;> simp only [Vec3.plus, Vec3.minus, Vec3.cross, Vec3.scaled, Vec3.dot] <;> field_simp <;> ring

theorem gcrfToIjk_surj (t : Epoch) (w : Vec3) : ∃ v, PositionConvert.gcrfToIjk v t = .ok w := by
  obtain ⟨m, hm, hr⟩ := rotation_isRotation t
  obtain ⟨v, hv⟩ := nutation_surj t (m.transpose.mulVec
    ⟨cos t.gha * w.x + sin t.gha * w.y, -sin t.gha * w.x + cos t.gha * w.y, w.z⟩)
  refine ⟨(Earth.precession t).transpose.mulVec v, ?_⟩
  simp only [PositionConvert.gcrfToIjk, PositionConvert.gcrfToItrf, PositionConvert.gcrfToTod, PositionConvert.gcrfToMod,
    hm, ok_bind, pure_eq_ok, (precession_orth t).mulVec_transpose, hv, hr.orth.mulVec_transpose, itrfToIjk_ok, Except.ok.injEq]
  have h := sin_sq_add_cos_sq t.gha
  ext
  · simp only; linear_combination w.x * h
  · simp only; linear_combination w.y * h
  · rfl

theorem gcrfToItrf_surj (t : Epoch) (w : Vec3) : ∃ v, PositionConvert.gcrfToItrf v t = .ok w := by
  obtain ⟨m, hm, hr⟩ := rotation_isRotation t
  obtain ⟨v, hv⟩ := nutation_surj t (m.transpose.mulVec w)
  refine ⟨(Earth.precession t).transpose.mulVec v, ?_⟩
  simp only [PositionConvert.gcrfToItrf, PositionConvert.gcrfToTod, PositionConvert.gcrfToMod,
    hm, ok_bind, pure_eq_ok, (precession_orth t).mulVec_transpose, hv, hr.orth.mulVec_transpose]

theorem mulVec_minus (m : Mat3) (u v : Vec3) : m.mulVec (u.minus v) = (m.mulVec u).minus (m.mulVec v) := by
  ext <;> simp only [Mat3.mulVec, Vec3.minus, Vec3.dot] <;> ring

/-- the nutation matrix stretches a vector by the part across its axis -/
theorem nutation_magnitude (t : Epoch) (v : Vec3) :
    v.magnitude ≤ ((Earth.nutation t).mulVec v).magnitude ∧
    ((Earth.nutation t).mulVec v).magnitude ≤ (1 + 5.5e-9) * v.magnitude := by
  have hb := nutAxis_bound t
  rw [nutation_mulVec]
  obtain ⟨k, hk⟩ : ∃ k, k = nutAxis t := ⟨_, rfl⟩
  rw [← hk] at hb ⊢
  have e : (v.plus (k.cross v)).magnitude ^ 2 = v.magnitude ^ 2 + (k.cross v).magnitude ^ 2 := by
    rw [Vec3.magnitude_sq_dot, Vec3.magnitude_sq_dot, Vec3.magnitude_sq_dot]
    simp only [Vec3.dot, Vec3.plus, Vec3.cross]; ring
  have hc := cross_magnitude_le k v
  have hkm := k.magnitude_sq_dot
  have h0 := v.magnitude_nonneg
  have h1 := (k.cross v).magnitude_nonneg
  have h2 := (v.plus (k.cross v)).magnitude_nonneg
  have h3 := k.magnitude_nonneg
  constructor
  · refine (pow_le_pow_iff_left₀ h0 h2 two_ne_zero).mp ?_
    rw [e]; nlinarith
  · refine (pow_le_pow_iff_left₀ h2 (by positivity) two_ne_zero).mp ?_
    rw [e]
    have h4 : (k.cross v).magnitude ^ 2 ≤ (k.magnitude * v.magnitude) ^ 2 := pow_le_pow_left₀ h1 hc 2
    have h5 : (k.magnitude * v.magnitude) ^ 2 ≤ 1.1e-8 * v.magnitude ^ 2 := by
      rw [mul_pow, hkm]; exact mul_le_mul_of_nonneg_right hb (by positivity)
    norm_num at h5 ⊢
    nlinarith [sq_nonneg v.magnitude]

/-- converting keeps distances between positions up to 5.5 parts per thousand million -/
theorem C77_distance (t : Epoch) {p1 p2 q1 q2 : Vec3} (h1 : PositionConvert.gcrfToItrf p1 t = .ok q1)
    (h2 : PositionConvert.gcrfToItrf p2 t = .ok q2) :
    (p1.minus p2).magnitude ≤ (q1.minus q2).magnitude ∧
    (q1.minus q2).magnitude ≤ (1 + 5.5e-9) * (p1.minus p2).magnitude := by
  obtain ⟨m, hm, hr⟩ := rotation_isRotation t
  simp only [PositionConvert.gcrfToItrf, PositionConvert.gcrfToTod, PositionConvert.gcrfToMod, hm, ok_bind, pure_eq_ok,
    Except.ok.injEq] at h1 h2
  rw [← h1, ← h2, ← mulVec_minus, ← mulVec_minus, ← mulVec_minus, hr.orth.magnitude_mulVec]
  have := nutation_magnitude t ((Earth.precession t).mulVec (p1.minus p2))
  rwa [(precession_orth t).magnitude_mulVec] at this

/-- every Earth-fixed position is the image of exactly one inertial position -/
theorem C77_bijective (t : Epoch) (q : Vec3) : ∃! p, PositionConvert.gcrfToItrf p t = .ok q := by
  obtain ⟨p, hp⟩ := gcrfToItrf_surj t q
  refine ⟨p, hp, ?_⟩
  intro p' hp'
  have h := (C77_distance t hp' hp).1
  have h0 : (q.minus q).magnitude = 0 := Vec3.magnitude_of_dot le_rfl (by simp [Vec3.dot, Vec3.minus])
  rw [h0] at h
  have h1 := le_antisymm h (Vec3.magnitude_nonneg _)
  have h2 : p'.minus p = ⟨0, 0, 0⟩ := by
    by_contra h
    exact Vec3.magnitude_ne_zero.mpr h h1
  simp only [Vec3.minus, Vec3.mk.injEq] at h2
  ext <;> linarith [h2.1, h2.2.1, h2.2.2]

/-- the same for the IJK frame -/
theorem C77_ijk_bijective (t : Epoch) (q : Vec3) : ∃! p, PositionConvert.gcrfToIjk p t = .ok q := by
  obtain ⟨p, hp⟩ := gcrfToIjk_surj t q
  refine ⟨p, hp, ?_⟩
  intro p' hp'
  simp only [PositionConvert.gcrfToIjk, bind_eq_ok, itrfToIjk_ok, Except.ok.injEq] at hp hp'
  obtain ⟨r, hr, hr2⟩ := hp
  obtain ⟨r', hr', hr2'⟩ := hp'
  have e : r' = r := by
    rw [← hr2'] at hr2
    simp only [Vec3.mk.injEq] at hr2
    have h := sin_sq_add_cos_sq t.gha
    obtain ⟨e1, e2, e3⟩ := hr2
    ext
    · linear_combination (r.x - r'.x) * h - cos t.gha * e1 - sin t.gha * e2
    · linear_combination (r.y - r'.y) * h + sin t.gha * e1 - cos t.gha * e2
    · exact e3.symm
  subst e
  obtain ⟨_, _, hu⟩ := C77_bijective t r'
  rw [hu p' hr', hu p hr]

end Openspace
