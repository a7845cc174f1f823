import Verif.Model.DoubleGround
import Verif.Lemmas.DoubleElementAngles
import Verif.Lemmas.DoubleFormulas
import Verif.Lemmas.DoubleForces
import Verif.Props.DoubleEarth
import Verif.Props.DoublePositions
import Verif.Props.GroundSites

/-! # Errors of ground sites and observations in double precision -/

namespace Openspace.F64

open Real Spec

theorem geoE2_bounds : 0 < Openspace.geoE2 ∧ Openspace.geoE2 ≤ 0.0067 := by
  refine ⟨Openspace.geoE2_pos, ?_⟩
  norm_num [Openspace.geoE2, Earth.FLATTENING]

theorem near_flattening : Near geoF Earth.FLATTENING 2.1 := by
  have h := ((Near.refl (1 : ℝ)).div' (near_rnd 298.2572235) (by norm_num) (by norm_num) le_rfl (by norm_num) (by norm_num)).2
  exact (h.round' (by norm_num) (by norm_num)).mono (by norm_num)

/-- the square of the eccentricity, from its rounded root -/
theorem near_e2 : ∃ e, sqrt (rnd (geoF * rnd (2 - geoF))) = .ok e ∧ Near (rnd (e * e)) Openspace.geoE2 15 := by
  have hu := u_pos
  have hf : 0 < Earth.FLATTENING := by norm_num [Earth.FLATTENING]
  have hf1 : Earth.FLATTENING ≤ 0.0034 := by norm_num [Earth.FLATTENING]
  have h0 := near_flattening
  have h1 : Near (2 - geoF) (2 - Earth.FLATTENING) 0.1 := by
    unfold Near at h0 ⊢
    rw [abs_of_pos hf] at h0
    rw [abs_of_pos (show 0 < 2 - Earth.FLATTENING by norm_num at hf1 ⊢; linarith), show 2 - geoF - (2 - Earth.FLATTENING) = -(geoF - Earth.FLATTENING) by ring,
      abs_neg]
    refine h0.trans ?_
    have : u * Earth.FLATTENING ≤ u * 0.0034 := by gcongr
    have : u * 1.9 ≤ u * (2 - Earth.FLATTENING) := by gcongr; norm_num at hf1 ⊢; linarith
    norm_num at *
    linarith
  have h2 := h1.round' (by norm_num) (by norm_num)
  have h3 := h0.mulr h2 (by norm_num) (by norm_num) (by norm_num) (by norm_num)
  have e0 : Earth.FLATTENING * (2 - Earth.FLATTENING) = Openspace.geoE2 := rfl
  rw [e0] at h3
  have n0 : 0 ≤ rnd (geoF * rnd (2 - geoF)) := h3.nonneg geoE2_bounds.1.le (by norm_num)
  obtain ⟨e, he, hen, h4⟩ := h3.sqrtr geoE2_bounds.1.le n0 (by norm_num) (by norm_num)
  refine ⟨e, he, ?_⟩
  have h5 := h4.mulr h4 (by norm_num) (by norm_num) (by norm_num) (by norm_num)
  rw [Real.mul_self_sqrt geoE2_bounds.1.le] at h5
  exact h5.mono (by norm_num)

theorem sc_sin {lib : Libm} (hlib : Accurate lib) (x : ℝ) : Sc (lib.sin x) (sin x) 2 1 := by
  have h := hlib.sin x
  rw [show (1 : ℝ) / 2 ^ 52 = 2 * u by unfold u; norm_num] at h
  exact ⟨by rw [mul_one]; exact h, abs_sin_le_one x⟩

theorem sc_cos {lib : Libm} (hlib : Accurate lib) (x : ℝ) : Sc (lib.cos x) (cos x) 2 1 := by
  have h := hlib.cos x
  rw [show (1 : ℝ) / 2 ^ 52 = 2 * u by unfold u; norm_num] at h
  exact ⟨by rw [mul_one]; exact h, abs_cos_le_one x⟩

/-- the radius of curvature -/
theorem curvature_near {lib : Libm} (hlib : Accurate lib) (lat : ℝ) {E' : ℝ} (hE : Near E' Openspace.geoE2 15) :
    ∃ d n, sqrt (rnd (1 - rnd (rnd (E' * lib.sin lat) * lib.sin lat))) = .ok d ∧ div geoA d = .ok n ∧ Near n (geoN lat) 4.4 ∧
      0 < geoN lat ∧ geoN lat ≤ 6400 := by
  have hu := u_pos
  obtain ⟨e0, e1⟩ := geoE2_bounds
  have hs := sc_sin hlib lat
  have h1 := Sc.of_near hE (by norm_num) (show |Openspace.geoE2| ≤ 0.0067 by rw [abs_of_pos e0]; exact e1)
  have h2 := (h1.mul hs (by norm_num) (by norm_num) (by norm_num) (by norm_num)).mul hs (by norm_num) (by norm_num) (by norm_num) (by norm_num)
  have hsin := abs_sin_le_one lat
  have hs2 : sin lat ^ 2 ≤ 1 := by rw [← sq_abs]; nlinarith [abs_nonneg (sin lat)]
  have hs0 := sq_nonneg (sin lat)
  have hden : 0.99 ≤ 1 - Openspace.geoE2 * sin lat ^ 2 := by
    have : Openspace.geoE2 * sin lat ^ 2 ≤ 0.0067 * 1 := by gcongr
    norm_num at this ⊢; linarith
  have hden1 : 1 - Openspace.geoE2 * sin lat ^ 2 ≤ 1 := by
    have : 0 ≤ Openspace.geoE2 * sin lat ^ 2 := by positivity
    linarith
  have h3 : |1 - rnd (rnd (E' * lib.sin lat) * lib.sin lat) - (1 - Openspace.geoE2 * sin lat ^ 2)| ≤ 0.15 * u := by
    have := h2.1
    rw [show 1 - rnd (rnd (E' * lib.sin lat) * lib.sin lat) - (1 - Openspace.geoE2 * sin lat ^ 2) =
      -(rnd (rnd (E' * lib.sin lat) * lib.sin lat) - Openspace.geoE2 * sin lat * sin lat) by ring, abs_neg]
    norm_num at this ⊢
    linarith
  have h4 := rabs h3 (M := 1.001) (by
    rw [abs_of_pos (show 0 < 1 - Openspace.geoE2 * sin lat ^ 2 by norm_num at hden ⊢; linarith)]
    have := u_tiny; norm_num at this hden1 ⊢; linarith)
  have h5 : Near (rnd (1 - rnd (rnd (E' * lib.sin lat) * lib.sin lat))) (1 - Openspace.geoE2 * sin lat ^ 2) 1.3 := by
    unfold Near
    rw [abs_of_pos (show 0 < 1 - Openspace.geoE2 * sin lat ^ 2 by norm_num at hden ⊢; linarith)]
    have : u * 0.99 ≤ u * (1 - Openspace.geoE2 * sin lat ^ 2) := by gcongr
    norm_num at h4 this ⊢
    linarith
  have hp : 0 < 1 - Openspace.geoE2 * sin lat ^ 2 := by norm_num at hden ⊢; linarith
  obtain ⟨d, hd, -, h6⟩ := h5.sqrtr hp.le (h5.nonneg hp.le (by norm_num)) (by norm_num) (by norm_num)
  obtain ⟨n, hn, -, h7⟩ := near_a.divr h6 (Real.sqrt_pos.mpr hp).ne' (by norm_num) (by norm_num) (by norm_num) (by norm_num)
  have hR : (0:ℝ) < Earth.RADIUS := by norm_num [Earth.RADIUS]
  refine ⟨d, n, hd, hn, h7.mono (by norm_num), div_pos hR (Real.sqrt_pos.mpr hp), ?_⟩
  show Earth.RADIUS / √(1 - Openspace.geoE2 * sin lat ^ 2) ≤ 6400
  have : 0.9966 ≤ √(1 - Openspace.geoE2 * sin lat ^ 2) := by
    rw [Real.le_sqrt' (by norm_num)]
    have : Openspace.geoE2 * sin lat ^ 2 ≤ 0.0067 * 1 := by gcongr
    norm_num at this ⊢; linarith
  rw [div_le_iff₀ (Real.sqrt_pos.mpr hp)]
  have h9 : 6400 * 0.9966 ≤ 6400 * √(1 - Openspace.geoE2 * sin lat ^ 2) := by gcongr
  norm_num [Earth.RADIUS] at h9 ⊢
  linarith

/-- the position of a site -/
theorem llaToItrf_error {lib : Libm} (hlib : Accurate lib) (l : LLA) : ∃ p p', PositionConvert.llaToItrf l = .ok p ∧
    llaToItrf lib l = .ok p' ∧ (p'.minus p).magnitude ≤ 20 * u * (6400 + |l.altitude|) := by
  have hu := u_pos
  obtain ⟨e, he, hE⟩ := near_e2
  obtain ⟨d, n, hd, hn, hN, n0, n1⟩ := curvature_near hlib l.latitude hE
  have hv : llaToItrf lib l = .ok ⟨rnd (rnd (rnd (n + l.altitude) * lib.cos l.latitude) * lib.cos l.longitude),
      rnd (rnd (rnd (n + l.altitude) * lib.cos l.latitude) * lib.sin l.longitude),
      rnd (rnd (rnd (n * rnd (1 - rnd (e * e))) + l.altitude) * lib.sin l.latitude)⟩ := by
    simp only [llaToItrf, he, hd, hn, ok_bind, pure_eq_ok]
  refine ⟨_, _, llaToItrf_ok l, hv, ?_⟩
  · obtain ⟨e0, e1⟩ := geoE2_bounds
    have s1 := sc_sin hlib l.latitude
    have s2 := sc_cos hlib l.latitude
    have s3 := sc_sin hlib l.longitude
    have s4 := sc_cos hlib l.longitude
    have a0 : Sc l.altitude l.altitude 0 |l.altitude| := Sc.exact le_rfl
    have a1 := Sc.of_near hN (by norm_num) (show |geoN l.latitude| ≤ 6400 by rw [abs_of_pos n0]; exact n1)
    have a2 := a1.add (a0.mono (e' := 4.4) (by norm_num)) (by norm_num) (by norm_num)
    have a3 := a2.mul s2 (by norm_num) (by norm_num) (by norm_num) (by norm_num)
    have a4 := a3.mul s4 (by norm_num) (by norm_num) (by norm_num) (by norm_num)
    have a5 := a3.mul s3 (by norm_num) (by norm_num) (by norm_num) (by norm_num)
    have b1 : Near (rnd (1 - rnd (e * e))) (1 - Openspace.geoE2) 1.2 := by
      have : |1 - rnd (e * e) - (1 - Openspace.geoE2)| ≤ 0.11 * u := by
        unfold Near at hE
        rw [show 1 - rnd (e * e) - (1 - Openspace.geoE2) = -(rnd (e * e) - Openspace.geoE2) by ring, abs_neg]
        rw [abs_of_pos e0] at hE
        have : u * Openspace.geoE2 ≤ u * 0.0067 := by gcongr
        norm_num at *
        linarith
      have h4 := rabs this (M := 1) (by
        rw [abs_of_pos (show 0 < 1 - Openspace.geoE2 by norm_num at e1 ⊢; linarith)]
        have := u_tiny; norm_num [Openspace.geoE2, Earth.FLATTENING] at this ⊢; linarith)
      unfold Near
      rw [abs_of_pos (show 0 < 1 - Openspace.geoE2 by norm_num at e1 ⊢; linarith)]
      have : u * 0.99 ≤ u * (1 - Openspace.geoE2) := by gcongr; norm_num at e1 ⊢; linarith
      norm_num at h4 this ⊢
      linarith
    have b2 := hN.mulr b1 (by norm_num) (by norm_num) (by norm_num) (by norm_num)
    have b3 := Sc.of_near b2 (by norm_num) (show |geoN l.latitude * (1 - Openspace.geoE2)| ≤ 6400 by
      rw [abs_of_pos (mul_pos n0 (by norm_num at e1 ⊢; linarith))]
      have : geoN l.latitude * (1 - Openspace.geoE2) ≤ geoN l.latitude * 1 := by gcongr; linarith
      linarith)
    have b4 := b3.add (a0.mono (e' := 4.4 + 1.2 + 1.002) (by norm_num)) (by norm_num) (by norm_num)
    have b5 := b4.mul s1 (by norm_num) (by norm_num) (by norm_num) (by norm_num)
    have hS : 0 ≤ 6400 + |l.altitude| := by positivity
    generalize 6400 + |l.altitude| = S at *
    have c1 := a4.1
    have c2 := a5.1
    have c3 := b5.1
    simp only [mul_one] at c1 c2 c3
    have hus : 0 ≤ u * S := by positivity
    apply abs_le_of_sq_le_sq' _ (by positivity) |>.2
    rw [Vec3.magnitude_sq]
    have key : ∀ {x : ℝ}, |x| ≤ 11.5 * (u * S) → x ^ 2 ≤ 133 * (u * S) ^ 2 := by
      intro x hx
      have : |x| ^ 2 ≤ (11.5 * (u * S)) ^ 2 := by gcongr
      rw [sq_abs] at this
      norm_num at this
      nlinarith [sq_nonneg (u * S)]
    have k1 := key (c1.trans (by norm_num; linarith))
    have k2 := key (c2.trans (by norm_num; linarith))
    have k3 := key (c3.trans (by norm_num; linarith))
    simp only [Vec3.minus]
    have := sq_nonneg (u * S)
    nlinarith

theorem magnitude_le_two {e : Vec3} {k : ℝ} (h1 : |e.x| ≤ k) (h2 : |e.y| ≤ k) (h3 : |e.z| ≤ k) : e.magnitude ≤ 2 * k := by
  have k0 : 0 ≤ k := (abs_nonneg _).trans h1
  apply abs_le_of_sq_le_sq' _ (by positivity) |>.2
  rw [Vec3.magnitude_sq]
  have key : ∀ {x : ℝ}, |x| ≤ k → x ^ 2 ≤ k ^ 2 := by
    intro x hx
    rw [← sq_abs]; gcongr
  have a1 := key h1
  have a2 := key h2
  have a3 := key h3
  nlinarith

/-- the rows of the frame of a site -/
theorem enzMatrix_error {lib : Libm} (hlib : Accurate lib) (lamb psi : ℝ) :
    ((enzMatrix lib lamb psi).row1.minus (Openspace.enzMatrix lamb psi).row1).magnitude ≤ 80 * u ∧
    ((enzMatrix lib lamb psi).row2.minus (Openspace.enzMatrix lamb psi).row2).magnitude ≤ 80 * u ∧
    ((enzMatrix lib lamb psi).row3.minus (Openspace.enzMatrix lamb psi).row3).magnitude ≤ 80 * u := by
  have hu := u_pos
  have s1 := sc_sin hlib lamb
  have c1 := sc_cos hlib lamb
  have s2 := sc_sin hlib psi
  have c2 := sc_cos hlib psi
  have e1 := s1.neg.1
  have e2 := c1.1
  have e3 := (s2.neg.mul c1 (by norm_num) (by norm_num) (by norm_num) (by norm_num)).1
  have e4 := (s2.neg.mul s1 (by norm_num) (by norm_num) (by norm_num) (by norm_num)).1
  have e5 := (c2.mul c1 (by norm_num) (by norm_num) (by norm_num) (by norm_num)).1
  have e6 := (c2.mul s1 (by norm_num) (by norm_num) (by norm_num) (by norm_num)).1
  have e7 := s2.1
  have e8 := c2.1
  norm_num at e1 e2 e3 e4 e5 e6 e7 e8
  refine ⟨(magnitude_le_two (k := 40 * u) ?_ ?_ ?_).trans (by linarith), (magnitude_le_two (k := 40 * u) ?_ ?_ ?_).trans (by linarith),
    (magnitude_le_two (k := 40 * u) ?_ ?_ ?_).trans (by linarith)⟩ <;>
  simp only [enzMatrix, Openspace.enzMatrix, Vec3.minus, pySin, pyCos] <;> norm_num <;> linarith

theorem enz_unit (lamb psi : ℝ) : (Openspace.enzMatrix lamb psi).row1.magnitude = 1 ∧
    (Openspace.enzMatrix lamb psi).row2.magnitude = 1 ∧ (Openspace.enzMatrix lamb psi).row3.magnitude = 1 := by
  have h1 := sin_sq_add_cos_sq lamb
  have h2 := sin_sq_add_cos_sq psi
  refine ⟨?_, ?_, ?_⟩ <;> refine Vec3.magnitude_of_dot zero_le_one ?_ <;>
    simp only [Openspace.enzMatrix, Vec3.dot, pySin, pyCos] <;> norm_num
  · linear_combination h1
  · linear_combination sin psi ^ 2 * h1 + h2
  · linear_combination cos psi ^ 2 * h1 + h2

/-- a vector turned into the frame of a site -/
theorem enz_turned {lib : Libm} (hlib : Accurate lib) (lamb psi : ℝ) (w w' : Vec3) :
    ((mulVec (enzMatrix lib lamb psi) w').minus ((Openspace.enzMatrix lamb psi).mulVec w)).magnitude ≤
      (w'.minus w).magnitude + 166.4 * u * w'.magnitude := by
  obtain ⟨a1, a2, a3⟩ := enzMatrix_error hlib lamb psi
  obtain ⟨b1, b2, b3⟩ := enz_unit lamb psi
  have d1 := (dot_row (v := w') b1 a1).1
  have d2 := (dot_row (v := w') b2 a2).1
  have d3 := (dot_row (v := w') b3 a3).1
  have t1 : ((mulVec (enzMatrix lib lamb psi) w').minus ((Openspace.enzMatrix lamb psi).mulVec w')).magnitude ≤
      2 * (83.2 * u * w'.magnitude) := magnitude_le_two d1 d2 d3
  have t2 := minus_triangle (mulVec (enzMatrix lib lamb psi) w') ((Openspace.enzMatrix lamb psi).mulVec w')
    ((Openspace.enzMatrix lamb psi).mulVec w)
  rw [← Mat3.mulVec_minus, (C24_frame lamb psi).1.orth.magnitude_mulVec] at t2
  norm_num at t1 ⊢
  linarith

/-- the coordinates of a target in the frame of a site -/
theorem enzPosition_error {lib : Libm} (hlib : Accurate lib) {lamb psi κ η : ℝ} {g g' : GroundSite} {q q' : Vec3}
    (hg : g.enz_matrix = Openspace.enzMatrix lamb psi) (hg' : g'.enz_matrix = enzMatrix lib lamb psi)
    (hp : (g'.itrf_position.minus g.itrf_position).magnitude ≤ η) (hq : (q'.minus q).magnitude ≤ κ) :
    ((enzPosition g' q').minus (g.enzPosition q)).magnitude ≤ 1.001 * (κ + η) + 168 * u * (g.enzPosition q).magnitude := by
  have hu := u_pos
  have hut := u_tiny
  have e : (g.enzPosition q).magnitude = (q.minus g.itrf_position).magnitude := by
    rw [GroundSite.enzPosition, hg]; exact (C24_frame lamb psi).1.orth.magnitude_mulVec _
  rw [e, enzPosition, GroundSite.enzPosition, hg, hg']
  have t1 := enz_turned hlib lamb psi (q.minus g.itrf_position) (minus q' g'.itrf_position)
  have t2 := minus_round q' g'.itrf_position
  have t3 := minus_minus_le q g.itrf_position q' g'.itrf_position
  have t4 := minus_triangle (minus q' g'.itrf_position) (q'.minus g'.itrf_position) (q.minus g.itrf_position)
  have t5 := magnitude_le_of_minus (q'.minus g'.itrf_position) (q.minus g.itrf_position)
  have t6 := magnitude_le_of_minus (minus q' g'.itrf_position) (q'.minus g'.itrf_position)
  have hw := (q.minus g.itrf_position).magnitude_nonneg
  have k0 : 0 ≤ κ := (Vec3.magnitude_nonneg _).trans hq
  have n0 : 0 ≤ η := (Vec3.magnitude_nonneg _).trans hp
  generalize (q.minus g.itrf_position).magnitude = W at *
  generalize (q'.minus g'.itrf_position).magnitude = W' at *
  generalize (minus q' g'.itrf_position).magnitude = W'' at *
  have t7 : W' ≤ W + (κ + η) := by linarith
  have t8 : u * W' ≤ u * (W + (κ + η)) := by gcongr
  have t9 : u * W'' ≤ u * (1.001 * (W + (κ + η))) := by
    gcongr
    have : u * (W + (κ + η)) ≤ 0.001 * (W + (κ + η)) := by gcongr; norm_num at hut ⊢; linarith
    norm_num at this ⊢
    linarith
  have t10 : u * (κ + η) ≤ 0.000001 * (κ + η) := by gcongr; norm_num at hut ⊢; linarith
  have t11 : 0 ≤ u * W := by positivity
  norm_num at *
  linarith

/-- spherical coordinates of a vector that is slightly off -/
theorem spherical_error {lib : Libm} (hatan : Atan2Accurate lib) {v v' : Vec3} {δ : ℝ} (h : (v'.minus v).magnitude ≤ δ) :
    |(fromCartesian lib v').radius - (SphericalPosition.fromCartesian v).radius| ≤ δ + 4.3 * u * (v.magnitude + δ) ∧
    (0 < v.magnitude → δ ≤ v.magnitude / 100 → |(fromCartesian lib v').declination - (SphericalPosition.fromCartesian v).declination| ≤
      1.02 * (δ / v.magnitude) + 6 * u) ∧
    (0 < √(v.x * v.x + v.y * v.y) → δ ≤ √(v.x * v.x + v.y * v.y) / 100 →
      AngleNear (fromCartesian lib v').right_ascension (SphericalPosition.fromCartesian v).right_ascension
        (1.02 * (δ / √(v.x * v.x + v.y * v.y)) + 13 * u)) := by
  have hu := u_pos
  have hut := u_tiny
  have d0 : 0 ≤ δ := (Vec3.magnitude_nonneg _).trans h
  have hm := v.magnitude_nonneg
  have hsq : (v'.x - v.x) ^ 2 + (v'.y - v.y) ^ 2 + (v'.z - v.z) ^ 2 ≤ δ ^ 2 := by
    have : (v'.minus v).magnitude ^ 2 ≤ δ ^ 2 := by gcongr; exact Vec3.magnitude_nonneg _
    rw [Vec3.magnitude_sq] at this
    simp only [Vec3.minus] at this
    linarith
  refine ⟨?_, ?_, ?_⟩
  · have h1 := magnitude_near v'
    unfold Near at h1
    rw [abs_of_nonneg v'.magnitude_nonneg] at h1
    have h2 := magnitude_sub_le v' v
    have h3 := magnitude_le_of_minus v' v
    have h4 := abs_sub_le (magnitude v') v'.magnitude v.magnitude
    have h5 : u * v'.magnitude ≤ u * (v.magnitude + δ) := by gcongr; linarith
    have h6 : 0 ≤ u * (v.magnitude + δ) := by positivity
    show |magnitude v' - v.magnitude| ≤ _
    norm_num at *
    linarith
  · intro hv hs
    have a0 := Real.sqrt_nonneg (v.x * v.x + v.y * v.y)
    have a0' := Real.sqrt_nonneg (v'.x * v'.x + v'.y * v'.y)
    have a1 := Real.mul_self_sqrt (show 0 ≤ v.x * v.x + v.y * v.y by nlinarith [mul_self_nonneg v.x, mul_self_nonneg v.y])
    have a1' := Real.mul_self_sqrt (show 0 ≤ v'.x * v'.x + v'.y * v'.y by nlinarith [mul_self_nonneg v'.x, mul_self_nonneg v'.y])
    have hmm := Vec3.magnitude_sq v
    have key : AngleNear (SphericalPosition.fromCartesian v').declination (SphericalPosition.fromCartesian v).declination
        (1.02 * (δ / v.magnitude)) := by
      apply atan2_shift (x := √(v.x * v.x + v.y * v.y)) (y := v.z) (x' := √(v'.x * v'.x + v'.y * v'.y)) (y' := v'.z) hv
        (by nlinarith) d0 _ hs
      refine le_trans ?_ hsq
      have c : v.x * v'.x + v.y * v'.y ≤ √(v.x * v.x + v.y * v.y) * √(v'.x * v'.x + v'.y * v'.y) := by
        rw [← Real.sqrt_mul (by nlinarith [mul_self_nonneg v.x, mul_self_nonneg v.y])]
        apply Real.le_sqrt_of_sq_le
        nlinarith [sq_nonneg (v.x * v'.y - v.y * v'.x)]
      nlinarith
    have r1 := declination_near hatan v'
    have rng : ∀ a b : ℝ, 0 ≤ a → |pyAtan2 b a| ≤ π / 2 := fun a b ha => by
      have := Complex.abs_arg_le_pi_div_two_iff (z := ⟨a, b⟩)
      exact this.mpr ha
    have r2 : |(SphericalPosition.fromCartesian v').declination| ≤ π / 2 := rng _ _ a0'
    have r3 : |(SphericalPosition.fromCartesian v).declination| ≤ π / 2 := rng _ _ a0
    obtain ⟨k, hk⟩ := key
    have hq : δ / v.magnitude ≤ 1 / 100 := by rw [div_le_iff₀ hv]; linarith
    have hk0 : k = 0 := by
      have hp := Real.pi_gt_three
      obtain ⟨b1, b2⟩ := _root_.abs_le.mp hk
      obtain ⟨c1, c2⟩ := _root_.abs_le.mp r2
      obtain ⟨c3, c4⟩ := _root_.abs_le.mp r3
      have h1 : (k : ℝ) < 1 := by
        by_contra hn
        push Not at hn
        have : 2 * π * 1 ≤ 2 * π * k := by gcongr
        norm_num at b1 b2
        linarith
      have h2 : (-1 : ℝ) < k := by
        by_contra hn
        push Not at hn
        have : 2 * π * k ≤ 2 * π * (-1) := by gcongr
        norm_num at b1 b2
        linarith
      have h1' : k < 1 := by exact_mod_cast h1
      have h2' : -1 < k := by exact_mod_cast h2
      omega
    rw [hk0] at hk
    simp only [Int.cast_zero, mul_zero, add_zero] at hk
    have := abs_sub_le (fromCartesian lib v').declination (SphericalPosition.fromCartesian v').declination
      (SphericalPosition.fromCartesian v).declination
    linarith
  · intro hv hs
    have a1 := Real.mul_self_sqrt (show 0 ≤ v.x * v.x + v.y * v.y by nlinarith [mul_self_nonneg v.x, mul_self_nonneg v.y])
    have h1 := atan2_wrapped hatan (x := v.x) (y := v.y) (x' := v'.x) (y' := v'.y) hv a1.symm d0 (by nlinarith [sq_nonneg (v'.z - v.z)]) hs
    exact (h1.trans (wrapNeg_angle _).symm).mono (by linarith)

end Openspace.F64
