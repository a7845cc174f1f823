import Verif.Props.Cases
import Verif.Spec.Visibility

/-!
# Property C131: a detected target is in view

The camera keeps a fixed angle of 20 degrees to the centre of the Earth and 10 degrees to the centre of the Moon, and
does not know the Earth's shadow.
-/

namespace Openspace

open Real Spacecraft Spec

/-- a ray that starts at least an angle `L` away from the direction of a point keeps a distance from it -/
theorem ray_distance {p d : Vec3} {L a : ℝ} (hL : 0 ≤ L) (ha : (p.scaled (-1)).angle d = .ok a) (hLa : L ≤ a) (t : ℝ)
    (ht : 0 ≤ t) : p.magnitude * sin L ≤ (p.plus (d.scaled t)).magnitude := by
  obtain ⟨⟨h1, h2⟩, h3⟩ := Vec3.angle_eq_ok.mp ha
  have hc := abs_le.mp (Vec3.cauchy' (p.scaled (-1)) d)
  have hcos : cos a ≤ cos L := cos_le_cos_of_nonneg_of_le_pi hL (by rw [h3]; exact arccos_le_pi _) hLa
  rw [h3, cos_arccos hc.1 hc.2, div_le_iff₀ (mul_pos (Vec3.magnitude_pos.mpr h1) (Vec3.magnitude_pos.mpr h2)),
    Vec3.magnitude_scaled, abs_neg, abs_one, one_mul, Vec3.dot_scaled_left] at hcos
  have hp := p.magnitude_nonneg
  have hd := d.magnitude_nonneg
  refine le_of_sq_le_sq ?_ (Vec3.magnitude_nonneg _)
  have e : (p.plus (d.scaled t)).magnitude ^ 2 = p.magnitude ^ 2 + 2 * t * p.dot d + t ^ 2 * d.magnitude ^ 2 := by
    simp only [Vec3.magnitude_sq_dot, Vec3.dot, Vec3.plus, Vec3.scaled]; ring
  rw [e]
  have hsc := sin_sq_add_cos_sq L
  have h5 : t * (-1 * p.dot d) ≤ t * (cos L * (p.magnitude * d.magnitude)) := mul_le_mul_of_nonneg_left hcos ht
  nlinarith [sq_nonneg (t * d.magnitude - cos L * p.magnitude)]

/-- What holds: after every history, for a detected target the line of sight, and the ray beyond the target, keeps a
distance of `sin 20° = 0.34` times the observer's distance from the centre of the Earth, and of `sin 10° = 0.17` times
its distance from the centre of the Moon; an observer at least `Earth.RADIUS / sin 20°` = 18649 km from the centre of
the Earth has a free line of sight to every target it detects -/
theorem C131_partial {ι : Type} [DecidableEq ι] (w : World ι) (hw : Fresh w) (d : ℕ) (cs : List (Call ι)) (i j : ι)
    (h : (after d cs w i).detect (after d cs w j) = .ok true) :
    ∃ M, Moon.getPosition (after d cs w i).currentEpoch = .ok M ∧ ∀ p q t, p = (after d cs w i).position →
      q = (after d cs w j).position → 0 ≤ t →
      p.magnitude * sin (π / 9) ≤ (sightPoint p q t).magnitude ∧
      (M.minus p).magnitude * sin (π / 18) ≤ (M.minus (sightPoint p q t)).magnitude ∧
      (Earth.RADIUS / sin (π / 9) ≤ p.magnitude → ¬ InsideEllipsoid (sightPoint p q t)) := by
  have hcam : DefaultCamera (after d cs w i) := after_all defaultCamera_stable d cs (fresh_defaultCamera hw) i
  obtain ⟨-, l2, l3, -, -⟩ := wfov_limits hcam
  obtain ⟨sun, earth, moon, vm, bore, -, h2, h3, -, -, -, h7, h8, -, -⟩ := (C66_true _ _).mp h
  rw [l2] at h7
  rw [l3] at h8
  obtain ⟨M, hM, -, -⟩ := C30_moon (after d cs w i).currentEpoch
  refine ⟨M, hM, ?_⟩
  rintro p q t rfl rfl ht
  obtain ⟨p, hp⟩ : ∃ p, p = (after d cs w i).position := ⟨_, rfl⟩
  obtain ⟨q, hq⟩ : ∃ q, q = (after d cs w j).position := ⟨_, rfl⟩
  have hE : (p.scaled (-1)).angle (q.minus p) = .ok earth := by rw [hp, hq]; exact h2
  have hMo : (((M.minus p).scaled (-1)).scaled (-1)).angle (q.minus p) = .ok moon := by
    have e : ((M.minus p).scaled (-1)).scaled (-1) = M.minus p := by ext <;> simp [Vec3.scaled]
    rw [e, hp, hq]
    have : (after d cs w i).moonVector = .ok (M.minus (after d cs w i).position) := by
      show GCRF.moonVector (after d cs w i).currentState = _
      have hM' : Moon.getPosition (after d cs w i).currentState.epoch = .ok M := hM
      simp only [GCRF.moonVector, hM', ok_bind, pure_eq_ok]; rfl
    unfold moonAngle at h3
    rw [this, ok_bind] at h3
    exact h3
  rw [← hp, ← hq]
  have e1 : sightPoint p q t = p.plus ((q.minus p).scaled t) := by
    ext <;> simp only [sightPoint, Vec3.plus, Vec3.minus, Vec3.scaled] <;> ring
  have e2 : (M.minus (sightPoint p q t)).magnitude = (((M.minus p).scaled (-1)).plus ((q.minus p).scaled t)).magnitude := by
    have : M.minus (sightPoint p q t) = (((M.minus p).scaled (-1)).plus ((q.minus p).scaled t)).scaled (-1) := by
      ext <;> simp only [sightPoint, Vec3.plus, Vec3.minus, Vec3.scaled] <;> ring
    rw [this, Vec3.magnitude_scaled, abs_neg, abs_one, one_mul]
  have hpi := pi_pos
  have r1 := ray_distance (by positivity) hE h7 t ht
  have r2 := ray_distance (by positivity) hMo h8 t ht
  rw [Vec3.magnitude_scaled, abs_neg, abs_one, one_mul] at r2
  rw [e2]
  refine ⟨by rw [e1]; exact r1, r2, fun hfar hin => ?_⟩
  have hs : 0 < sin (π / 9) := sin_pos_of_pos_of_lt_pi (by positivity) (by linarith)
  rw [div_le_iff₀ hs] at hfar
  rw [← e1] at r1
  have hR : Earth.RADIUS ≤ (sightPoint p q t).magnitude := hfar.trans r1
  obtain ⟨x, hx⟩ : ∃ x, x = sightPoint p q t := ⟨_, rfl⟩
  rw [← hx] at hR hin
  have h1 : Earth.RADIUS ^ 2 ≤ x.magnitude ^ 2 := by
    have : (0:ℝ) ≤ Earth.RADIUS := by norm_num [Earth.RADIUS]
    gcongr
  rw [Vec3.magnitude_sq] at h1
  unfold InsideEllipsoid at hin
  have ha : 0 < semiMajor := by norm_num [semiMajor, Earth.RADIUS]
  have hb : 0 < semiMinor := by norm_num [semiMinor, Earth.RADIUS, Earth.FLATTENING]
  have hba : semiMinor ≤ semiMajor := by norm_num [semiMinor, semiMajor, Earth.RADIUS, Earth.FLATTENING]
  have h2 : x.z ^ 2 / semiMajor ^ 2 ≤ x.z ^ 2 / semiMinor ^ 2 := by gcongr
  have h3 : (x.x ^ 2 + x.y ^ 2) / semiMajor ^ 2 + x.z ^ 2 / semiMajor ^ 2 < 1 := by linarith
  rw [← add_div, div_lt_one (by positivity)] at h3
  have : semiMajor = Earth.RADIUS := rfl
  rw [this] at h3
  linarith

/-- a call of `track_state` after which the first spacecraft, at `P`, detects the second, at `P + D` -/
theorem detects {M P D : Vec3} (hM : Moon.getPosition ⟨0⟩ = .ok M) (hP : P ≠ ⟨0, 0, 0⟩) (hD : D ≠ ⟨0, 0, 0⟩)
    (hPS : P.magnitude ≤ 100000) (hS : ((Sun.getPosition ⟨0⟩).minus P).dot D ≤ 0)
    (hE : (P.scaled (-1)).dot D ≤ √3 / 2 * (P.magnitude * D.magnitude))
    (hMD : (M.minus P).dot D ≤ √3 / 2 * ((M.minus P).magnitude * D.magnitude)) (hr : D.magnitude ≤ 100000) :
    ∃ w : World (Fin 2), Fresh w ∧ (after 2 [.trackState 0 1] w 0).position = P ∧
      (after 2 [.trackState 0 1] w 1).position = P.plus D ∧
      (after 2 [.trackState 0 1] w 0).currentEpoch = ⟨0⟩ ∧
      (after 2 [.trackState 0 1] w 0).detect (after 2 [.trackState 0 1] w 1) = .ok true := by
  obtain ⟨S, hSe⟩ : ∃ S, S = Sun.getPosition ⟨0⟩ := ⟨_, rfl⟩
  have hS1 := (C30_sun ⟨0⟩).1
  obtain ⟨M', hM', hM1, -⟩ := C30_moon ⟨0⟩
  rw [hM] at hM'
  cases hM'
  rw [← hSe] at hS1 hS
  have hSP : S.minus P ≠ ⟨0, 0, 0⟩ := Vec3.magnitude_pos.mp (by linarith [magnitude_minus_ge S P])
  have hMP : M.minus P ≠ ⟨0, 0, 0⟩ := Vec3.magnitude_pos.mp (by linarith [magnitude_minus_ge M P])
  have hPn : P.scaled (-1) ≠ ⟨0, 0, 0⟩ := by
    apply Vec3.magnitude_pos.mp
    rw [Vec3.magnitude_scaled, abs_neg, abs_one, one_mul]
    exact Vec3.magnitude_pos.mpr hP
  have hDm := Vec3.magnitude_pos.mpr hD
  obtain ⟨w, hw, hg⟩ := exists_fresh (ι := Fin 2) fun k =>
    GCRF.new ⟨0⟩ (P.plus (D.scaled (k.val : ℝ))) ⟨0, 3.07, 0⟩
  have hprop : ∀ k, (w k).position = P.plus (D.scaled (k.val : ℝ)) ∧ (w k).currentEpoch = ⟨0⟩ := by
    intro k
    obtain ⟨s, h1, -, -, h2, -⟩ := new_ok (ι := Fin 2) (GCRF.new ⟨0⟩ (P.plus (D.scaled (k.val : ℝ))) ⟨0, 3.07, 0⟩)
    rw [hg k] at h1
    cases h1
    rw [position_eq, currentEpoch_eq, h2]
    exact ⟨rfl, rfl⟩
  have hp0 : (w 0).position = P := by rw [(hprop 0).1]; ext <;> simp [Vec3.plus, Vec3.scaled]
  have hp1 : (w 1).position = P.plus D := by rw [(hprop 1).1]; ext <;> simp [Vec3.plus, Vec3.scaled]
  have hd : (w 1).position.minus (w 0).position = D := by
    rw [hp0, hp1]; ext <;> simp [Vec3.plus, Vec3.minus]
  have hm : (w 0).steering ≠ TARGET := by rw [(fresh_fields hw 0).1]; decide
  have hb : (w 0).body_z ≠ ⟨0, 0, 0⟩ := by
    rw [(C60_modes w hw 0 [] 0).2.2.1, hp0]; exact hPn
  obtain ⟨w', h1⟩ := first_track_ok 1 w 0 1 hm hb (by rw [hd]; exact hD) (by rw [(hprop 0).2, (hprop 1).2])
  have hk : ∀ k, (w' k).propagator = (w k).propagator := fun k =>
    request_keeps (c := .trackState 0 1) rfl h1 k (by rw [(hprop k).2, (hprop 0).2])
  have hpos' : ∀ k, (w' k).position = (w k).position := by intro k; rw [position_eq, position_eq, hk]
  have hz := (C63_partial 2 w w' (.trackState 0 1) 0 1 (Or.inl rfl) hm h1).2.2
  have hd' : (w' 1).position.minus (w' 0).position = D := by rw [hpos', hpos', hd]
  rw [hd'] at hz
  have haft : after 2 [.trackState 0 1] w = w' := by
    show ((Call.trackState 0 1).run 2 w).2 = w'
    rw [h1]
  have hcam : DefaultCamera (w' 0) := by
    rw [← haft]; exact after_all defaultCamera_stable 2 _ (fresh_defaultCamera hw) 0
  obtain ⟨-, hal, hrad⟩ : SensorDefaults (w' 0) := by
    rw [← haft]; exact after_all sensorDefaults_stable 2 _ (fresh_sensorDefaults hw) 0
  obtain ⟨l1, l2, l3, l4, l5⟩ := wfov_limits hcam
  have hep' : (w' 0).currentEpoch = ⟨0⟩ := by rw [currentEpoch_eq, hk, ← currentEpoch_eq, (hprop 0).2]
  have hep : (w' 0).currentState.epoch = ⟨0⟩ := hep'
  have hps' : (w' 0).position = P := by rw [hpos', hp0]
  have hps : (w' 0).currentState.position = P := hps'
  have htv : (w' 0).targetVector (w' 1) = D := hd'
  have hsv : (w' 0).sunVector = S.minus P := by
    show Vec3.minus (Sun.getPosition (w' 0).currentState.epoch) (w' 0).currentState.position = _
    rw [hep, hps, ← hSe]
  have hmv : (w' 0).moonVector = .ok (M.minus P) := by
    show GCRF.moonVector (w' 0).currentState = _
    simp only [GCRF.moonVector, hep, hps, hM, ok_bind, pure_eq_ok]
  have hev : (w' 0).earthVector = P.scaled (-1) := by
    show ((w' 0).position).scaled (-1) = _
    rw [hpos', hp0]
  obtain ⟨sun, hsun⟩ : ∃ sun, sun = arccos ((S.minus P).dot D / ((S.minus P).magnitude * D.magnitude)) := ⟨_, rfl⟩
  have hsa : (w' 0).sunAngle (w' 1) = .ok sun := by
    unfold sunAngle
    rw [htv, hsv, Vec3.angle_ok hSP hD, hsun]
  have hsun2 : π / 2 ≤ sun := by
    rw [hsun, ← arccos_zero]
    exact arccos_le_arccos (div_nonpos_of_nonpos_of_nonneg hS (mul_nonneg (Vec3.magnitude_nonneg _) (Vec3.magnitude_nonneg _)))
  have hsunp : sun ≤ π := by rw [hsun]; exact arccos_le_pi _
  have hpi := pi_pos
  have hsix : ∀ {a b : Vec3}, a ≠ ⟨0, 0, 0⟩ → b ≠ ⟨0, 0, 0⟩ → a.dot b ≤ √3 / 2 * (a.magnitude * b.magnitude) →
      π / 6 ≤ arccos (a.dot b / (a.magnitude * b.magnitude)) := by
    intro a b ha hb h
    rw [← arccos_cos (by positivity : 0 ≤ π / 6) (by linarith : π / 6 ≤ π), cos_pi_div_six]
    apply arccos_le_arccos
    rw [div_le_iff₀ (mul_pos (Vec3.magnitude_pos.mpr ha) (Vec3.magnitude_pos.mpr hb))]
    exact h
  have hPmag : (P.scaled (-1)).magnitude = P.magnitude := by rw [Vec3.magnitude_scaled, abs_neg, abs_one, one_mul]
  refine ⟨w, hw, by rw [haft, hps'], by rw [haft, hpos', hp1], by rw [haft, hep'], ?_⟩
  rw [haft, C66_true]
  have hvm := visualMagnitude_eq hsa (by linarith) (by rw [hal]; norm_num) (by rw [hrad]; norm_num) (by rw [htv]; exact hD)
  rw [hal, hrad, show (w' 0).range (w' 1) = D.magnitude by unfold Spacecraft.range; rw [htv]] at hvm
  refine ⟨sun, arccos ((P.scaled (-1)).dot D / ((P.scaled (-1)).magnitude * D.magnitude)),
    arccos ((M.minus P).dot D / ((M.minus P).magnitude * D.magnitude)), _, 0, hsa, ?_, ?_, hvm.2, ?_, ?_, ?_, ?_, ?_, ?_⟩
  · unfold earthAngle
    rw [htv, hev, Vec3.angle_ok hPn hD]
  · unfold moonAngle
    rw [hmv, ok_bind, htv, Vec3.angle_ok hMP hD]
  · rw [hz, htv, Vec3.angle_ok hD hD, ← Vec3.magnitude_sq_dot, ← sq, div_self (by positivity), arccos_one]
  · rw [l1]; exact hsun2
  · rw [l2]
    have := hsix hPn hD (by rw [hPmag]; exact hE)
    linarith
  · rw [l3]
    have := hsix hMP hD hMD
    linarith
  · rw [l4]
    have hlog : (-16.6 : ℝ) ≤ logb 10 (2 / 3 * 0.3 * 0.005 ^ 2 / (π * D.magnitude ^ 2) * Spec.lambert sun) := by
      refine le_trans (by norm_num : (-16.6 : ℝ) ≤ -16) ?_
      rw [le_logb_iff_rpow_le (by norm_num) hvm.1, show ((10 : ℝ) ^ (-16 : ℝ)) = 10 ^ (-16 : ℤ) by
        rw [← Real.rpow_intCast]; norm_num]
      have hl : 1 ≤ Spec.lambert sun := by
        have h90 : Spec.lambert (π / 2) = 1 := by
          rw [Spec.lambert, show π - π / 2 = π / 2 by ring, sin_pi_div_two, cos_pi_div_two]; ring
        rw [← h90]
        exact phase_strictMono.monotoneOn ⟨by positivity, by linarith⟩ ⟨by linarith, hsunp⟩ hsun2
      have h4 := pi_lt_d2
      have hq : (1e-16 : ℝ) ≤ 2 / 3 * 0.3 * 0.005 ^ 2 / (π * D.magnitude ^ 2) := by
        rw [le_div_iff₀ (by positivity)]
        have : π * D.magnitude ^ 2 ≤ 3.15 * 100000 ^ 2 := by gcongr
        norm_num at this ⊢
        linarith
      calc (10 : ℝ) ^ (-16 : ℤ) = 1e-16 * 1 := by norm_num
        _ ≤ _ := by gcongr
    linarith
  · rw [l5]; positivity

/-- the direction of the Sun, and a direction at right angles to it and to the direction of the Moon -/
theorem sun_frame (M : Vec3) : ∃ (s u : Vec3) (r : ℝ), s.dot s = 1 ∧ u.dot u = 1 ∧ s.dot u = 0 ∧ M.dot u = 0 ∧ 1.47e8 ≤ r ∧
    Sun.getPosition ⟨0⟩ = s.scaled r := by
  have hS1 := (C30_sun ⟨0⟩).1
  obtain ⟨S, hSe⟩ : ∃ S, S = Sun.getPosition ⟨0⟩ := ⟨_, rfl⟩
  rw [← hSe] at hS1 ⊢
  have hm : 0 < S.magnitude := by linarith
  obtain ⟨u, hu, u1, u2, -⟩ := exists_direction S M M
  refine ⟨S.scaled (1 / S.magnitude), u, S.magnitude, ?_, ?_, ?_, u2, by linarith, ?_⟩
  · rw [← Vec3.magnitude_sq_dot, Vec3.magnitude_scaled, abs_of_pos (by positivity)]
    field_simp
  · rw [← Vec3.magnitude_sq_dot, hu]; norm_num
  · rw [Vec3.dot_scaled_left, u1, mul_zero]
  · ext <;> simp only [Vec3.scaled] <;> field_simp

/-- vectors in the plane of two unit vectors at right angles -/
theorem plane_dot {s u : Vec3} (h1 : s.dot s = 1) (h2 : u.dot u = 1) (h3 : s.dot u = 0) (a b c d : ℝ) :
    ((s.scaled a).plus (u.scaled b)).dot ((s.scaled c).plus (u.scaled d)) = a * c + b * d := by
  simp only [Vec3.dot, Vec3.plus, Vec3.scaled] at h1 h2 h3 ⊢
  linear_combination a * c * h1 + b * d * h2 + (a * d + b * c) * h3

theorem plane_magnitude {s u : Vec3} (h1 : s.dot s = 1) (h2 : u.dot u = 1) (h3 : s.dot u = 0) (a b r : ℝ) (hr : 0 ≤ r)
    (h : a * a + b * b = r ^ 2) : ((s.scaled a).plus (u.scaled b)).magnitude = r :=
  Vec3.magnitude_of_dot hr (by rw [plane_dot h1 h2 h3, h])

/-- witnesses in the plane of the Sun and a direction at right angles to Sun and Moon: the observer at `p` in the
direction of the Sun, the target `r` kilometres away, in the direction 53 degrees from the opposite of the Sun -/
theorem detects_in_plane (p r : ℝ) (hp : 0 < |p|) (hp' : |p| ≤ 50000) (hr : 0 < r) (hr' : r ≤ 100000) :
    ∃ (s u : Vec3) (d : ℝ) (w : World (Fin 2)), s.dot s = 1 ∧ u.dot u = 1 ∧ s.dot u = 0 ∧ 1.47e8 ≤ d ∧ Fresh w ∧
      Sun.getPosition ⟨0⟩ = s.scaled d ∧
      (after 2 [.trackState 0 1] w 0).position = (s.scaled p).plus (u.scaled 0) ∧
      (after 2 [.trackState 0 1] w 1).position = (s.scaled (p - 0.6 * r)).plus (u.scaled (0.8 * r)) ∧
      (after 2 [.trackState 0 1] w 0).currentEpoch = ⟨0⟩ ∧
      (after 2 [.trackState 0 1] w 0).detect (after 2 [.trackState 0 1] w 1) = .ok true := by
  obtain ⟨M, hM, hM1, -⟩ := C30_moon ⟨0⟩
  obtain ⟨s, u, d, h1, h2, h3, h4, hd, hS⟩ := sun_frame M
  have h3' : (1.7 : ℝ) < √3 := by
    rw [Real.lt_sqrt (by norm_num)]; norm_num
  obtain ⟨pl, pu⟩ := abs_le.mp hp'
  have hPm : ((s.scaled p).plus (u.scaled 0)).magnitude = |p| :=
    plane_magnitude h1 h2 h3 _ _ _ (abs_nonneg _) (by rw [sq_abs]; ring)
  have hDm : ((s.scaled (-(0.6 * r))).plus (u.scaled (0.8 * r))).magnitude = r :=
    plane_magnitude h1 h2 h3 _ _ _ hr.le (by ring)
  obtain ⟨w, hw, w1, w2, w3, w4⟩ := detects (P := (s.scaled p).plus (u.scaled 0))
    (D := (s.scaled (-(0.6 * r))).plus (u.scaled (0.8 * r))) hM (Vec3.magnitude_pos.mp (by rw [hPm]; exact hp))
    (Vec3.magnitude_pos.mp (by rw [hDm]; exact hr)) (by rw [hPm]; linarith) (by
      have : (Sun.getPosition ⟨0⟩).minus ((s.scaled p).plus (u.scaled 0)) = (s.scaled (d - p)).plus (u.scaled 0) := by
        rw [hS]; ext <;> simp only [Vec3.minus, Vec3.plus, Vec3.scaled] <;> ring
      rw [this, plane_dot h1 h2 h3]
      nlinarith) (by
      have : ((s.scaled p).plus (u.scaled 0)).scaled (-1) = (s.scaled (-p)).plus (u.scaled 0) := by
        ext <;> simp only [Vec3.plus, Vec3.scaled] <;> ring
      rw [this, plane_dot h1 h2 h3, hPm, hDm]
      have := le_abs_self p
      nlinarith [mul_pos hp hr]) (by
      have hge := magnitude_minus_ge M ((s.scaled p).plus (u.scaled 0))
      rw [hPm] at hge
      have e : (M.minus ((s.scaled p).plus (u.scaled 0))).dot ((s.scaled (-(0.6 * r))).plus (u.scaled (0.8 * r))) =
          0.6 * r * (p - M.dot s) := by
        simp only [Vec3.dot, Vec3.minus, Vec3.plus, Vec3.scaled] at h1 h2 h3 h4 ⊢
        linear_combination 0.6 * r * p * h1 + 0.8 * r * h4 - 0.8 * r * p * h3
      have hc := abs_le.mp (Vec3.cauchy M s)
      rw [Vec3.magnitude_unit h1, mul_one] at hc
      rw [e, hDm]
      have hx : 0.6 * (p - M.dot s) ≤ √3 / 2 * (M.minus ((s.scaled p).plus (u.scaled 0))).magnitude := by
        have : 0.85 * (M.minus ((s.scaled p).plus (u.scaled 0))).magnitude ≤
            √3 / 2 * (M.minus ((s.scaled p).plus (u.scaled 0))).magnitude :=
          mul_le_mul_of_nonneg_right (by linarith) (Vec3.magnitude_nonneg _)
        have := le_abs_self p
        linarith [hc.1]
      nlinarith) (by rw [hDm]; exact hr')
  refine ⟨s, u, d, w, h1, h2, h3, hd, hw, hS, w1, ?_, w3, w4⟩
  rw [w2]
  ext <;> simp only [Vec3.plus, Vec3.scaled] <;> ring

theorem inside_of_magnitude {x : Vec3} (h : x.magnitude ≤ 6300) : InsideEllipsoid x := by
  have ha : 0 < semiMinor := by norm_num [semiMinor, Earth.RADIUS, Earth.FLATTENING]
  have hb : (6300 : ℝ) < semiMinor := by norm_num [semiMinor, Earth.RADIUS, Earth.FLATTENING]
  have hba : semiMinor ≤ semiMajor := by norm_num [semiMinor, semiMajor, Earth.RADIUS, Earth.FLATTENING]
  have h1 : x.magnitude ^ 2 ≤ 6300 ^ 2 := by have := x.magnitude_nonneg; gcongr
  rw [Vec3.magnitude_sq] at h1
  unfold InsideEllipsoid
  calc (x.x ^ 2 + x.y ^ 2) / semiMajor ^ 2 + x.z ^ 2 / semiMinor ^ 2
      ≤ (x.x ^ 2 + x.y ^ 2) / semiMinor ^ 2 + x.z ^ 2 / semiMinor ^ 2 := by gcongr
    _ = (x.x ^ 2 + x.y ^ 2 + x.z ^ 2) / semiMinor ^ 2 := by ring
    _ < 1 := by
      rw [div_lt_one (by positivity)]
      have : (6300:ℝ) ^ 2 < semiMinor ^ 2 := by gcongr
      linarith

/-- The property is false: a spacecraft 7000 km from the centre of the Earth detects another one, 11287 km from it,
on the other side of the Earth -/
theorem C131_violated : ∃ w : World (Fin 2), Fresh w ∧ ∃ p q, p = (after 2 [.trackState 0 1] w 0).position ∧
    q = (after 2 [.trackState 0 1] w 1).position ∧
    (after 2 [.trackState 0 1] w 0).detect (after 2 [.trackState 0 1] w 1) = .ok true ∧
    p.magnitude = 7000 ∧ 11000 ≤ q.magnitude ∧ ∃ t, 0 < t ∧ t < 1 ∧ InsideEllipsoid (sightPoint p q t) := by
  obtain ⟨s, u, d, w, h1, h2, h3, -, hw, -, w1, w2, -, w4⟩ := detects_in_plane 7000 14000 (by norm_num)
    (by rw [abs_of_pos] <;> norm_num) (by norm_num) (by norm_num)
  refine ⟨w, hw, _, _, w1.symm, w2.symm, w4, plane_magnitude h1 h2 h3 _ _ _ (by norm_num) (by norm_num), ?_, 0.3,
    by norm_num, by norm_num, inside_of_magnitude ?_⟩
  · refine le_of_sq_le_sq ?_ (Vec3.magnitude_nonneg _)
    rw [Vec3.magnitude_sq_dot, plane_dot h1 h2 h3]; norm_num
  · have : sightPoint ((s.scaled 7000).plus (u.scaled 0)) ((s.scaled (7000 - 0.6 * 14000)).plus (u.scaled (0.8 * 14000))) 0.3
        = (s.scaled 4480).plus (u.scaled 3360) := by
      ext <;> simp only [sightPoint, Vec3.plus, Vec3.scaled] <;> ring
    rw [this, plane_magnitude h1 h2 h3 _ _ 5600 (by norm_num) (by norm_num)]
    norm_num

/-- A target in the Earth's shadow is detected: between it and the Sun is the Earth -/
theorem C131_shadow_violated : ∃ w : World (Fin 2), Fresh w ∧ ∃ q, q = (after 2 [.trackState 0 1] w 1).position ∧
    (after 2 [.trackState 0 1] w 0).detect (after 2 [.trackState 0 1] w 1) = .ok true ∧ 10000 ≤ q.magnitude ∧
    ∃ t, 0 < t ∧ t < 1 ∧
      InsideEllipsoid (sightPoint q (Sun.getPosition (after 2 [.trackState 0 1] w 0).currentEpoch) t) := by
  obtain ⟨s, u, d, w, h1, h2, h3, hd, hw, hS, w1, w2, w3, w4⟩ := detects_in_plane (-10000) 100 (by norm_num)
    (by rw [abs_of_neg] <;> norm_num) (by norm_num) (by norm_num)
  have hd' : 0 < 10060 + d := by linarith
  refine ⟨w, hw, _, w2.symm, w4, ?_, 10060 / (10060 + d), by positivity, by rw [div_lt_one hd']; linarith,
    inside_of_magnitude ?_⟩
  · refine le_of_sq_le_sq ?_ (Vec3.magnitude_nonneg _)
    rw [Vec3.magnitude_sq_dot, plane_dot h1 h2 h3]; norm_num
  · rw [w3, hS]
    obtain ⟨t, ht⟩ : ∃ t, t = 10060 / (10060 + d) := ⟨_, rfl⟩
    have ht' : t * (10060 + d) = 10060 := by rw [ht]; field_simp
    have ht0 : 0 ≤ t := by rw [ht]; positivity
    have ht1 : t ≤ 1 := by rw [ht, div_le_one hd']; linarith
    rw [← ht]
    have : sightPoint ((s.scaled (-10000 - 0.6 * 100)).plus (u.scaled (0.8 * 100))) (s.scaled d) t
        = (s.scaled 0).plus (u.scaled (80 * (1 - t))) := by
      ext <;> simp only [sightPoint, Vec3.plus, Vec3.scaled]
      · linear_combination s.x * ht'
      · linear_combination s.y * ht'
      · linear_combination s.z * ht'
    rw [this, plane_magnitude h1 h2 h3 _ _ (80 * (1 - t)) (by linarith) (by ring)]
    linarith

/-- an observer in geostationary distance with a target 1000 km away meets the hypotheses of `C131_partial` and is
beyond 18649 km -/
example : ∃ w : World (Fin 2), Fresh w ∧
    (after 2 [.trackState 0 1] w 0).detect (after 2 [.trackState 0 1] w 1) = .ok true ∧
    Earth.RADIUS / sin (π / 9) ≤ (after 2 [.trackState 0 1] w 0).position.magnitude := by
  obtain ⟨s, u, d, w, h1, h2, h3, hd, hw, hS, w1, w2, w3, w4⟩ := detects_in_plane 42164 1000 (by norm_num)
    (by rw [abs_of_pos] <;> norm_num) (by norm_num) (by norm_num)
  refine ⟨w, hw, w4, ?_⟩
  rw [w1, plane_magnitude h1 h2 h3 _ _ 42164 (by norm_num) (by norm_num)]
  have hs : 0.2 ≤ sin (π / 9) := by
    have h := mul_le_sin (show 0 ≤ π / 9 by positivity) (by linarith [pi_pos])
    have : 2 / π * (π / 9) = 2 / 9 := by field_simp
    linarith
  rw [div_le_iff₀ (by linarith)]
  norm_num [Earth.RADIUS]
  linarith

end Openspace
