import Verif.Model.DoubleForces
import Verif.Lemmas.DoubleSunMoon
import Verif.Props.Forces

/-! # Errors of the accelerations in double precision -/

namespace Openspace.F64

open Real

/-! ## vectors -/

theorem plus_round (a b : Vec3) : ((plus a b).minus (a.plus b)).magnitude ≤ u * (a.plus b).magnitude :=
  components_le (e := (plus a b).minus (a.plus b)) (a := a.plus b) u_pos.le (rnd_u _) (rnd_u _) (rnd_u _)

theorem minus_round (a b : Vec3) : ((minus a b).minus (a.minus b)).magnitude ≤ u * (a.minus b).magnitude :=
  components_le (e := (minus a b).minus (a.minus b)) (a := a.minus b) u_pos.le (rnd_u _) (rnd_u _) (rnd_u _)

theorem magnitude_le_of_minus (a b : Vec3) : a.magnitude ≤ b.magnitude + (a.minus b).magnitude := by
  have := (abs_le.mp (magnitude_sub_le a b)).2
  linarith

theorem magnitude_ge_of_minus (a b : Vec3) : b.magnitude - (a.minus b).magnitude ≤ a.magnitude := by
  have := (abs_le.mp (magnitude_sub_le a b)).1
  linarith

/-- the difference of two differences -/
theorem minus_minus_le (a b a' b' : Vec3) :
    ((a'.minus b').minus (a.minus b)).magnitude ≤ (a'.minus a).magnitude + (b'.minus b).magnitude := by
  have e : (a'.minus b').minus (a.minus b) = (a'.minus a).minus (b'.minus b) := by
    ext <;> simp [Vec3.minus] <;> ring
  rw [e]; exact Vec3.magnitude_minus_le _ _

theorem plus_plus_le (a b a' b' : Vec3) :
    ((a'.plus b').minus (a.plus b)).magnitude ≤ (a'.minus a).magnitude + (b'.minus b).magnitude := by
  have e : (a'.plus b').minus (a.plus b) = (a'.minus a).plus (b'.minus b) := by
    ext <;> simp [Vec3.minus, Vec3.plus] <;> ring
  rw [e]; exact Vec3.magnitude_plus_le _ _

/-! ## the inverse square law -/

theorem cube_near {m' m : ℝ} (h : Near m' m 4.2) : Near (cube m') (m * m * m) 14.7 := by
  have h2 := (h.mul' h (by norm_num) (by norm_num) (by norm_num) (by norm_num)).round' (by norm_num) (by norm_num)
  have h3 := (h2.mul' h (by norm_num) (by norm_num) (by norm_num) (by norm_num)).round' (by norm_num) (by norm_num)
  exact h3.mono (by norm_num)

/-- `v / |v|³` -/
noncomputable def field (v : Vec3) : Vec3 := v.scaled (1 / (v.magnitude * v.magnitude * v.magnitude))

theorem field_magnitude (v : Vec3) (h : 0 < v.magnitude) : (field v).magnitude = 1 / v.magnitude ^ 2 := by
  rw [field, Vec3.magnitude_scaled_abs, abs_of_pos (by positivity)]
  field_simp

theorem field_round {a : Vec3} (h : 0 < a.magnitude) : ∃ k, div 1 (cube (magnitude a)) = .ok k ∧
    ((scaled a k).minus (field a)).magnitude ≤ 17 * u * (1 / a.magnitude ^ 2) := by
  have hu := u_pos
  obtain ⟨h1, h2⟩ := (Near.refl (1 : ℝ)).div' (cube_near (magnitude_near a)) (by positivity) (by norm_num) le_rfl
    (by norm_num) (by norm_num)
  refine ⟨_, div_ok h1, ?_⟩
  have h3 := scaled_round (a := a) (h2.round' (by norm_num) (by norm_num)) (by norm_num) (by norm_num)
  have e : |1 / (a.magnitude * a.magnitude * a.magnitude)| * a.magnitude = 1 / a.magnitude ^ 2 := by
    rw [abs_of_pos (by positivity)]; field_simp
  rw [e] at h3
  refine h3.trans ?_
  gcongr
  norm_num

theorem inverse_cubes {A B D ρ : ℝ} (hρ : 0 < ρ) (hA : ρ ≤ A) (hB : ρ ≤ B) (h : |A - B| ≤ D) :
    D * (1 / (B * B * B)) + |1 / (A * A * A) - 1 / (B * B * B)| * A ≤ 4 * D / ρ ^ 3 := by
  have hA0 : 0 < A := by linarith
  have hB0 : 0 < B := by linarith
  have hD : 0 ≤ D := (abs_nonneg _).trans h
  have e1 : |1 / (A * A * A) - 1 / (B * B * B)| * A = |A - B| * (1 / (B * B * B) + 1 / (A * B * B) + 1 / (A * A * B)) := by
    rw [show 1 / (A * A * A) - 1 / (B * B * B) = -((A - B) * ((A * A + A * B + B * B) / (A * A * A * (B * B * B)))) by
      field_simp; ring, abs_neg, abs_mul, abs_of_pos (by positivity :
      0 < (A * A + A * B + B * B) / (A * A * A * (B * B * B)))]
    field_simp
  have c1 : 1 / (B * B * B) ≤ 1 / ρ ^ 3 := by
    rw [show ρ ^ 3 = ρ * ρ * ρ by ring]; gcongr
  have c2 : 1 / (A * B * B) ≤ 1 / ρ ^ 3 := by
    rw [show ρ ^ 3 = ρ * ρ * ρ by ring]; gcongr
  have c3 : 1 / (A * A * B) ≤ 1 / ρ ^ 3 := by
    rw [show ρ ^ 3 = ρ * ρ * ρ by ring]; gcongr
  rw [e1]
  calc _ ≤ D * (1 / ρ ^ 3) + D * (1 / ρ ^ 3 + 1 / ρ ^ 3 + 1 / ρ ^ 3) := by gcongr
    _ = _ := by ring

/-- the inverse square law outside a sphere -/
theorem field_lipschitz {a b : Vec3} {ρ : ℝ} (hρ : 0 < ρ) (ha : ρ ≤ a.magnitude) (hb : ρ ≤ b.magnitude) :
    ((field a).minus (field b)).magnitude ≤ 4 * (a.minus b).magnitude / ρ ^ 3 := by
  obtain ⟨α, hα⟩ : ∃ α, α = 1 / (a.magnitude * a.magnitude * a.magnitude) := ⟨_, rfl⟩
  obtain ⟨β, hβ⟩ : ∃ β, β = 1 / (b.magnitude * b.magnitude * b.magnitude) := ⟨_, rfl⟩
  have hβ0 : 0 < β := by rw [hβ]; have : 0 < b.magnitude := by linarith
                         positivity
  have t := minus_triangle (a.scaled α) (a.scaled β) (b.scaled β)
  have e1 : (a.scaled α).minus (a.scaled β) = a.scaled (α - β) := by ext <;> simp [Vec3.scaled, Vec3.minus] <;> ring
  have e2 : (a.scaled β).minus (b.scaled β) = (a.minus b).scaled β := by ext <;> simp [Vec3.scaled, Vec3.minus] <;> ring
  rw [e1, e2, Vec3.magnitude_scaled_abs, Vec3.magnitude_scaled_abs, abs_of_pos hβ0] at t
  have k := inverse_cubes hρ ha hb (magnitude_sub_le a b)
  rw [← hα, ← hβ] at k
  rw [field, field, ← hα, ← hβ]
  linarith

/-- the rounded field of a rounded vector -/
theorem field_error {a' a : Vec3} {ρ ε : ℝ} (hρ : 0 < ρ) (ha' : ρ ≤ a'.magnitude) (ha : ρ ≤ a.magnitude)
    (h : (a'.minus a).magnitude ≤ ε) : ∃ k, div 1 (cube (magnitude a')) = .ok k ∧
    ((scaled a' k).minus (field a)).magnitude ≤ 17 * u / ρ ^ 2 + 4 * ε / ρ ^ 3 := by
  have hu := u_pos
  obtain ⟨k, h1, h2⟩ := field_round (a := a') (by linarith)
  refine ⟨k, h1, ?_⟩
  have t := minus_triangle (scaled a' k) (field a') (field a)
  have l := field_lipschitz hρ ha' ha
  have l2 : 4 * (a'.minus a).magnitude / ρ ^ 3 ≤ 4 * ε / ρ ^ 3 := by gcongr
  have l3 : 17 * u * (1 / a'.magnitude ^ 2) ≤ 17 * u / ρ ^ 2 := by
    rw [mul_one_div]; gcongr
  linarith

theorem thirdBody_exact {s p : Vec3} (mu : ℝ) (hs : 0 < s.magnitude) (hr : 0 < (s.minus p).magnitude) :
    GCRF.thirdBody s p mu = .ok (((field (s.minus p)).minus (field s)).scaled mu) := by
  simp only [GCRF.thirdBody]
  rw [pyDiv_ok (by positivity), ok_bind, pyDiv_ok (by positivity), ok_bind, pure_eq_ok, field, field]

theorem third_numbers {U m E d' x y G : ℝ} (hm : 0 ≤ m) (hU : 0 ≤ U) (hU' : U ≤ 1e-10) (hE : 0 ≤ E)
    (hx : x ≤ 2 * E + U * (2 * G + 2 * E)) (hd : d' ≤ 2 * G + x) (hy : y ≤ m * x + 2.01 * U * (m * d')) (hG : 0 ≤ G) :
    y ≤ m * (2.1 * E + 8 * (U * G)) := by
  have h1 : U * E ≤ 1e-10 * E := by gcongr
  have h2 : U * (U * G) ≤ 1e-10 * (U * G) := by gcongr
  have h3 : U * (U * E) ≤ 1e-10 * (U * E) := by gcongr
  have hUG : 0 ≤ U * G := mul_nonneg hU hG
  have hUE : 0 ≤ U * E := mul_nonneg hU hE
  have h4 : U * d' ≤ U * (2 * G + (2 * E + U * (2 * G + 2 * E))) := by gcongr; linarith
  have h5 : m * x ≤ m * (2 * E + U * (2 * G + 2 * E)) := by gcongr
  have h6 : 2.01 * U * (m * d') ≤ m * (2.01 * (U * (2 * G + (2 * E + U * (2 * G + 2 * E))))) := by
    have := mul_le_mul_of_nonneg_left h4 hm
    linarith
  have h7 : (2 * E + U * (2 * G + 2 * E)) + 2.01 * (U * (2 * G + (2 * E + U * (2 * G + 2 * E)))) ≤ 2.1 * E + 8 * (U * G) := by
    norm_num at h1 h2 h3 ⊢
    linarith
  have h8 := mul_le_mul_of_nonneg_left h7 hm
  linarith

/-- the acceleration by a body of which the position is known to `ε` -/
theorem thirdBody_error {s' s p : Vec3} {mu ρ ε S : ℝ} (hmu : 0 < mu) (hρ : 0 < ρ) (h : (s'.minus s).magnitude ≤ ε)
    (hS : s.magnitude ≤ S) (hs : ρ ≤ s.magnitude - ε) (hp : ρ ≤ s.magnitude - p.magnitude - (ε + u * (2 * S + ε))) :
    ∃ a' a, thirdBody s' p (rnd mu) = .ok a' ∧ GCRF.thirdBody s p mu = .ok a ∧
      (a'.minus a).magnitude ≤ mu * (2.1 * (17 * u / ρ ^ 2 + 4 * (ε + u * (2 * S + ε)) / ρ ^ 3) + 8 * (u * (1 / ρ ^ 2))) := by
  have hu := u_pos
  have hu' := u_tiny
  have hε : 0 ≤ ε := (Vec3.magnitude_nonneg _).trans h
  have hp0 := p.magnitude_nonneg
  have hS0 : 0 ≤ S := s.magnitude_nonneg.trans hS
  obtain ⟨η, hη⟩ : ∃ η, η = ε + u * (2 * S + ε) := ⟨_, rfl⟩
  have hεη : ε ≤ η := by rw [hη]; have : 0 ≤ u * (2 * S + ε) := by positivity
                         linarith
  have hη0 : 0 ≤ η := hε.trans hεη
  rw [← hη] at hp ⊢
  -- the vector from the satellite to the body
  have r1 := minus_round s' p
  have r2 := minus_minus_le s p s' p
  have r3 : (p.minus p).magnitude = 0 := by
    have : p.minus p = ⟨0, 0, 0⟩ := by ext <;> simp [Vec3.minus]
    rw [this]; simp [Vec3.magnitude, sqrtNN]
  have r4 := Vec3.magnitude_minus_le s' p
  have r5 := magnitude_le_of_minus s' s
  have r6 := magnitude_ge_of_minus s' s
  have r7 : u * (s'.minus p).magnitude ≤ u * (2 * S + ε) := by gcongr; linarith
  have r8 : ((minus s' p).minus (s.minus p)).magnitude ≤ η := by
    have := minus_triangle (minus s' p) (s'.minus p) (s.minus p)
    linarith
  have r9 := magnitude_minus_ge s p
  have r10 := magnitude_ge_of_minus (minus s' p) (s.minus p)
  obtain ⟨k1, e1, g1⟩ := field_error (a' := minus s' p) (a := s.minus p) hρ (by linarith) (by linarith) r8
  obtain ⟨k2, e2, g2⟩ := field_error (a' := s') (a := s) hρ (by linarith) (by linarith) (h.trans hεη)
  obtain ⟨E, hE⟩ : ∃ E, E = 17 * u / ρ ^ 2 + 4 * η / ρ ^ 3 := ⟨_, rfl⟩
  rw [← hE] at g1 g2 ⊢
  have hE0 : 0 ≤ E := by rw [hE]; positivity
  refine ⟨_, _, by simp only [thirdBody, e1, e2, ok_bind, pure_eq_ok]; rfl, thirdBody_exact mu (by linarith) (by linarith), ?_⟩
  obtain ⟨g, hg⟩ : ∃ g, g = minus (scaled (minus s' p) k1) (scaled s' k2) := ⟨_, rfl⟩
  rw [← hg]
  have m1 : (field (s.minus p)).magnitude ≤ 1 / ρ ^ 2 := by
    rw [field_magnitude _ (by linarith)]; gcongr; linarith
  have m2 : (field s).magnitude ≤ 1 / ρ ^ 2 := by
    rw [field_magnitude _ (by linarith)]; gcongr; linarith
  have d1 := minus_round (scaled (minus s' p) k1) (scaled s' k2)
  have d2 := minus_minus_le (field (s.minus p)) (field s) (scaled (minus s' p) k1) (scaled s' k2)
  have d3 := minus_triangle g ((scaled (minus s' p) k1).minus (scaled s' k2)) ((field (s.minus p)).minus (field s))
  rw [← hg] at d1
  have d4 := Vec3.magnitude_minus_le (field (s.minus p)) (field s)
  have d5 := magnitude_le_of_minus ((scaled (minus s' p) k1).minus (scaled s' k2)) ((field (s.minus p)).minus (field s))
  have d6 : u * ((scaled (minus s' p) k1).minus (scaled s' k2)).magnitude ≤ u * (2 * (1 / ρ ^ 2) + 2 * E) := by
    gcongr; linarith
  have d7 : (g.minus ((field (s.minus p)).minus (field s))).magnitude ≤ 2 * E + u * (2 * (1 / ρ ^ 2) + 2 * E) := by linarith
  have d8 := magnitude_le_of_minus g ((field (s.minus p)).minus (field s))
  have f1 := scaled_round (a := g) (near_rnd mu) (by norm_num) (by norm_num)
  have f2 := minus_triangle (scaled g (rnd mu)) (g.scaled mu) (((field (s.minus p)).minus (field s)).scaled mu)
  have f3 : (g.scaled mu).minus (((field (s.minus p)).minus (field s)).scaled mu) =
      (g.minus ((field (s.minus p)).minus (field s))).scaled mu := by
    ext <;> simp [Vec3.scaled, Vec3.minus] <;> ring
  rw [f3, Vec3.magnitude_scaled_abs] at f2
  rw [abs_of_pos hmu] at f1 f2
  exact third_numbers (d' := g.magnitude) hmu.le hu.le (by norm_num at hu' ⊢; linarith) hE0 d7 (by linarith) (by norm_num at f1 ⊢; linarith) (by positivity)

theorem near_minus {y x k : ℝ} (h : Near y x k) : Near (-y) (-x) k := by
  unfold Near at *
  rw [abs_neg, show -y - -x = -(y - x) by ring, abs_neg]; exact h

theorem quotient_close {x x' d : ℝ} (h : Near x' x 2.1) (hd : |d - 1000| ≤ 1.2e-7) :
    d ≠ 0 ∧ |rnd (x' / d) - x / 1000| ≤ 1.22e-10 * |x / 1000| := by
  have hu := u_pos
  have hu' := u_tiny
  norm_num at hd
  obtain ⟨d1, d2⟩ := abs_le.mp hd
  have hd0 : 0 < d := by linarith
  refine ⟨hd0.ne', ?_⟩
  have hx := abs_nonneg x
  have h1 : |x' / d - x / 1000| ≤ 1.21e-10 * (|x| / 1000) := by
    have e : x' / d - x / 1000 = ((x' - x) + x * ((1000 - d) / 1000)) / d := by field_simp; ring
    rw [e, abs_div, abs_of_pos hd0, div_le_iff₀ hd0]
    have a1 := abs_add_le (x' - x) (x * ((1000 - d) / 1000))
    have a2 : |x * ((1000 - d) / 1000)| ≤ |x| * 1.2e-10 := by
      rw [abs_mul, abs_div, abs_sub_comm, abs_of_pos (a := (1000 : ℝ)) (by norm_num)]
      gcongr
      rw [div_le_iff₀ (by norm_num)]
      norm_num; linarith
    have a3 : |x' - x| ≤ 2.1 * (12 / 10 ^ 17) * |x| := by
      unfold Near at h
      refine h.trans ?_
      gcongr
    have a4 : 1.21e-10 * (|x| / 1000) * 999.9 ≤ 1.21e-10 * (|x| / 1000) * d := by gcongr; norm_num; linarith
    norm_num only at a2 a3 a4 ⊢
    linarith
  have h2 := rnd_u (x' / d)
  have h3 := abs_sub_le (rnd (x' / d)) (x' / d) (x / 1000)
  have h4 := abs_sub_abs_le_abs_sub (x' / d) (x / 1000)
  have h6 : |x / 1000| = |x| / 1000 := by rw [abs_div, abs_of_pos (a := (1000 : ℝ)) (by norm_num)]
  rw [h6] at h4 ⊢
  have h5 : u * |x' / d| ≤ 12 / 10 ^ 17 * (1.1 * (|x| / 1000)) := by
    gcongr
    norm_num only at h1 ⊢; linarith
  norm_num only at h1 h5 ⊢
  linarith

/-- a scaled unit vector of which vector and factor have errors -/
theorem scaled_close {n' n : Vec3} {q' q : ℝ} (hn : n.magnitude = 1) (h : (n'.minus n).magnitude ≤ 5.8e-11)
    (hq : |q' - q| ≤ 1.22e-10 * |q|) : ((scaled n' q').minus (n.scaled q)).magnitude ≤ 2e-10 * |q| := by
  have hu := u_pos
  have hu' := u_tiny
  have h1 := scaled_round (a := n') (Near.refl q') le_rfl (by norm_num)
  have h2 := minus_triangle (scaled n' q') (n'.scaled q') (n.scaled q)
  have h3 := minus_triangle (n'.scaled q') (n.scaled q') (n.scaled q)
  have e1 : (n'.scaled q').minus (n.scaled q') = (n'.minus n).scaled q' := by ext <;> simp [Vec3.scaled, Vec3.minus] <;> ring
  have e2 : (n.scaled q').minus (n.scaled q) = n.scaled (q' - q) := by ext <;> simp [Vec3.scaled, Vec3.minus] <;> ring
  rw [e1, e2, Vec3.magnitude_scaled_abs, Vec3.magnitude_scaled_abs, hn] at h3
  have h4 := abs_sub_abs_le_abs_sub q' q
  have h5 := magnitude_le_of_minus n' n
  have hq0 := abs_nonneg q
  have h6 : |q'| ≤ 1.001 * |q| := by norm_num at hq ⊢; linarith
  have h7 : |q'| * (n'.minus n).magnitude ≤ 1.001 * |q| * 5.8e-11 := by
    have := (n'.minus n).magnitude_nonneg
    gcongr
  have h8 : (0 + 1.01) * u * (|q'| * n'.magnitude) ≤ (0 + 1.01) * (12 / 10 ^ 17) * (1.001 * |q| * 2) := by
    have := n'.magnitude_nonneg
    gcongr
    norm_num at h; linarith
  norm_num at hq h7 h8 ⊢
  linarith

end Openspace.F64
