import Verif.Model.DoubleToIjk
import Verif.Lemmas.DoubleFrames
import Verif.Props.DoubleKepler
import Verif.Props.KeplerMotion
import Verif.Props.DoubleSpherical

/-!
# Property C135: the state of classical elements in double precision
-/

namespace Openspace.F64

open Real

theorem sc_sin {lib : Libm} (h : Spec.Accurate lib) (x : ℝ) : Sc (lib.sin x) (Real.sin x) 2 1 := by
  refine ⟨?_, abs_sin_le_one x⟩
  have := h.sin x
  norm_num [u] at this ⊢
  linarith

theorem sc_cos {lib : Libm} (h : Spec.Accurate lib) (x : ℝ) : Sc (lib.cos x) (Real.cos x) 2 1 := by
  refine ⟨?_, abs_cos_le_one x⟩
  have := h.cos x
  norm_num [u] at this ⊢
  linarith

/-- sum or difference of a product of two and a product of three factors, each below 1 -/
theorem products {a b c d f a' b' c' d' f' : ℝ} (ha : Sc a' a 2 1) (hb : Sc b' b 2 1) (hc : Sc c' c 2 1)
    (hd : Sc d' d 2 1) (hf : Sc f' f 2 1) :
    |rnd (rnd (a' * b') - rnd (rnd (c' * d') * f')) - (a * b - c * d * f)| ≤ 18.2 * u ∧
    |rnd (rnd (a' * b') + rnd (rnd (c' * d') * f')) - (a * b + c * d * f)| ≤ 18.2 * u ∧
    |rnd (a' * b') - a * b| ≤ 18.2 * u := by
  have hu := u_pos
  have h1 := ha.mul hb (by norm_num) (by norm_num) (by norm_num) (by norm_num)
  have h2 := (hc.mul hd (by norm_num) (by norm_num) (by norm_num) (by norm_num)).mul hf (by norm_num) (by norm_num)
    (by norm_num) (by norm_num)
  have h1' := h1.mono (e' := 2 + 2 + 1.01 + 2 + 1.01) (by norm_num)
  have h3 := (h1'.sub h2 (by norm_num) (by norm_num)).1
  have h4 := (h1'.add h2 (by norm_num) (by norm_num)).1
  have h5 := h1.1
  norm_num at h3 h4 h5 ⊢
  exact ⟨by linarith, by linarith, by linarith⟩

/-- three components bound the magnitude -/
theorem magnitude_le_of {d : Vec3} {k : ℝ} (hx : |d.x| ≤ k) (hy : |d.y| ≤ k) (hz : |d.z| ≤ k) :
    d.magnitude ≤ 1.7321 * k := by
  have hk : 0 ≤ k := (abs_nonneg _).trans hx
  apply abs_le_of_sq_le_sq' _ (by positivity) |>.2
  rw [Vec3.magnitude_sq_dot]
  simp only [Vec3.dot]
  have key : ∀ {p : ℝ}, |p| ≤ k → p * p ≤ k ^ 2 := by
    intro p h
    rw [← sq]
    exact sq_le_sq' (by linarith [neg_abs_le p]) (by linarith [le_abs_self p])
  nlinarith [key hx, key hy, key hz]

theorem perigee_near {lib : Libm} (h : Spec.Accurate lib) (el : ClassicalElements) :
    ∃ p, perigeeVector lib el = .ok p ∧ Sc p.x el.dirP.x 70 1 ∧ Sc p.y el.dirP.y 70 1 ∧ Sc p.z el.dirP.z 70 1 := by
  have hu := u_tiny
  have hu0 := u_pos
  have hm : el.dirP.magnitude = 1 := Vec3.magnitude_unit el.dirP_unit
  have cw := sc_cos h el.argument_of_perigee
  have c0 := sc_cos h el.raan
  have sw := sc_sin h el.argument_of_perigee
  have s0 := sc_sin h el.raan
  have ci := sc_cos h el.inclination
  have si := sc_sin h el.inclination
  obtain ⟨q, hq⟩ : ∃ q : Vec3, q = ⟨_, _, _⟩ ∧ perigeeVector lib el = normalized q := ⟨_, rfl, rfl⟩
  have hd : (q.minus el.dirP).magnitude ≤ 31.6 * u := by
    have := magnitude_le_of (d := q.minus el.dirP) (k := 18.2 * u) (by rw [hq.1]; exact (products cw c0 sw ci s0).1)
      (by rw [hq.1]; exact (products cw s0 sw ci c0).2.1) (by rw [hq.1]; exact (products sw si sw ci s0).2.2)
    norm_num at this ⊢
    linarith
  have hq0 : 0 < q.magnitude := by
    have := (abs_le.mp (magnitude_sub_le q el.dirP)).1
    norm_num at hu hd
    linarith
  obtain ⟨p, hp, hp'⟩ := normalized_near (Vec3.magnitude_pos.mp hq0)
  have hud := unit_diff hq0 (b := el.dirP) (by rw [hm]; norm_num)
  rw [hm, mul_one, div_one] at hud
  have e1 : el.dirP.scaled 1 = el.dirP := by ext <;> simp [Vec3.scaled]
  rw [e1] at hud
  have t := minus_triangle p (q.scaled (1 / q.magnitude)) el.dirP
  have t2 : (p.minus el.dirP).magnitude ≤ 70 * u * 1 := by
    rw [show (6.3 : ℝ) = 63 / 10 by norm_num] at hp'
    rw [show (31.6 : ℝ) = 316 / 10 by norm_num] at hd
    linarith
  obtain ⟨x, y, z⟩ := component_le (p.minus el.dirP)
  obtain ⟨x', y', z'⟩ := component_le el.dirP
  rw [hm] at x' y' z'
  exact ⟨p, by rw [hq.2, hp], ⟨x.trans t2, x'⟩, ⟨y.trans t2, y'⟩, ⟨z.trans t2, z'⟩⟩

theorem semilatus_near {lib : Libm} (h : Spec.Accurate lib) (el : ClassicalElements) :
    Sc (semilatusRectumVector lib el).x el.semilatusRectumVector.x 70 1 ∧
    Sc (semilatusRectumVector lib el).y el.semilatusRectumVector.y 70 1 ∧
    Sc (semilatusRectumVector lib el).z el.semilatusRectumVector.z 70 1 := by
  have hu0 := u_pos
  have hm : el.semilatusRectumVector.magnitude = 1 := Vec3.magnitude_unit el.dirQ_unit
  have cw := sc_cos h el.argument_of_perigee
  have c0 := sc_cos h el.raan
  have sw := sc_sin h el.argument_of_perigee
  have s0 := sc_sin h el.raan
  have ci := sc_cos h el.inclination
  have si := sc_sin h el.inclination
  obtain ⟨x', y', z'⟩ := component_le el.semilatusRectumVector
  rw [hm] at x' y' z'
  have w : 18.2 * u ≤ 70 * u * 1 := by norm_num; linarith
  exact ⟨⟨(products sw.neg c0 cw ci s0).1.trans w, x'⟩, ⟨(products sw.neg s0 cw ci c0).2.1.trans w, y'⟩,
    ⟨(products cw si sw ci s0).2.2.trans w, z'⟩⟩

/-- the linear combination of the two directions -/
theorem combine_near {p q P Q : Vec3} {x y X Y k s t : ℝ} (hp : Sc p.x P.x 70 1 ∧ Sc p.y P.y 70 1 ∧ Sc p.z P.z 70 1)
    (hq : Sc q.x Q.x 70 1 ∧ Sc q.y Q.y 70 1 ∧ Sc q.z Q.z 70 1) (hx : Sc x X k s) (hy : Sc y Y k t) (hk : 0 ≤ k)
    (hk' : k ≤ 4e4) :
    ((combine p q x y).minus ((P.scaled X).plus (Q.scaled Y))).magnitude ≤ 1.7321 * ((k + 72.1) * u * (s + t)) := by
  have hu := u_pos
  have hst : 0 ≤ s + t := add_nonneg hx.nonneg hy.nonneg
  have key : ∀ {p P q Q : ℝ}, Sc p P 70 1 → Sc q Q 70 1 →
      |rnd (rnd (p * x) + rnd (q * y)) - (P * X + Q * Y)| ≤ (k + 72.1) * u * (s + t) := by
    intro p P q Q hp hq
    have h1 := hp.mul hx (by norm_num) (by norm_num) hk hk'
    have h2 := hq.mul hy (by norm_num) (by norm_num) hk hk'
    have h3 := (h1.add h2 (by linarith) (by norm_num; linarith)).mono (e' := k + 72.1) (by norm_num; linarith)
    have := h3.1
    rw [one_mul, one_mul] at this
    exact this
  exact magnitude_le_of (key hp.1 hq.1) (key hp.2.1 hq.2.1) (key hp.2.2 hq.2.2)

/-- the computed `1 - e cos E` -/
theorem radius_near {e c c' : ℝ} (he : 0 ≤ e) (he' : e ≤ 9 / 10) (hc : Sc c' c 3605 1) :
    Near (rnd (1 - rnd (e * c'))) (1 - e * c) 32510 ∧ 1 / 10 ≤ 1 - e * c := by
  have hu := u_tiny
  have hu0 := u_pos
  have hc1 := hc.1
  have hc2 := abs_le.mp hc.2
  have hD : 1 / 10 ≤ 1 - e * c := by nlinarith
  have hec : |e * c| ≤ 9 / 10 := by
    rw [abs_mul, abs_of_nonneg he]
    calc e * |c| ≤ 9 / 10 * 1 := by gcongr; exact hc.2
      _ = _ := by norm_num
  have h1 : |e * c' - e * c| ≤ 3245 * u := by
    rw [← mul_sub, abs_mul, abs_of_nonneg he]
    calc e * |c' - c| ≤ 9 / 10 * (3605 * u * 1) := by gcongr
      _ ≤ _ := by linarith
  have h2 : |e * c'| ≤ 1 := by
    have := abs_sub_abs_le_abs_sub (e * c') (e * c)
    linarith
  have r1 := rnd_u (e * c')
  obtain ⟨w, hw⟩ : ∃ w, w = rnd (e * c') := ⟨_, rfl⟩
  rw [← hw] at r1 ⊢
  have r2 : |w - e * c| ≤ 3246 * u := by
    have := abs_sub_le w (e * c') (e * c)
    have : u * |e * c'| ≤ u * 1 := by gcongr
    linarith
  have r3 := rnd_u (1 - w)
  have r4 : |1 - w - (1 - e * c)| ≤ 3246 * u := by
    rw [show 1 - w - (1 - e * c) = -(w - e * c) by ring, abs_neg]; exact r2
  have r5 : |1 - w| ≤ 2 := by
    have := abs_sub_abs_le_abs_sub (1 - w) (1 - e * c)
    have := abs_le.mp hec
    have : |1 - e * c| ≤ 19 / 10 := by rw [abs_le]; constructor <;> linarith
    linarith
  refine ⟨?_, hD⟩
  unfold Near
  rw [abs_of_pos (by linarith : 0 < 1 - e * c)]
  have := abs_sub_le (rnd (1 - w)) (1 - w) (1 - e * c)
  have : u * |1 - w| ≤ u * 2 := by gcongr
  have : 32510 * u * (1 / 10) ≤ 32510 * u * (1 - e * c) := by gcongr
  linarith

/-- the computed `√(1 - e²)` -/
theorem semiminor_near {e : ℝ} (he : 0 ≤ e) (he' : e ≤ 9 / 10) :
    0 ≤ rnd (1 - rnd (e * e)) ∧ Near (rnd √(rnd (1 - rnd (e * e)))) √(1 - e * e) 7.6 := by
  have hu := u_tiny
  have hu0 := u_pos
  have hee : e * e ≤ 81 / 100 := by nlinarith
  have h0 : 0 ≤ e * e := by positivity
  have r1 := rnd_u (e * e)
  rw [abs_of_nonneg h0] at r1
  obtain ⟨w, hw⟩ : ∃ w, w = rnd (e * e) := ⟨_, rfl⟩
  rw [← hw] at r1 ⊢
  have r2 : |w - e * e| ≤ u * (81 / 100) := r1.trans (by gcongr)
  have r2' := abs_le.mp r2
  have hw1 : 0 ≤ 1 - w := by linarith
  have r3 := rnd_u (1 - w)
  rw [abs_of_nonneg hw1] at r3
  have n1 : Near (rnd (1 - w)) (1 - e * e) 6.5 := by
    unfold Near
    rw [abs_of_nonneg (by linarith : 0 ≤ 1 - e * e)]
    have t := abs_sub_le (rnd (1 - w)) (1 - w) (1 - e * e)
    rw [show 1 - w - (1 - e * e) = -(w - e * e) by ring, abs_neg] at t
    have t2 : u * (1 - w) ≤ u * (1.01 * (1 - e * e)) := by gcongr; norm_num; linarith
    have t3 : 4.3 * u * (19 / 100) ≤ 4.3 * u * (1 - e * e) := by gcongr; linarith
    have t4 : 0 ≤ u * (1 - e * e) := mul_nonneg hu0.le (by linarith)
    norm_num at t2 t3 ⊢
    linarith
  have hn := rnd_nonneg hw1
  refine ⟨hn, ?_⟩
  have := (near_sqrt n1 (by linarith) hn).round' (by norm_num) (by norm_num)
  exact this.mono (by norm_num)

/-- the computed rate `(1 / r) √(mu / a)` -/
theorem rate_near {a D D' : ℝ} (ha : 0 < a) (hD : 0 < D) (h : Near D' D 32510) :
    rnd (a * D') ≠ 0 ∧ 0 ≤ rnd (mu / a) ∧
      Near (rnd (rnd (1 / rnd (a * D')) * rnd √(rnd (mu / a)))) (√(Earth.MU / a) / (a * D)) 32518 := by
  have hmu := mu_pos
  have n1 := ((Near.refl a).mul' h (by norm_num) (by norm_num) (by norm_num) (by norm_num)).round' (by norm_num) (by norm_num)
  obtain ⟨n2, n3⟩ := near_inv' n1 (by positivity) (by norm_num) (by norm_num)
  have n4 := n3.round' (by norm_num) (by norm_num)
  obtain ⟨-, m1⟩ := Near.div' mu_near (Near.refl a) ha.ne' (by norm_num) (by norm_num) (by norm_num) (by norm_num)
  have m2 := m1.round' (by norm_num) (by norm_num)
  have hn : 0 ≤ rnd (mu / a) := rnd_nonneg (by have := mu_pos'; positivity)
  have m3 := (near_sqrt m2 (by positivity) hn).round' (by norm_num) (by norm_num)
  have m4 := (n4.mul' m3 (by norm_num) (by norm_num) (by norm_num) (by norm_num)).round' (by norm_num) (by norm_num)
  refine ⟨n2, hn, ?_⟩
  rw [one_div_mul_eq_div] at m4
  exact m4.mono (by norm_num)

end Openspace.F64

namespace Openspace

open Real Spec F64

/-- what `to_ijk` computes in double precision is near the state at any exact solution of Kepler's equation -/
theorem toIjk_rounded {lib : F64.Libm} (hlib : Spec.Accurate lib) {el : ClassicalElements}
    (ha : 0 < el.semimajor_axis) (he : 0 ≤ el.eccentricity) (he' : el.eccentricity ≤ 0.9)
    (hM : |el.mean_anomaly| ≤ 2 * π) {n : ℝ} (hne : n = √(Earth.MU / el.semimajor_axis ^ 3)) {E : ℝ} {k : ℤ}
    (hE : E - el.eccentricity * sin E = el.mean_anomaly + 2 * π * k) :
    ∃ p v N, (∀ fuel, N ≤ fuel → F64.toIjk lib fuel el = .ok (p, v)) ∧
      (p.minus (orbitPos el E)).magnitude ≤ 2.5e-12 * el.semimajor_axis ∧
      (v.minus (orbitVel el n E)).magnitude ≤ 1.5e-10 * √(Earth.MU / el.semimajor_axis) := by
  have hmu := mu_pos
  have hu := u_tiny
  have hu0 := u_pos
  have he9 : el.eccentricity ≤ 9 / 10 := by norm_num at he' ⊢; linarith
  obtain ⟨E', N, hN, k', -, Es, ⟨hEs, hEs2⟩, -⟩ := C101_rounded lib hlib _ _ he he' hM
  have hEE : Es = E + 2 * π * ((k' - k : ℤ) : ℝ) := by
    apply kepler_injective he (by linarith)
    unfold kepler
    rw [sin_turn, hEs]
    push_cast
    linear_combination -hE
  have hc : Sc (lib.cos E') (cos E) 3605 1 := by
    refine ⟨?_, abs_cos_le_one E⟩
    have h1 := hlib.cos E'
    have h2 := Real.abs_cos_sub_cos_le E' Es
    rw [hEE, cos_turn, ← hEE] at h2
    have h3 := abs_sub_le (lib.cos E') (cos E') (cos E)
    norm_num [u] at h1 hEs2 ⊢
    linarith
  have hs : Sc (lib.sin E') (sin E) 3605 1 := by
    refine ⟨?_, abs_sin_le_one E⟩
    have h1 := hlib.sin E'
    have h2 := Real.abs_sin_sub_sin_le E' Es
    rw [hEE, sin_turn, ← hEE] at h2
    have h3 := abs_sub_le (lib.sin E') (sin E') (sin E)
    norm_num [u] at h1 hEs2 ⊢
    linarith
  obtain ⟨P, hP, hPn⟩ := perigee_near hlib el
  have hQn := semilatus_near hlib el
  obtain ⟨d1, d2⟩ := radius_near he he9 hc
  obtain ⟨b1, b2⟩ := semiminor_near he he9
  obtain ⟨r1, r2, r3⟩ := rate_near ha (by linarith) d1
  have hss : √(1 - el.eccentricity * el.eccentricity) ≤ 1 := by
    rw [Real.sqrt_le_left (by norm_num)]; nlinarith
  have hs0 := Real.sqrt_nonneg (1 - el.eccentricity * el.eccentricity)
  have hκ0 := Real.sqrt_nonneg (Earth.MU / el.semimajor_axis)
  have hκ : √(Earth.MU / el.semimajor_axis) = n * el.semimajor_axis := by
    rw [hne, show Earth.MU / el.semimajor_axis
      = Earth.MU / el.semimajor_axis ^ 3 * (el.semimajor_axis * el.semimajor_axis) by field_simp,
      Real.sqrt_mul (by positivity), Real.sqrt_mul_self ha.le]
  refine ⟨_, _, N, fun fuel hf => by
    simp only [F64.toIjk, hP, hN fuel hf, div_ok r1, div_ok ha.ne', sqrt_ok r2, sqrt_ok b1, ok_bind, pure_eq_ok]
    rfl, ?_, ?_⟩
  · have x1 := (hc.sub ((Sc.exact (x := el.eccentricity) (s := 1) (by rw [abs_of_nonneg he]; linarith)).mono
      (e' := 3605) (by norm_num)) (by norm_num) (by norm_num))
    have x2 := (Sc.exact (x := el.semimajor_axis) (s := el.semimajor_axis) (by rw [abs_of_pos ha])).mul x1
      (by norm_num) (by norm_num) (by norm_num) (by norm_num)
    have y1 := ((Near.refl el.semimajor_axis).mul' b2 (by norm_num) (by norm_num) (by norm_num) (by norm_num)).round'
      (by norm_num) (by norm_num)
    have y2 := (Sc.of_near y1 (by norm_num) (s := el.semimajor_axis) (by
      rw [abs_of_nonneg (by positivity)]; nlinarith)).mul hs (by norm_num) (by norm_num) (by norm_num) (by norm_num)
    have := combine_near hPn hQn (x2.mono (e' := 3616) (by norm_num)) (y2.mono (e' := 3616) (by norm_num)) (by norm_num)
      (by norm_num)
    refine this.trans ?_
    norm_num [u]
    linarith
  · obtain ⟨κ, hκe⟩ : ∃ κ, κ = √(Earth.MU / el.semimajor_axis) := ⟨_, rfl⟩
    obtain ⟨D, hDe⟩ : ∃ D, D = 1 - el.eccentricity * cos E := ⟨_, rfl⟩
    rw [← hκe] at hκ0 hκ r3 ⊢
    rw [← hDe] at d2 r3
    have hD : 0 < D := by linarith
    have hκD : κ / D ≤ 10 * κ := by
      rw [div_le_iff₀ hD]
      nlinarith
    have hκD0 : 0 ≤ κ / D := by positivity
    have x1 := ((Near.refl (-el.semimajor_axis)).mul' r3 (by norm_num) (by norm_num) (by norm_num) (by norm_num)).round'
      (by norm_num) (by norm_num)
    rw [show -el.semimajor_axis * (κ / (el.semimajor_axis * D)) = -(κ / D) by field_simp] at x1
    have x2 := (Sc.of_near x1 (by norm_num) (s := 10 * κ) (by rw [abs_neg, abs_of_nonneg hκD0]; exact hκD)).mul hs
      (by norm_num) (by norm_num) (by norm_num) (by norm_num)
    have y1 := ((((Near.refl el.semimajor_axis).mul' b2 (by norm_num) (by norm_num) (by norm_num) (by norm_num)).round'
      (by norm_num) (by norm_num)).mul' r3 (by norm_num) (by norm_num) (by norm_num) (by norm_num)).round'
      (by norm_num) (by norm_num)
    rw [show el.semimajor_axis * √(1 - el.eccentricity * el.eccentricity) * (κ / (el.semimajor_axis * D))
      = √(1 - el.eccentricity * el.eccentricity) * (κ / D) by field_simp] at y1
    have y2 := (Sc.of_near y1 (by norm_num) (s := 10 * κ) (by
      rw [abs_of_nonneg (by positivity)]; nlinarith)).mul hc (by norm_num) (by norm_num) (by norm_num) (by norm_num)
    have := combine_near hPn hQn (x2.mono (e' := 36140) (by norm_num)) (y2.mono (e' := 36140) (by norm_num)) (by norm_num)
      (by norm_num)
    rw [show -(κ / D) * sin E = -(n * el.semimajor_axis) * sin E / (1 - el.eccentricity * cos E) by
        rw [← hκ, ← hDe]; ring,
      show √(1 - el.eccentricity * el.eccentricity) * (κ / D) * cos E
        = n * el.semimajor_axis * √(1 - el.eccentricity * el.eccentricity) * cos E / (1 - el.eccentricity * cos E) by
        rw [← hκ, ← hDe]; ring] at this
    refine this.trans ?_
    norm_num [u]
    linarith

/-- For elements with `a > 0` and `0 ≤ e ≤ 0.9` there is a two-body motion such that `to_ijk`, computed in double
precision with the mean anomaly advanced by `sqrt(mu / a³)` times the time and reduced into `[-2π, 2π]`, ends without an
exception and returns the state the motion has then: the position within 2.5e-12 semi-major axes, the velocity within
1.5e-10 times the circular speed. -/
theorem C135_rounded (lib : F64.Libm) (hlib : Spec.Accurate lib) (el : ClassicalElements) (ha : 0 < el.semimajor_axis)
    (he : 0 ≤ el.eccentricity) (he' : el.eccentricity ≤ 0.9) :
    ∃ s : ℝ → State, TwoBody Earth.MU Set.univ (fun t => (s t).position.toE) (fun t => (s t).velocity.toE) ∧
      ∀ (t : ℝ) (k : ℤ) (m : ℝ), m = el.mean_anomaly + √(Earth.MU / el.semimajor_axis ^ 3) * t + 2 * π * k →
        |m| ≤ 2 * π →
        ∃ p v N, (∀ fuel, N ≤ fuel →
            F64.toIjk lib fuel ({el with mean_anomaly := m} : ClassicalElements) = .ok (p, v)) ∧
          (p.minus (s t).position).magnitude ≤ 2.5e-12 * el.semimajor_axis ∧
          (v.minus (s t).velocity).magnitude ≤ 1.5e-10 * √(Earth.MU / el.semimajor_axis) := by
  have he1 : el.eccentricity < 1 := by norm_num at he' ⊢; linarith
  obtain ⟨E, hE, hT⟩ := kepler_motion el ha he he1 rfl
  refine ⟨fun t => State.new el.epoch (orbitPos el (E t)) (orbitVel el (√(Earth.MU / el.semimajor_axis ^ 3)) (E t)), hT,
    fun t k m hm hm2 => ?_⟩
  exact toIjk_rounded hlib (el := {el with mean_anomaly := m}) ha he he' hm2 rfl (E := E t) (k := -k)
    (by push_cast; rw [hE, hm]; ring)

/-- a Molniya orbit with a C library whose functions are rounded to nearest: the state half a day after the perigee -/
example (ep : Epoch) : ∃ s : ℝ → State,
    TwoBody Earth.MU Set.univ (fun t => (s t).position.toE) (fun t => (s t).velocity.toE) ∧
    ∃ p v N, (∀ fuel, N ≤ fuel → F64.toIjk F64.rounded fuel ⟨ep, 26554, 0.74, 1.1, 2, 4.7, 3⟩ = .ok (p, v)) ∧
      ∃ t, (p.minus (s t).position).magnitude ≤ 1e-7 := by
  obtain ⟨s, hT, h⟩ := C135_rounded F64.rounded F64.rounded_accurate.1 ⟨ep, 26554, 0.74, 1.1, 2, 4.7, 3⟩ (by norm_num)
    (by norm_num) (by norm_num)
  obtain ⟨p, v, N, h1, h2, -⟩ := h 0 0 3 (by norm_num) (by rw [abs_of_pos (by norm_num)]; linarith [pi_gt_three])
  exact ⟨s, hT, p, v, N, h1, 0, h2.trans (by norm_num)⟩

end Openspace
