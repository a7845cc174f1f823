import Verif.Model.DoubleSunMoon
import Verif.Lemmas.DoubleEarth
import Verif.Props.SunMoon

/-! # Errors of the positions of the Sun and the Moon in double precision -/

namespace Openspace.F64

open Real

/-- `y` is `x` to an absolute error of `E`, and `x` is at most `s` in size -/
def Ab (y x E s : ℝ) : Prop := |y - x| ≤ E ∧ |x| ≤ s

section

variable {y x E s y1 x1 E1 s1 y2 x2 E2 s2 E' s' : ℝ}

theorem Ab.of_sc {k : ℝ} (h : Sc y x k s) (hk : 0 ≤ k) (hE : k * 1.2e-16 * s ≤ E) : Ab y x E s := by
  have hu := u_tiny
  have hs := h.nonneg
  have : k * u * s ≤ k * 1.2e-16 * s := by gcongr; norm_num at hu ⊢; linarith
  exact ⟨h.1.trans (by linarith), h.2⟩

theorem Ab.mono (h : Ab y x E s) (hE : E ≤ E') (hs : s ≤ s') : Ab y x E' s' := ⟨h.1.trans hE, h.2.trans hs⟩

theorem Ab.neg (h : Ab y x E s) : Ab (-y) (-x) E s := by
  refine ⟨?_, by rw [abs_neg]; exact h.2⟩
  rw [show -y - -x = -(y - x) by ring, abs_neg]; exact h.1

theorem Ab.rnd (h : Ab y x E s) (hE : E + (s + E) * 1.2e-16 ≤ E') : Ab (rnd y) x E' s := by
  have hu := u_tiny
  have hu0 := u_pos
  have h1 := h.1
  have h2 := h.2
  have h3 := abs_sub_abs_le_abs_sub y x
  have h4 := rnd_u y
  have h5 := abs_sub_le (F64.rnd y) y x
  have h6 : u * |y| ≤ 1.2e-16 * (s + E) := by
    have : u ≤ 1.2e-16 := by norm_num at hu ⊢; linarith
    exact mul_le_mul this (by linarith) (abs_nonneg _) (by norm_num)
  exact ⟨by linarith, h2⟩

theorem Ab.add (h : Ab y1 x1 E1 s1) (g : Ab y2 x2 E2 s2) (hE : E1 + E2 + (s1 + s2 + (E1 + E2)) * 1.2e-16 ≤ E')
    (hs : s1 + s2 ≤ s') : Ab (F64.rnd (y1 + y2)) (x1 + x2) E' s' := by
  have : Ab (y1 + y2) (x1 + x2) (E1 + E2) (s1 + s2) := by
    refine ⟨?_, (abs_add_le _ _).trans (add_le_add h.2 g.2)⟩
    rw [show y1 + y2 - (x1 + x2) = (y1 - x1) + (y2 - x2) by ring]
    exact (abs_add_le _ _).trans (add_le_add h.1 g.1)
  exact (this.rnd hE).mono le_rfl hs

theorem Ab.sub (h : Ab y1 x1 E1 s1) (g : Ab y2 x2 E2 s2) (hE : E1 + E2 + (s1 + s2 + (E1 + E2)) * 1.2e-16 ≤ E')
    (hs : s1 + s2 ≤ s') : Ab (F64.rnd (y1 - y2)) (x1 - x2) E' s' := by
  rw [sub_eq_add_neg, sub_eq_add_neg]
  exact h.add g.neg hE hs

theorem Ab.mul (h : Ab y1 x1 E1 s1) (g : Ab y2 x2 E2 s2)
    (hE : E1 * s2 + s1 * E2 + E1 * E2 + (s1 * s2 + (E1 * s2 + s1 * E2 + E1 * E2)) * 1.2e-16 ≤ E')
    (hs : s1 * s2 ≤ s') : Ab (F64.rnd (y1 * y2)) (x1 * x2) E' s' := by
  have a1 : 0 ≤ E1 := (abs_nonneg _).trans h.1
  have a2 : 0 ≤ E2 := (abs_nonneg _).trans g.1
  have b1 : 0 ≤ s1 := (abs_nonneg _).trans h.2
  have b2 : 0 ≤ s2 := (abs_nonneg _).trans g.2
  have : Ab (y1 * y2) (x1 * x2) (E1 * s2 + s1 * E2 + E1 * E2) (s1 * s2) := by
    refine ⟨?_, by rw [abs_mul]; exact mul_le_mul h.2 g.2 (abs_nonneg _) b1⟩
    rw [show y1 * y2 - x1 * x2 = (y1 - x1) * x2 + x1 * (y2 - x2) + (y1 - x1) * (y2 - x2) by ring]
    refine (abs_add_three _ _ _).trans ?_
    rw [abs_mul, abs_mul, abs_mul]
    have c1 := mul_le_mul h.1 g.2 (abs_nonneg _) a1
    have c2 := mul_le_mul h.2 g.1 (abs_nonneg _) b1
    have c3 := mul_le_mul h.1 g.1 (abs_nonneg _) a1
    linarith
  exact (this.rnd hE).mono le_rfl hs

theorem Ab.exact (h : |x| ≤ s) : Ab x x 0 s := ⟨by simp, h⟩

theorem Ab.const {c : ℝ} (hc : 0 ≤ c) (hE : c * 1.2e-16 ≤ E) : Ab (F64.rnd c) c E c := by
  have h : Ab c c 0 c := Ab.exact (by rw [abs_of_nonneg hc])
  exact h.rnd (by linarith)

theorem Ab.double (h : Ab y x E s) (hE : 2 * E + (2 * s + 2 * E) * 1.2e-16 ≤ E') (hs : 2 * s ≤ s') :
    Ab (F64.rnd (2 * y)) (2 * x) E' s' :=
  (Ab.exact (x := (2 : ℝ)) (s := 2) (by norm_num)).mul h (by linarith) hs

theorem Ab.sin {lib : Libm} (hlib : Spec.Accurate lib) (h : Ab y x E s) (hE : E + 2.4e-16 ≤ E') :
    Ab (lib.sin y) (Real.sin x) E' 1 := by
  have hu := u_tiny
  refine ⟨?_, abs_sin_le_one x⟩
  have h1 := hlib.sin y
  rw [show (1 : ℝ) / 2 ^ 52 = 2 * u by norm_num [u]] at h1
  have h2 := abs_sin_sub y x
  have h3 := h.1
  have h4 := abs_sub_le (lib.sin y) (Real.sin y) (Real.sin x)
  norm_num at hu hE ⊢
  linarith

theorem Ab.cos {lib : Libm} (hlib : Spec.Accurate lib) (h : Ab y x E s) (hE : E + 2.4e-16 ≤ E') :
    Ab (lib.cos y) (Real.cos x) E' 1 := by
  have hu := u_tiny
  refine ⟨?_, abs_cos_le_one x⟩
  have h1 := hlib.cos y
  rw [show (1 : ℝ) / 2 ^ 52 = 2 * u by norm_num [u]] at h1
  have h2 := abs_cos_sub y x
  have h3 := h.1
  have h4 := abs_sub_le (lib.cos y) (Real.cos y) (Real.cos x)
  norm_num at hu hE ⊢
  linarith

end

variable {lib : Libm} {e : ℝ}

/-- a number of arc seconds that is a double -/
theorem dms_exact (s : ℝ) : Near (dmsToRadians 0 0 s) (Openspace.dmsToRadians 0 0 s) 6 := by
  have h1 := (near_rnd (s / 3600))
  have h2 := radians_rel (h1.round' (by norm_num) (by norm_num)) (by norm_num) (by norm_num)
  have e : Openspace.dmsToRadians 0 0 s = pyRadians (s / 3600) := by
    simp [Openspace.dmsToRadians, MINUTES_IN_HOUR, SECONDS_IN_HOUR]
  rw [e, dmsToRadians, zero_div, rnd_zero, add_zero, rnd_zero, zero_add]
  exact h2.mono (by norm_num)

theorem dms_ab {s b E : ℝ} (hs : 0 ≤ s) (hb : s * 4.85e-6 ≤ b) (hE : 7.2e-16 * b ≤ E) :
    Ab (dmsToRadians 0 0 s) (Openspace.dmsToRadians 0 0 s) E b := by
  refine Ab.of_sc (Sc.of_near (dms_exact s) (by norm_num) ?_) (by norm_num) (by norm_num at hE ⊢; linarith)
  have e : Openspace.dmsToRadians 0 0 s = s * (π / 648000) := by
    simp only [Openspace.dmsToRadians, MINUTES_IN_HOUR, SECONDS_IN_HOUR, pyRadians, pyPi]; ring
  have hp := pi_lt_d4
  rw [e, abs_of_nonneg (by have := pi_pos; positivity)]
  have : s * (π / 648000) ≤ s * 4.85e-6 := by gcongr; linarith
  linarith

theorem radians_ab {y x E s E' s' : ℝ} (h : Ab y x E s) (hE : E * 0.0175 + (s + E) * 0.0175 * 3.7e-16 ≤ E')
    (hs : s * 0.0175 ≤ s') : Ab (radians y) (pyRadians x) E' s' := by
  have hp := pi_lt_d4
  have hp0 := pi_pos
  have hd : Ab (rnd (pi / 180)) (π / 180) (0.0175 * 2.42e-16) 0.0175 := by
    refine Ab.of_sc (Sc.of_near degree_near (by norm_num) ?_) (by norm_num) (by norm_num)
    rw [abs_of_pos (by positivity)]; linarith
  have hs0 : 0 ≤ s := (abs_nonneg _).trans h.2
  have hE0 : 0 ≤ E := (abs_nonneg _).trans h.1
  have := h.mul hd (E' := E') (s' := s') (by norm_num at hE ⊢; linarith) hs
  have e : pyRadians x = x * (π / 180) := by simp only [pyRadians, pyPi]; ring
  rw [e]
  exact this

/-- a mean angle, in degrees linear in time -/
theorem angle_ab {a b : ℝ} (ha : 0 ≤ a) (ha' : a ≤ 360) (hb : 0 ≤ b) (hb' : b ≤ 484000) (h0 : 1 ≤ e) (h1 : e ≤ 131072) :
    Ab (rnd (rnd a + rnd (rnd b * julianCenturies e))) (a + b * (⟨e⟩ : Epoch).julianCenturies) (b * 1.06e-14 + 1e-13)
      (360 + b * 2.2) := by
  have ht : Ab (julianCenturies e) (⟨e⟩ : Epoch).julianCenturies 9.6e-15 2.2 :=
    Ab.of_sc (centuries_sc h0 h1) (by norm_num) (by norm_num)
  have h2 := (Ab.const hb (E := b * 1.2e-16) le_rfl).mul ht (E' := b * 1.02e-14) (s' := b * 2.2) (by linarith) le_rfl
  have h3 := (Ab.const ha (E := 360 * 1.2e-16) (by linarith)).mono le_rfl ha'
  exact h3.add h2 (by norm_num; linarith) le_rfl


/-! ## the Moon -/

/-- the longitude of `Moon.get_position` without rounding -/
noncomputable def moonLon (l0 l lp f d : ℝ) : ℝ :=
  l0 + Openspace.dmsToRadians 0 0 22640 * sin (l) + Openspace.dmsToRadians 0 0 769 * sin (2 * l) - Openspace.dmsToRadians 0 0 4586 * sin (l - 2 * d) + Openspace.dmsToRadians 0 0 2370 * sin (2 * d) - Openspace.dmsToRadians 0 0 668 * sin (lp) - Openspace.dmsToRadians 0 0 412 * sin (2 * f) - Openspace.dmsToRadians 0 0 212 * sin (2 * l - 2 * d) - Openspace.dmsToRadians 0 0 206 * sin (l + lp - 2 * d) + Openspace.dmsToRadians 0 0 192 * sin (l + 2 * d) - Openspace.dmsToRadians 0 0 165 * sin (lp - 2 * d) + Openspace.dmsToRadians 0 0 148 * sin (l - lp) - Openspace.dmsToRadians 0 0 125 * sin (d) - Openspace.dmsToRadians 0 0 110 * sin (l + lp) - Openspace.dmsToRadians 0 0 55 * sin (2 * f - 2 * d)

/-- the latitude of `Moon.get_position` without rounding -/
noncomputable def moonLat (lam l0 l lp f d : ℝ) : ℝ :=
  Openspace.dmsToRadians 0 0 18520 * sin (f + lam - l0 + Openspace.dmsToRadians 0 0 412 *
    sin (2 * f + Openspace.dmsToRadians 0 0 541 * sin lp)) - Openspace.dmsToRadians 0 0 526 * sin (f - 2 * d) + Openspace.dmsToRadians 0 0 44 * sin (l + f - 2 * d) - Openspace.dmsToRadians 0 0 31 * sin (-l + f - 2 * d) - Openspace.dmsToRadians 0 0 25 * sin (-2 * l + f) - Openspace.dmsToRadians 0 0 23 * sin (lp + f - 2 * d) + Openspace.dmsToRadians 0 0 21 * sin (-l + f) + Openspace.dmsToRadians 0 0 11 * sin (-lp + f - 2 * d)

/-- the distance of `Moon.get_position` without rounding -/
noncomputable def moonDist (l lp d : ℝ) : ℝ :=
  385000 - 20905 * cos (l) - 3699 * cos (2 * d - l) - 2956 * cos (2 * d) - 570 * cos (2 * l) + 246 * cos (2 * l - 2 * d) - 205 * cos (lp - 2 * d) - 171 * cos (l + 2 * d) - 152 * cos (l + lp - 2 * d)

theorem term_sin (hlib : Spec.Accurate lib) {c b y x : ℝ} (hc : 0 ≤ c) (hb : c * 4.85e-6 ≤ b) (h : Ab y x 4.3e-10 1e5) :
    Ab (rnd (dmsToRadians 0 0 c * lib.sin y)) (Openspace.dmsToRadians 0 0 c * sin x) (b * 4.4e-10) b := by
  have hb0 : 0 ≤ b := by linarith
  exact (dms_ab hc hb le_rfl).mul (h.sin hlib (E' := 4.31e-10) (by norm_num)) (by norm_num; linarith) (by linarith)

theorem term_cos (hlib : Spec.Accurate lib) {c y x : ℝ} (hc : 0 ≤ c) (h : Ab y x 4.3e-10 1e5) :
    Ab (rnd (c * lib.cos y)) (c * cos x) (c * 4.4e-10) c :=
  (Ab.exact (abs_of_nonneg hc).le).mul (h.cos hlib (E' := 4.31e-10) (by norm_num)) (by norm_num; linarith) (by linarith)

section

variable {l0 l lp f d l0' l' lp' f' d' lam lam' : ℝ}

theorem moonLongitude_ab (hlib : Spec.Accurate lib) (h0 : Ab l0' l0 1e-10 18700)
    (hl : Ab l' l 1e-10 18700) (hp : Ab lp' lp 1e-11 1400) (hf : Ab f' f 1e-10 18700) (hd : Ab d' d 1e-10 18700)
    : Ab (moonLongitude lib l0' l' lp' f' d') (moonLon l0 l lp f d) 202e-12 18701 := by
  have h2l := hl.double (E' := 2.05e-10) (s' := 37400) (by norm_num) (by norm_num)
  have h2d := hd.double (E' := 2.05e-10) (s' := 37400) (by norm_num) (by norm_num)
  have h2f := hf.double (E' := 2.05e-10) (s' := 37400) (by norm_num) (by norm_num)
  have hlp := hl.add hp (E' := 1.13e-10) (s' := 20100) (by norm_num) (by norm_num)
  have s0 := h0
  have t1 := term_sin hlib (c := 22640) (b := 110e-3) (by norm_num) (by norm_num) (hl.mono (by norm_num) (by norm_num))
  have s1 := s0.add t1 (E' := 15065e-14) (s' := 187001100e-4) (by norm_num) (by norm_num)
  have t2 := term_sin hlib (c := 769) (b := 373e-5) (by norm_num) (by norm_num) (h2l.mono (by norm_num) (by norm_num))
  have s2 := s1.add t2 (E' := 15454e-14) (s' := 187001138e-4) (by norm_num) (by norm_num)
  have t3 := term_sin hlib (c := 4586) (b := 223e-4) (by norm_num) (by norm_num) (hl.sub h2d (by norm_num) (by norm_num))
  have s3 := s2.sub t3 (E' := 16660e-14) (s' := 187001361e-4) (by norm_num) (by norm_num)
  have t4 := term_sin hlib (c := 2370) (b := 115e-4) (by norm_num) (by norm_num) (h2d.mono (by norm_num) (by norm_num))
  have s4 := s3.add t4 (E' := 17391e-14) (s' := 187001476e-4) (by norm_num) (by norm_num)
  have t5 := term_sin hlib (c := 668) (b := 324e-5) (by norm_num) (by norm_num) (hp.mono (by norm_num) (by norm_num))
  have s5 := s4.sub t5 (E' := 17758e-14) (s' := 187001509e-4) (by norm_num) (by norm_num)
  have t6 := term_sin hlib (c := 412) (b := 200e-5) (by norm_num) (by norm_num) (h2f.mono (by norm_num) (by norm_num))
  have s6 := s5.sub t6 (E' := 18071e-14) (s' := 187001529e-4) (by norm_num) (by norm_num)
  have t7 := term_sin hlib (c := 212) (b := 103e-5) (by norm_num) (by norm_num) (h2l.sub h2d (by norm_num) (by norm_num))
  have s7 := s6.sub t7 (E' := 18341e-14) (s' := 187001540e-4) (by norm_num) (by norm_num)
  have t8 := term_sin hlib (c := 206) (b := 1000e-6) (by norm_num) (by norm_num) (hlp.sub h2d (by norm_num) (by norm_num))
  have s8 := s7.sub t8 (E' := 18610e-14) (s' := 187001550e-4) (by norm_num) (by norm_num)
  have t9 := term_sin hlib (c := 192) (b := 932e-6) (by norm_num) (by norm_num) (hl.add h2d (by norm_num) (by norm_num))
  have s9 := s8.add t9 (E' := 18876e-14) (s' := 187001560e-4) (by norm_num) (by norm_num)
  have t10 := term_sin hlib (c := 165) (b := 801e-6) (by norm_num) (by norm_num) (hp.sub h2d (by norm_num) (by norm_num))
  have s10 := s9.sub t10 (E' := 19136e-14) (s' := 187001569e-4) (by norm_num) (by norm_num)
  have t11 := term_sin hlib (c := 148) (b := 718e-6) (by norm_num) (by norm_num) (hl.sub hp (by norm_num) (by norm_num))
  have s11 := s10.add t11 (E' := 19392e-14) (s' := 187001577e-4) (by norm_num) (by norm_num)
  have t12 := term_sin hlib (c := 125) (b := 607e-6) (by norm_num) (by norm_num) (hd.mono (by norm_num) (by norm_num))
  have s12 := s11.sub t12 (E' := 19644e-14) (s' := 187001584e-4) (by norm_num) (by norm_num)
  have t13 := term_sin hlib (c := 110) (b := 534e-6) (by norm_num) (by norm_num) (hlp.mono (by norm_num) (by norm_num))
  have s13 := s12.sub t13 (E' := 19892e-14) (s' := 187001590e-4) (by norm_num) (by norm_num)
  have t14 := term_sin hlib (c := 55) (b := 267e-6) (by norm_num) (by norm_num) (h2f.sub h2d (by norm_num) (by norm_num))
  have s14 := s13.sub t14 (E' := 20129e-14) (s' := 187001593e-4) (by norm_num) (by norm_num)
  exact s14.mono (by norm_num) (by norm_num)

theorem moonDistance_ab (hlib : Spec.Accurate lib)
    (hl : Ab l' l 1e-10 18700) (hp : Ab lp' lp 1e-11 1400) (hf : Ab f' f 1e-10 18700) (hd : Ab d' d 1e-10 18700)
    : Ab (moonDistance lib l' lp' d') (moonDist l lp d) 128e-7 413904 := by
  have h2l := hl.double (E' := 2.05e-10) (s' := 37400) (by norm_num) (by norm_num)
  have h2d := hd.double (E' := 2.05e-10) (s' := 37400) (by norm_num) (by norm_num)
  have h2f := hf.double (E' := 2.05e-10) (s' := 37400) (by norm_num) (by norm_num)
  have hlp := hl.add hp (E' := 1.13e-10) (s' := 20100) (by norm_num) (by norm_num)
  have s0 := Ab.exact (x := (385000 : ℝ)) (s := 385000) (by norm_num)
  have t1 := term_cos hlib (c := 20905) (by norm_num) (hl.mono (by norm_num) (by norm_num))
  have s1 := s0.sub t1 (E' := 91983e-10) (s' := 405905000e-3) (by norm_num) (by norm_num)
  have t2 := term_cos hlib (c := 3699) (by norm_num) (h2d.sub hl (by norm_num) (by norm_num))
  have s2 := s1.sub t2 (E' := 10826e-9) (s' := 409604000e-3) (by norm_num) (by norm_num)
  have t3 := term_cos hlib (c := 2956) (by norm_num) (h2d.mono (by norm_num) (by norm_num))
  have s3 := s2.sub t3 (E' := 12127e-9) (s' := 412560000e-3) (by norm_num) (by norm_num)
  have t4 := term_cos hlib (c := 570) (by norm_num) (h2l.mono (by norm_num) (by norm_num))
  have s4 := s3.sub t4 (E' := 12378e-9) (s' := 413130000e-3) (by norm_num) (by norm_num)
  have t5 := term_cos hlib (c := 246) (by norm_num) (h2l.sub h2d (by norm_num) (by norm_num))
  have s5 := s4.add t5 (E' := 12487e-9) (s' := 413376000e-3) (by norm_num) (by norm_num)
  have t6 := term_cos hlib (c := 205) (by norm_num) (hp.sub h2d (by norm_num) (by norm_num))
  have s6 := s5.sub t6 (E' := 12578e-9) (s' := 413581000e-3) (by norm_num) (by norm_num)
  have t7 := term_cos hlib (c := 171) (by norm_num) (hl.add h2d (by norm_num) (by norm_num))
  have s7 := s6.sub t7 (E' := 12654e-9) (s' := 413752000e-3) (by norm_num) (by norm_num)
  have t8 := term_cos hlib (c := 152) (by norm_num) (hlp.sub h2d (by norm_num) (by norm_num))
  have s8 := s7.sub t8 (E' := 12721e-9) (s' := 413904000e-3) (by norm_num) (by norm_num)
  exact s8.mono (by norm_num) (by norm_num)

theorem moonLatitude_ab (hlib : Spec.Accurate lib) (hL : Ab lam' lam 202e-12 18701) (h0 : Ab l0' l0 1e-10 18700)
    (hl : Ab l' l 1e-10 18700) (hp : Ab lp' lp 1e-11 1400) (hf : Ab f' f 1e-10 18700) (hd : Ab d' d 1e-10 18700)
    : Ab (moonLatitude lib lam' l0' l' lp' f' d') (moonLat lam l0 l lp f d) 415e-13 0.1 := by
  have h2l := hl.double (E' := 2.05e-10) (s' := 37400) (by norm_num) (by norm_num)
  have h2d := hd.double (E' := 2.05e-10) (s' := 37400) (by norm_num) (by norm_num)
  have h2f := hf.double (E' := 2.05e-10) (s' := 37400) (by norm_num) (by norm_num)
  have i1 := term_sin hlib (c := 541) (b := 0.00263) (by norm_num) (by norm_num) (hp.mono (by norm_num) (by norm_num))
  have i2 := h2f.add i1 (E' := 4.3e-10) (s' := 1e5) (by norm_num) (by norm_num)
  have i3 := term_sin hlib (c := 412) (b := 0.002) (by norm_num) (by norm_num) i2
  have i4 := hf.add hL (E' := 3.2e-10) (s' := 37500) (by norm_num) (by norm_num)
  have i5 := i4.sub h0 (E' := 4.27e-10) (s' := 57000) (by norm_num) (by norm_num)
  have i6 := i5.add i3 (E' := 4.4e-10) (s' := 1e5) (by norm_num) (by norm_num)
  have i7 := (dms_ab (s := 18520) (b := 0.08983) (by norm_num) (by norm_num) le_rfl).mul
    (i6.sin hlib (E' := 4.41e-10) (by norm_num)) (E' := 4e-11) (s' := 0.08983) (by norm_num) (by norm_num)
  have s0 := i7
  have t1 := term_sin hlib (c := 526) (b := 256e-5) (by norm_num) (by norm_num) (hf.sub h2d (by norm_num) (by norm_num))
  have s1 := s0.sub t1 (E' := 41127e-15) (s' := 923900000e-10) (by norm_num) (by norm_num)
  have t2 := term_sin hlib (c := 44) (b := 214e-6) (by norm_num) (by norm_num) ((hl.add hf (E' := 2.05e-10) (s' := 37400) (by norm_num) (by norm_num)).sub h2d (by norm_num) (by norm_num))
  have s2 := s1.add t2 (E' := 41222e-15) (s' := 926040000e-10) (by norm_num) (by norm_num)
  have t3 := term_sin hlib (c := 31) (b := 151e-6) (by norm_num) (by norm_num) ((hl.neg.add hf (E' := 2.05e-10) (s' := 37400) (by norm_num) (by norm_num)).sub h2d (by norm_num) (by norm_num))
  have s3 := s2.sub t3 (E' := 41289e-15) (s' := 927550000e-10) (by norm_num) (by norm_num)
  have t4 := term_sin hlib (c := 25) (b := 122e-6) (by norm_num) (by norm_num) (((Ab.exact (x := (-2 : ℝ)) (s := 2) (by rw [abs_of_neg (by norm_num)]; norm_num)).mul hl (E' := 2.05e-10) (s' := 37400) (by norm_num) (by norm_num)).add hf (by norm_num) (by norm_num))
  have s4 := s3.sub t4 (E' := 41343e-15) (s' := 928770000e-10) (by norm_num) (by norm_num)
  have t5 := term_sin hlib (c := 23) (b := 112e-6) (by norm_num) (by norm_num) ((hp.add hf (E' := 2.05e-10) (s' := 37400) (by norm_num) (by norm_num)).sub h2d (by norm_num) (by norm_num))
  have s5 := s4.sub t5 (E' := 41393e-15) (s' := 929890000e-10) (by norm_num) (by norm_num)
  have t6 := term_sin hlib (c := 21) (b := 102e-6) (by norm_num) (by norm_num) (hl.neg.add hf (by norm_num) (by norm_num))
  have s6 := s5.add t6 (E' := 41438e-15) (s' := 930910000e-10) (by norm_num) (by norm_num)
  have t7 := term_sin hlib (c := 11) (b := 534e-7) (by norm_num) (by norm_num) ((hp.neg.add hf (E' := 2.05e-10) (s' := 37400) (by norm_num) (by norm_num)).sub h2d (by norm_num) (by norm_num))
  have s7 := s6.add t7 (E' := 41462e-15) (s' := 931444000e-10) (by norm_num) (by norm_num)
  exact s7.mono (by norm_num) (by norm_num)

end

theorem magnitude_of_components {v' v : Vec3} {E : ℝ} (h1 : |v'.x - v.x| ≤ E) (h2 : |v'.y - v.y| ≤ E)
    (h3 : |v'.z - v.z| ≤ E) : (v'.minus v).magnitude ≤ 1.733 * E := by
  have h0 : 0 ≤ E := (abs_nonneg _).trans h1
  apply abs_le_of_sq_le_sq' _ (by positivity) |>.2
  rw [Vec3.magnitude_sq_dot]
  simp only [Vec3.dot, Vec3.minus]
  have key : ∀ {p : ℝ}, |p| ≤ E → p * p ≤ E ^ 2 := by
    intro p h
    rw [← sq, ← sq_abs]; gcongr
  have a1 := key h1
  have a2 := key h2
  have a3 := key h3
  nlinarith [sq_nonneg E]

theorem obliquity_ab : Ab OBLIQUITY Earth.OBLIQUITY_OF_ECLIPTIC 3e-16 0.411 :=
  Ab.of_sc (const_radians 23.43929111 (b := 0.411) (by rw [abs_of_pos (by norm_num)]; norm_num)) (by norm_num)
    (by norm_num)

theorem normalized_x : normalized ⟨1, 0, 0⟩ = .ok ⟨1, 0, 0⟩ := by
  have r1 : rnd 1 = 1 := isDouble_one
  have hm : magnitude ⟨1, 0, 0⟩ = 1 := by
    simp [magnitude, dot, rnd_zero, r1, Openspace.sqrtNN]
  simp [normalized, hm, div_ok, r1, scaled, rnd_zero]

/-- the rotation from the ecliptic to the equator -/
theorem tilt_ab (hlib : Spec.Accurate lib) {x' y' z' x y z : ℝ} (hx : Ab x' x 1.2e-4 413904) (hy : Ab y' y 1.2e-4 413904)
    (hz : Ab z' z 4e-5 413904) : ∃ m, rotationAboutAxis lib ⟨x', y', z'⟩ ⟨1, 0, 0⟩ OBLIQUITY = .ok m ∧
      |m.x - x| ≤ 1.65e-4 ∧
      |m.y - (cos Earth.OBLIQUITY_OF_ECLIPTIC * y - sin Earth.OBLIQUITY_OF_ECLIPTIC * z)| ≤ 1.65e-4 ∧
      |m.z - (sin Earth.OBLIQUITY_OF_ECLIPTIC * y + cos Earth.OBLIQUITY_OF_ECLIPTIC * z)| ≤ 1.65e-4 := by
  have r1 : rnd 1 = 1 := isDouble_one
  have c := obliquity_ab.cos hlib (E' := 6e-16) (by norm_num)
  have s := obliquity_ab.sin hlib (E' := 6e-16) (by norm_num)
  refine ⟨_, by simp only [rotationAboutAxis, rotationMatrix, normalized_x, ok_bind, pure_eq_ok]; rfl, ?_⟩
  simp only [mul_zero, zero_mul, rnd_zero, add_zero, zero_add, zero_sub, neg_zero, mul_one, one_mul, r1, mulVec, dot]
  have c' := c.rnd (E' := 8e-16) (by norm_num)
  have s' := (s.rnd (E' := 8e-16) (by norm_num)).rnd (E' := 1e-15) (by norm_num)
  have s1 := (s.rnd (E' := 8e-16) (by norm_num)).neg.rnd (E' := 1e-15) (by norm_num)
  have q1 := (Ab.exact (x := (1 : ℝ)) (s := 1) (by norm_num)).sub c (E' := 1e-15) (s' := 2) (by norm_num) (by norm_num)
  have q2 := c.add (q1.rnd (E' := 1.3e-15) (by norm_num)) (E' := 3e-15) (s' := 3) (by norm_num) (by norm_num)
  have q3 := q2.mul hx (E' := 4.1e-4) (s' := 2e6) (by norm_num) (by norm_num)
  refine ⟨?_, ?_, ?_⟩
  · have q4 : Ab (rnd (lib.cos OBLIQUITY + rnd (rnd (1 - lib.cos OBLIQUITY)))) 1 3e-15 1 := by
      have := q2.1
      rw [add_sub_cancel] at this
      exact ⟨this, by norm_num⟩
    have q5 := q4.mul hx (E' := 1.21e-4) (s' := 413904) (by norm_num) (by norm_num)
    have q6 := ((q5.rnd (E' := 1.22e-4) (by norm_num)).rnd (E' := 1.23e-4) (by norm_num)).1
    rw [one_mul] at q6
    exact q6.trans (by norm_num)
  · have q5 := c'.mul hy (E' := 1.21e-4) (s' := 413904) (by norm_num) (by norm_num)
    have q6 := s1.mul hz (E' := 4.1e-5) (s' := 413904) (by norm_num) (by norm_num)
    have q7 := ((q5.rnd (E' := 1.22e-4) (by norm_num)).add q6 (E' := 1.65e-4) (s' := 1e6) (by norm_num) (by norm_num)).1
    rwa [neg_mul, ← sub_eq_add_neg] at q7
  · have q5 := s'.mul hy (E' := 1.21e-4) (s' := 413904) (by norm_num) (by norm_num)
    have q6 := c'.mul hz (E' := 4.1e-5) (s' := 413904) (by norm_num) (by norm_num)
    exact ((q5.rnd (E' := 1.22e-4) (by norm_num)).add q6 (E' := 1.65e-4) (s' := 1e6) (by norm_num) (by norm_num)).1

/-- `Moon.get_position` without rounding, in the notation of this file -/
theorem moon_exact (t : Epoch) : ∃ m, Moon.getPosition t = .ok m ∧
    ∀ T l0 l lp f d lam beta r, T = t.julianCenturies → l0 = pyRadians (218.31617 + 481267.88088 * T - 1.3972 * T) →
      l = pyRadians (134.96292 + 477198.86753 * T) → lp = pyRadians (357.52543 + 35999.04944 * T) →
      f = pyRadians (93.27283 + 483202.01873 * T) → d = pyRadians (297.85027 + 445267.11135 * T) →
      lam = moonLon l0 l lp f d → beta = moonLat lam l0 l lp f d → r = moonDist l lp d →
      m = ⟨r * cos lam * cos beta,
        cos Earth.OBLIQUITY_OF_ECLIPTIC * (r * sin lam * cos beta) - sin Earth.OBLIQUITY_OF_ECLIPTIC * (r * sin beta),
        sin Earth.OBLIQUITY_OF_ECLIPTIC * (r * sin lam * cos beta) + cos Earth.OBLIQUITY_OF_ECLIPTIC * (r * sin beta)⟩ := by
  simp only [Moon.getPosition, Vec3.rotationAboutAxis_ok _ x_ne, rotate_x]
  refine ⟨_, rfl, ?_⟩
  intro T l0 l lp f d lam beta r hT h0 hl hp hf hd hL hB hR
  subst hT
  simp only [← h0, ← hl, ← hp, ← hf, ← hd, pySin, pyCos]
  rw [moonLon] at hL
  rw [moonLat] at hB
  rw [moonDist] at hR
  have e2 : (2.0 : ℝ) = 2 := by norm_num
  simp only [e2, show (-2.0 : ℝ) = -2 by norm_num, show (22640.0 : ℝ) = 22640 by norm_num, show (769.0 : ℝ) = 769 by norm_num,
    show (4586.0 : ℝ) = 4586 by norm_num, show (2370.0 : ℝ) = 2370 by norm_num, show (668.0 : ℝ) = 668 by norm_num,
    show (412.0 : ℝ) = 412 by norm_num, show (212.0 : ℝ) = 212 by norm_num, show (206.0 : ℝ) = 206 by norm_num,
    show (192.0 : ℝ) = 192 by norm_num, show (165.0 : ℝ) = 165 by norm_num, show (148.0 : ℝ) = 148 by norm_num,
    show (125.0 : ℝ) = 125 by norm_num, show (110.0 : ℝ) = 110 by norm_num, show (55.0 : ℝ) = 55 by norm_num,
    show (18520.0 : ℝ) = 18520 by norm_num, show (541.0 : ℝ) = 541 by norm_num, show (526.0 : ℝ) = 526 by norm_num,
    show (44.0 : ℝ) = 44 by norm_num, show (31.0 : ℝ) = 31 by norm_num, show (25.0 : ℝ) = 25 by norm_num,
    show (23.0 : ℝ) = 23 by norm_num, show (21.0 : ℝ) = 21 by norm_num, show (11.0 : ℝ) = 11 by norm_num,
    show (385000.0 : ℝ) = 385000 by norm_num, show (20905.0 : ℝ) = 20905 by norm_num, show (3699.0 : ℝ) = 3699 by norm_num,
    show (2956.0 : ℝ) = 2956 by norm_num, show (570.0 : ℝ) = 570 by norm_num, show (246.0 : ℝ) = 246 by norm_num,
    show (205.0 : ℝ) = 205 by norm_num, show (171.0 : ℝ) = 171 by norm_num, show (152.0 : ℝ) = 152 by norm_num,
    ← hL, ← hB, ← hR]

theorem moonPosition_error (hlib : Spec.Accurate lib) (h0 : 1 ≤ e) (h1 : e ≤ 131072) :
    ∃ m' m, moonPosition lib e = .ok m' ∧ Moon.getPosition ⟨e⟩ = .ok m ∧ (m'.minus m).magnitude ≤ 3e-4 := by
  obtain ⟨m, hm, hm'⟩ := moon_exact ⟨e⟩
  specialize hm' _ _ _ _ _ _ _ _ _ rfl rfl rfl rfl rfl rfl rfl rfl rfl
  have ht : Ab (julianCenturies e) (⟨e⟩ : Epoch).julianCenturies 9.6e-15 2.2 :=
    Ab.of_sc (centuries_sc h0 h1) (by norm_num) (by norm_num)
  have a0 := (angle_ab (e := e) (a := 218.31617) (b := 481267.88088) (by norm_num) (by norm_num) (by norm_num) (by norm_num) h0 h1)
  have a1 := (Ab.const (c := 1.3972) (E := 1.7e-16) (by norm_num) (by norm_num)).mul ht (E' := 2e-14) (s' := 3.1)
    (by norm_num) (by norm_num)
  have l0 := radians_ab (a0.sub a1 (E' := 5.3e-9) (s' := 1059200) (by norm_num) (by norm_num)) (E' := 1e-10) (s' := 18700)
    (by norm_num) (by norm_num)
  have l := radians_ab (angle_ab (e := e) (a := 134.96292) (b := 477198.86753) (by norm_num) (by norm_num) (by norm_num)
    (by norm_num) h0 h1) (E' := 1e-10) (s' := 18700) (by norm_num) (by norm_num)
  have lp := radians_ab (angle_ab (e := e) (a := 357.52543) (b := 35999.04944) (by norm_num) (by norm_num) (by norm_num)
    (by norm_num) h0 h1) (E' := 1e-11) (s' := 1400) (by norm_num) (by norm_num)
  have f := radians_ab (angle_ab (e := e) (a := 93.27283) (b := 483202.01873) (by norm_num) (by norm_num) (by norm_num)
    (by norm_num) h0 h1) (E' := 1e-10) (s' := 18700) (by norm_num) (by norm_num)
  have d := radians_ab (angle_ab (e := e) (a := 297.85027) (b := 445267.11135) (by norm_num) (by norm_num) (by norm_num)
    (by norm_num) h0 h1) (E' := 1e-10) (s' := 18700) (by norm_num) (by norm_num)
  have lam := moonLongitude_ab hlib l0 l lp f d
  have beta := moonLatitude_ab hlib lam l0 l lp f d
  have r := moonDistance_ab hlib l lp f d
  have cl := lam.cos hlib (E' := 2.03e-10) (by norm_num)
  have sl := lam.sin hlib (E' := 2.03e-10) (by norm_num)
  have cb := beta.cos hlib (E' := 4.2e-11) (by norm_num)
  have sb := beta.sin hlib (E' := 4.2e-11) (by norm_num)
  have x := (r.mul cl (E' := 1e-4) (s' := 413904) (by norm_num) (by norm_num)).mul cb (E' := 1.2e-4) (s' := 413904)
    (by norm_num) (by norm_num)
  have y := (r.mul sl (E' := 1e-4) (s' := 413904) (by norm_num) (by norm_num)).mul cb (E' := 1.2e-4) (s' := 413904)
    (by norm_num) (by norm_num)
  have z := r.mul sb (E' := 4e-5) (s' := 413904) (by norm_num) (by norm_num)
  obtain ⟨m', k1, k2, k3, k4⟩ := tilt_ab hlib x y z
  refine ⟨m', m, k1, hm, ?_⟩
  rw [hm']
  exact (magnitude_of_components k2 k3 k4).trans (by norm_num)

/-! ## the Sun -/

theorem sunPosition_error (hlib : Spec.Accurate lib) (h0 : 1 ≤ e) (h1 : e ≤ 131072) :
    ((sunPosition lib e).minus (Sun.getPosition ⟨e⟩)).magnitude ≤ 4e-3 := by
  have ma := radians_ab (angle_ab (e := e) (a := 357.5256) (b := 35999.049) (by norm_num) (by norm_num) (by norm_num)
    (by norm_num) h0 h1) (E' := 9e-12) (s' := 1400) (by norm_num) (by norm_num)
  have sma := ma.sin hlib (E' := 9.1e-12) (by norm_num)
  have cma := ma.cos hlib (E' := 9.1e-12) (by norm_num)
  have c2ma := (ma.double (E' := 1.84e-11) (s' := 2800) (by norm_num) (by norm_num)).cos hlib (E' := 1.85e-11) (by norm_num)
  have a := (dms_ab (s := 6892) (b := 0.0335) (by norm_num) (by norm_num) le_rfl).mul sma (E' := 3.1e-13) (s' := 0.0335)
    (by norm_num) (by norm_num)
  have b := (((dms_ab (s := 72) (b := 0.00035) (by norm_num) (by norm_num) le_rfl).mul
    (Ab.exact (x := (2 : ℝ)) (s := 2) (by norm_num)) (E' := 1e-18) (s' := 0.0007) (by norm_num) (by norm_num)).mul sma
    (E' := 7e-15) (s' := 0.0007) (by norm_num) (by norm_num)).mul cma (E' := 1.5e-14) (s' := 0.0007) (by norm_num) (by norm_num)
  have w : Ab (radians (rnd 282.94)) Sun.W_PLUS_W 3e-15 4.96 :=
    Ab.of_sc (const_radians 282.94 (b := 4.96) (by rw [abs_of_pos (by norm_num)]; norm_num)) (by norm_num) (by norm_num)
  have lam := ((w.add ma (E' := 9.2e-12) (s' := 1405) (by norm_num) (by norm_num)).add a (E' := 9.8e-12) (s' := 1406)
    (by norm_num) (by norm_num)).add b (E' := 1.01e-11) (s' := 1407) (by norm_num) (by norm_num)
  have r1 := (Ab.const (c := 2.499) (E := 3e-16) (by norm_num) (by norm_num)).mul cma (E' := 2.3e-11) (s' := 2.499)
    (by norm_num) (by norm_num)
  have r2 := (Ab.const (c := 0.021) (E := 3e-18) (by norm_num) (by norm_num)).mul c2ma (E' := 4e-13) (s' := 0.021)
    (by norm_num) (by norm_num)
  have r := (((Ab.const (c := 149.619) (E := 1.8e-14) (by norm_num) (by norm_num)).sub r1 (E' := 2.31e-11) (s' := 152.118)
    (by norm_num) (by norm_num)).sub r2 (E' := 2.36e-11) (s' := 152.139) (by norm_num) (by norm_num)).mul
    (Ab.exact (x := (1e6 : ℝ)) (s := 1e6) (by norm_num)) (E' := 2.4e-5) (s' := 152139000) (by norm_num) (by norm_num)
  have cl := lam.cos hlib (E' := 1.02e-11) (by norm_num)
  have sl := lam.sin hlib (E' := 1.02e-11) (by norm_num)
  have co := obliquity_ab.cos hlib (E' := 6e-16) (by norm_num)
  have so := obliquity_ab.sin hlib (E' := 6e-16) (by norm_num)
  have x := r.mul cl (E' := 1.6e-3) (s' := 152139000) (by norm_num) (by norm_num)
  have y := r.mul sl (E' := 1.6e-3) (s' := 152139000) (by norm_num) (by norm_num)
  have y1 := y.mul co (E' := 1.7e-3) (s' := 152139000) (by norm_num) (by norm_num)
  have z1 := y.mul so (E' := 1.7e-3) (s' := 152139000) (by norm_num) (by norm_num)
  exact (magnitude_of_components (E := 1.7e-3) (x.1.trans (by norm_num)) y1.1 z1.1).trans (by norm_num)

end Openspace.F64
