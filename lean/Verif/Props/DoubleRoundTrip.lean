import Verif.Lemmas.OrbitShift
import Verif.Props.DoubleToIjk
import Verif.Props.DoubleElementAngles
import Verif.Props.DoubleAngles

/-!
# Property C155: a state recovered from its classical elements in double precision
-/

namespace Openspace

open Real

namespace F64

theorem turn_lt : rnd (2 * pi) ≤ 2 * π := by
  have h1 := Real.pi_gt_d20
  rw [turn_value]
  norm_num at h1 ⊢
  linarith

/-- a normalised arctangent is at most `2 * pi` -/
theorem atan2_turn {lib : Libm} (hatan : Spec.Atan2Accurate lib) (y x : ℝ) :
    wrapNeg (lib.atan2 y x) ≤ rnd (2 * pi) := by
  have hu2 : (1 : ℝ) / 2 ^ 51 = 4 * u := by unfold u; norm_num
  have hu := u_tiny
  have h1 := hatan y x
  rw [hu2] at h1
  have i1 : |Complex.arg ⟨x, y⟩| ≤ π := Complex.abs_arg_le_pi _
  have i3 := Real.pi_lt_d2
  have i4 := Real.pi_gt_d2
  obtain ⟨a1, a2⟩ := _root_.abs_le.mp h1
  obtain ⟨b1, b2⟩ := _root_.abs_le.mp i1
  obtain ⟨t1, t2⟩ := _root_.abs_le.mp turn_near
  refine (wrapNeg_range ?_ ?_).2 <;> norm_num at i3 i4 hu <;> linarith

/-- the mean anomaly does not leave the turn -/
theorem mean_turn {lib : Libm} (hl : Spec.Accurate lib) {e ea : ℝ} (he : 0 ≤ e) (he9 : e ≤ 0.9) (h0 : 0 ≤ ea)
    (h1 : ea ≤ rnd (2 * pi)) : 0 ≤ maFromEaE lib ea e ∧ maFromEaE lib ea e ≤ rnd (2 * pi) := by
  have hu := u_tiny
  have hu0 := u_pos
  have p1 := Real.pi_gt_d20
  have p2 := Real.pi_lt_d20
  have hu1 : u = 1 / 2 ^ 53 := by unfold u; norm_num
  have ht := turn_value
  have t2 := turn_lt
  have hs := hl.sin ea
  have hu2 : (1 : ℝ) / 2 ^ 52 = 2 * u := by rw [hu1]; norm_num
  rw [hu2] at hs
  obtain ⟨s1, s2⟩ := _root_.abs_le.mp hs
  -- the sine at both ends of the turn
  have k1 : sin ea ≤ ea := Real.sin_le h0
  have k2 : -sin ea ≤ 2 * π - ea := by
    have := Real.sin_le (x := 2 * π - ea) (by linarith)
    rwa [Real.sin_two_pi_sub] at this
  have k3 := neg_one_le_sin ea
  have k4 := sin_le_one ea
  obtain ⟨σ, hσ⟩ : ∃ σ, σ = lib.sin ea := ⟨_, rfl⟩
  rw [← hσ] at s1 s2
  have r1 := rnd_u (e * σ)
  obtain ⟨y, hy⟩ : ∃ y, y = rnd (e * σ) := ⟨_, rfl⟩
  have key : ∀ {a d : ℝ}, a ≤ d + 2 * u → 0 ≤ a → 0 ≤ d → e * a + u * (e * a) ≤ 0.9001 * d + 1.801 * u := by
    intro a d h ha hd
    have m1 : e * a ≤ 0.9 * (d + 2 * u) := by gcongr
    have m2 : u * (e * a) ≤ 12 / 10 ^ 17 * (0.9 * (d + 2 * u)) := by gcongr
    norm_num at m1 m2 ⊢
    linarith
  have y1 : -y ≤ 0.9001 * (2 * π - ea) + 1.801 * u := by
    rw [hy]
    by_cases hsg : 0 ≤ σ
    · have := rnd_nonneg (mul_nonneg he hsg)
      have : 0 ≤ 2 * π - ea := by linarith
      norm_num; linarith
    · rw [not_le] at hsg
      rw [_root_.abs_of_nonpos (mul_nonpos_of_nonneg_of_nonpos he hsg.le)] at r1
      obtain ⟨r2, r3⟩ := _root_.abs_le.mp r1
      have := key (a := -σ) (d := 2 * π - ea) (by linarith) (by linarith) (by linarith)
      linarith
  have y2 : y ≤ 0.9001 * ea + 1.801 * u := by
    rw [hy]
    by_cases hsg : 0 ≤ σ
    · rw [_root_.abs_of_nonneg (mul_nonneg he hsg)] at r1
      obtain ⟨r2, r3⟩ := _root_.abs_le.mp r1
      have := key (a := σ) (d := ea) (by linarith) hsg h0
      linarith
    · rw [not_le] at hsg
      have h2 := mul_nonpos_of_nonneg_of_nonpos he hsg.le
      rw [_root_.abs_of_nonpos h2] at r1
      obtain ⟨r2, r3⟩ := _root_.abs_le.mp r1
      have : u * -(e * σ) ≤ 1 * -(e * σ) := by gcongr <;> linarith
      norm_num; linarith
  have c1 : ea - y ≤ rnd (2 * pi) + 3.9 * u := by
    rw [ht] at h1 ⊢
    rw [hu1] at y1 ⊢
    norm_num at p1 p2 h1 y1 ⊢
    linarith
  have c2 : rnd (rnd (2 * pi) + 3.9 * u) = rnd (2 * pi) := by
    rw [ht, hu1, rnd_eq 7074237752028440 (-50)] <;> norm_num
  unfold maFromEaE
  rw [← hσ, ← hy]
  refine wrapNeg_range ?_ ((rnd_mono c1).trans_eq c2)
  have c3 : -1 ≤ ea - y := by norm_num at y2 hu ⊢; linarith
  have c4 := rnd_mono c3
  have c5 : rnd (-1) = -1 := by
    have := rnd_exact (-1) 0 (by norm_num); norm_num at this ⊢; exact this
  rw [c5] at c4
  rw [ht]
  norm_num
  linarith

end F64

/-- an inclined orbit is not in the equatorial plane -/
theorem off_equator {s : State} {el : ClassicalElements} (hh : s.position.cross s.velocity ≠ ⟨0, 0, 0⟩)
    (hb : s.velocity.magnitude ^ 2 / 2 < Earth.MU / s.position.magnitude) (hel : ClassicalElements.fromIjk s = .ok el)
    (hs : 0 < sin el.inclination) :
    (s.position.cross s.velocity).x ≠ 0 ∨ (s.position.cross s.velocity).y ≠ 0 := by
  have hr : s.position ≠ ⟨0, 0, 0⟩ := by
    intro h; rw [h] at hh; simp [Vec3.cross] at hh
  obtain ⟨el₀, E, nu, w, g1, -, ha, he, he', -, -, -, -, -, -, -, hwu, hc, hi, -⟩ := fromIjk_bound s hr hh hb
  have : el₀ = el := by rw [hel, Except.ok.injEq] at g1; exact g1.symm
  subst this
  by_contra hcon
  rw [not_or, not_not, not_not] at hcon
  rw [hi, sin_inclination hwu] at hs
  have hk : 0 < √(Earth.MU * (el₀.semimajor_axis * (1 - el₀.eccentricity ^ 2))) :=
    Real.sqrt_pos.mpr (mul_pos mu_pos (mul_pos ha (by nlinarith)))
  obtain ⟨c1, c2⟩ := hcon
  rw [hc] at c1 c2
  simp only [Vec3.scaled] at c1 c2
  have x0 : w.x = 0 := by
    rcases mul_eq_zero.mp c1 with h | h
    · first | exact h | exact absurd h hk.ne'
    · first | exact h | exact absurd h hk.ne'
  have y0 : w.y = 0 := by
    rcases mul_eq_zero.mp c2 with h | h
    · first | exact h | exact absurd h hk.ne'
    · first | exact h | exact absurd h hk.ne'
  rw [x0, y0] at hs
  simp at hs

theorem minus_swap (a b : Vec3) : (a.minus b).magnitude = (b.minus a).magnitude := by
  apply magnitude_eq_of_dot
  simp only [Vec3.minus, Vec3.dot]
  ring

/-- a state is the point of its own elements, up to the tolerance of the solver -/
theorem own_point {s : State} {el : ClassicalElements}
    (hb : s.velocity.magnitude ^ 2 / 2 < Earth.MU / s.position.magnitude)
    (hp : (s.position.cross s.velocity).x ≠ 0 ∨ (s.position.cross s.velocity).y ≠ 0)
    (hel : ClassicalElements.fromIjk s = .ok el) (he9 : el.eccentricity ≤ 0.9) {E : ℝ}
    (hE : E - el.eccentricity * sin E = el.mean_anomaly) :
    ((orbitPos el E).minus s.position).magnitude ≤ el.semimajor_axis * 1e-23 ∧
    ((orbitVel el (√(Earth.MU / el.semimajor_axis ^ 3)) E).minus s.velocity).magnitude ≤
      √(Earth.MU / el.semimajor_axis) * 1e-21 := by
  obtain ⟨el₀, s', N, g1, hN, ha, he, he', -, -, -, gp, gv⟩ := C102_round_trip_partial s hb hp
  have : el₀ = el := by rw [hel, Except.ok.injEq] at g1; exact g1.symm
  subst this
  obtain ⟨qp, qv⟩ := toIjk_near ha he he' rfl (hN N le_rfl) (E := E) (k := 0) (by rw [hE]; push_cast; ring)
  have hκ := Real.sqrt_nonneg (Earth.MU / el₀.semimajor_axis)
  have d0 : (0.1 : ℝ) ≤ 1 - el₀.eccentricity := by norm_num at he9 ⊢; linarith
  have d1 : 5e-25 / (1 - el₀.eccentricity) ≤ 5e-24 := by
    rw [div_le_iff₀ (by linarith)]; norm_num at d0 ⊢; linarith
  have d3 : 5e-25 / (1 - el₀.eccentricity) ^ 3 ≤ 5e-22 := by
    have : (0.1 : ℝ) ^ 3 ≤ (1 - el₀.eccentricity) ^ 3 := by gcongr
    rw [div_le_iff₀ (lt_of_lt_of_le (by norm_num) this)]; norm_num at this ⊢; linarith
  have c1 := mul_le_mul_of_nonneg_left d1 ha.le
  have c3 := mul_le_mul_of_nonneg_left d3 hκ
  rw [minus_swap] at qp qv
  constructor
  · refine (F64.minus_triangle _ s'.position _).trans ?_
    norm_num at c1 gp qp ⊢; linarith
  · refine (F64.minus_triangle _ s'.velocity _).trans ?_
    norm_num at c3 gv qv ⊢; linarith

/-- speed scale of an orbit -/
theorem speed_scale {a : ℝ} (ha : 0 < a) : √(Earth.MU / a ^ 3) * a = √(Earth.MU / a) := by
  have hmu := mu_pos
  rw [show Earth.MU / a = Earth.MU / a ^ 3 * a ^ 2 by field_simp, Real.sqrt_mul (by positivity), Real.sqrt_sq ha.le]

/-- sizes from reciprocals -/
theorem size_shift {a a' : ℝ} (ha : 0 < a) (ha' : 0 < a') (h : |a / a' - 1| ≤ 5e-14) :
    |a' - a| ≤ 5.1e-14 * a ∧ |√(Earth.MU / a') - √(Earth.MU / a)| ≤ 5e-14 * √(Earth.MU / a) := by
  have hmu := mu_pos
  obtain ⟨sa1, sa2⟩ := abs_le.mp h
  constructor
  · obtain ⟨q, hq⟩ : ∃ q, q = a / a' := ⟨_, rfl⟩
    rw [← hq] at sa1 sa2
    have f2 : a' * q = a := by rw [hq]; field_simp
    rw [← f2, abs_le]
    constructor <;> norm_num at sa1 sa2 ⊢ <;> nlinarith
  · have f1 : √(Earth.MU / a') = √(Earth.MU / a) * √(a / a') := by
      rw [← Real.sqrt_mul (by positivity)]; congr 1; field_simp
    have q0 : 0 ≤ a / a' := by positivity
    have f2 : |√(a / a') - 1| ≤ 5e-14 := by
      have f3 := Real.mul_self_sqrt q0
      have f4 := Real.sqrt_nonneg (a / a')
      obtain ⟨q, hq⟩ : ∃ q, q = √(a / a') := ⟨_, rfl⟩
      rw [← hq] at f3 f4 ⊢
      rw [← f3] at sa1 sa2
      rw [abs_le]
      constructor <;> norm_num at sa1 sa2 ⊢ <;> nlinarith
    rw [f1, show √(Earth.MU / a) * √(a / a') - √(Earth.MU / a) = √(Earth.MU / a) * (√(a / a') - 1) by ring, abs_mul,
      abs_of_nonneg (Real.sqrt_nonneg _), mul_comm]
    exact mul_le_mul_of_nonneg_right f2 (Real.sqrt_nonneg _)

/-- what `from_ijk` computes, in one place -/
theorem elements_rounded (lib : F64.Libm) (hlib : Spec.Accurate lib) (hatan : Spec.Atan2Accurate lib) (s : State)
    (el : ClassicalElements) (hh : s.position.cross s.velocity ≠ ⟨0, 0, 0⟩)
    (hb : s.velocity.magnitude ^ 2 / 2 < Earth.MU / s.position.magnitude)
    (hel : ClassicalElements.fromIjk s = .ok el) (h1 : 2e-7 ≤ el.eccentricity) (h2 : el.eccentricity ≤ 0.89)
    (hs : 1e-12 ≤ sin el.inclination) :
    ∃ el', F64.fromIjk lib s = .ok el' ∧ el'.epoch = s.epoch ∧ 0 < el.semimajor_axis ∧ 0 < el'.semimajor_axis ∧
      0 ≤ el'.eccentricity ∧ el'.eccentricity ≤ 0.9 ∧ |el'.eccentricity - el.eccentricity| ≤ 2e-14 / el.eccentricity ∧
      |√(1 - el'.eccentricity * el'.eccentricity) - √(1 - el.eccentricity * el.eccentricity)| ≤ 1.2 * 2e-14 ∧
      |el'.inclination - el.inclination| ≤ 4e-15 ∧
      Spec.AngleNear el'.mean_anomaly el.mean_anomaly (5e-14 / el.eccentricity) ∧
      Spec.AngleNear el'.raan el.raan (4.1e-15 / sin el.inclination) ∧
      Spec.AngleNear el'.argument_of_perigee el.argument_of_perigee
          (4.5e-15 / sin el.inclination + 7.1e-13 / el.eccentricity) ∧
      |el'.mean_anomaly| ≤ 2 * π ∧ |el.semimajor_axis / el'.semimajor_axis - 1| ≤ 5e-14 := by
  have hr : s.position ≠ ⟨0, 0, 0⟩ := by
    intro h; rw [h] at hh; simp [Vec3.cross] at hh
  have hu' := F64.u_tiny
  have h2' : el.eccentricity ≤ 0.9 := h2.trans (by norm_num)
  obtain ⟨el', k1, kde, kdi, kdM, kang⟩ := C148_angles lib hlib hatan s el hh hb hel h1 h2'
  obtain ⟨kO, kw⟩ := kang hs
  obtain ⟨a', e', n', ea', nu', w', k1', -, -, -, kE, -, ka0, ke0, ke1, ka1, kep⟩ :=
    F64.fromIjk_parts lib s el hh hb hel h1 (h2.trans (by norm_num))
  obtain ⟨el₀, E₀, -, -, g1, -, ha, he, he', -, hrE, -, -, -, -⟩ := fromIjk_bound s hr hh hb
  have : el₀ = el := by rw [hel, Except.ok.injEq] at g1; exact g1.symm
  subst this
  rw [k1, Except.ok.injEq] at k1'
  have ka' : el'.semimajor_axis = a' := by rw [k1']
  have ke' : el'.eccentricity = e' := by rw [k1']
  have kM' : el'.mean_anomaly = F64.maFromEaE lib ea' e' := by rw [k1']
  have kepo : el'.epoch = s.epoch := by rw [k1']
  have e0 : 0 < el₀.eccentricity := lt_of_lt_of_le (by norm_num) h1
  have hie : 1 / el₀.eccentricity ≤ 5e6 := by rw [div_le_iff₀ e0]; norm_num at h1 ⊢; linarith
  have d1 : ∀ c : ℝ, c / el₀.eccentricity = c * (1 / el₀.eccentricity) := fun c => by ring
  have e9 : e' ≤ 0.9 := by
    rw [ke', d1] at kde
    have := (abs_le.mp kde).2
    norm_num at this hie h2 ⊢
    linarith
  have hb' := axis_ratio he h2' ke0 e9 ke1
  have ea0 : 0 ≤ ea' ∧ ea' ≤ F64.rnd (2 * F64.pi) := by
    simp only [F64.eaFromRdvRAN, bind_eq_ok, pure_eq_ok, Except.ok.injEq] at kE
    obtain ⟨_, _, _, _, rfl⟩ := kE
    exact ⟨(F64.atan2_range hatan _ _).1, F64.atan2_turn hatan _ _⟩
  obtain ⟨m1, m2⟩ := F64.mean_turn hlib ke0 e9 ea0.1 ea0.2
  have hM : |el'.mean_anomaly| ≤ 2 * π := by
    rw [kM', abs_of_nonneg m1]; exact m2.trans F64.turn_lt
  have hr0 := Vec3.magnitude_pos.mpr hr
  have hD := radius_ge (E := E₀) he h2'
  have sa : |el₀.semimajor_axis / a' - 1| ≤ 5e-14 := by
    have : el₀.semimajor_axis / a' - 1 = el₀.semimajor_axis * (1 / a' - 1 / el₀.semimajor_axis) := by
      field_simp
    rw [this, abs_mul, abs_of_pos ha]
    refine (mul_le_mul_of_nonneg_left ka1 ha.le).trans ?_
    rw [hrE, show el₀.semimajor_axis * (40 * F64.u / (el₀.semimajor_axis * (1 - el₀.eccentricity * cos E₀)))
      = 40 * F64.u / (1 - el₀.eccentricity * cos E₀) by field_simp]
    rw [div_le_iff₀ (lt_of_lt_of_le (by norm_num) hD)]
    norm_num at hD hu' ⊢
    linarith
  rw [← ke'] at ke0 e9 hb'
  rw [← ka'] at ka0 sa
  exact ⟨el', k1, kepo, ha, ka0, ke0, e9, kde, hb', kdi, kdM, kO, kw, hM, sa⟩

/-- **C155.** For a bound state with an eccentricity from 2e-7 to 0.89, not in the equatorial plane, `from_ijk` followed
by `to_ijk` in double precision gives back the position up to `a * (2.2e-12 / e + 2.7e-12 + 1.7e-14 / sin i)` and the
velocity up to `sqrt(mu / a) * (8.5e-11 / e + 1.6e-10 + 9e-14 / sin i)`. -/
theorem C155_round_trip (lib : F64.Libm) (hlib : Spec.Accurate lib) (hatan : Spec.Atan2Accurate lib) (s : State)
    (el : ClassicalElements) (hh : s.position.cross s.velocity ≠ ⟨0, 0, 0⟩)
    (hb : s.velocity.magnitude ^ 2 / 2 < Earth.MU / s.position.magnitude)
    (hel : ClassicalElements.fromIjk s = .ok el) (h1 : 2e-7 ≤ el.eccentricity) (h2 : el.eccentricity ≤ 0.89)
    (hs : 1e-12 ≤ sin el.inclination) :
    ∃ el' p v N, F64.fromIjk lib s = .ok el' ∧ el'.epoch = s.epoch ∧
      (∀ fuel, N ≤ fuel → F64.toIjk lib fuel el' = .ok (p, v)) ∧
      (p.minus s.position).magnitude ≤
        el.semimajor_axis * (2.2e-12 / el.eccentricity + 2.7e-12 + 1.7e-14 / sin el.inclination) ∧
      (v.minus s.velocity).magnitude ≤
        √(Earth.MU / el.semimajor_axis) * (8.5e-11 / el.eccentricity + 1.6e-10 + 9e-14 / sin el.inclination) := by
  have hmu := mu_pos
  have h2' : el.eccentricity ≤ 0.9 := h2.trans (by norm_num)
  have he : 0 ≤ el.eccentricity := le_trans (by norm_num) h1
  have he' : el.eccentricity < 1 := lt_of_le_of_lt h2 (by norm_num)
  have e0 : 0 < el.eccentricity := lt_of_lt_of_le (by norm_num) h1
  have s0 : 0 < sin el.inclination := lt_of_lt_of_le (by norm_num) hs
  obtain ⟨el', k1, kepo, ha, ka0, ke0, e9, kde, hb', kdi, kdM, kO, kw, hM, sa⟩ :=
    elements_rounded lib hlib hatan s el hh hb hel h1 h2 hs
  obtain ⟨sa3, sk⟩ := size_shift ha ka0 sa
  have hp := off_equator hh hb hel s0
  -- the two orbits
  obtain ⟨E, hE, -⟩ := kepler_exists he he' el.mean_anomaly
  obtain ⟨E', hE', -⟩ := kepler_exists ke0 (lt_of_le_of_lt e9 (by norm_num)) el'.mean_anomaly
  rw [kepler] at hE hE'
  have hEE := kepler_shift (k := 0) (k' := 0) he he' (by rw [hE]; push_cast; ring) (by rw [hE']; push_cast; ring) kdM
  have hdE : (5e-14 / el.eccentricity + |el'.eccentricity - el.eccentricity|) / (1 - el.eccentricity)
      ≤ 7e-13 / el.eccentricity := by
    have d1 : ∀ c : ℝ, c / el.eccentricity = c * (1 / el.eccentricity) := fun c => by ring
    rw [div_le_iff₀ (by linarith)]
    have i0 : 0 < el.eccentricity⁻¹ := by positivity
    have : 0.11 * (1 / el.eccentricity) ≤ (1 - el.eccentricity) * (1 / el.eccentricity) := by
      gcongr; norm_num at h2 ⊢; linarith
    rw [d1] at kde
    rw [d1 5e-14, d1 7e-13]
    norm_num at this kde ⊢
    linarith
  have hEE' := hEE.mono hdE
  obtain ⟨p, v, N, hN, hpos, hvel⟩ := toIjk_rounded hlib ka0 ke0 e9 hM rfl (E := E') (k := 0)
    (by rw [hE']; push_cast; ring)
  obtain ⟨op, ov⟩ := own_point hb hp hel h2' hE
  have sp := orbitPos_shift kO (Spec.AngleNear.of_abs kdi) kw hEE' ha sa3 he h2' ke0 e9 kde hb'
  have κ0 : 0 < √(Earth.MU / el.semimajor_axis) := Real.sqrt_pos.mpr (by positivity)
  have sv := orbitVel_shift (n := √(Earth.MU / el.semimajor_axis ^ 3)) (n' := √(Earth.MU / el'.semimajor_axis ^ 3))
    (dk := 5e-14) kO (Spec.AngleNear.of_abs kdi) kw hEE' (by rw [speed_scale ha]; exact κ0)
    (by rw [speed_scale ha, speed_scale ka0]; exact sk) he h2' ke0 e9 kde hb'
  rw [speed_scale ha] at sv
  have d1 : ∀ c : ℝ, c / el.eccentricity = c * (1 / el.eccentricity) := fun c => by ring
  have d2 : ∀ c : ℝ, c / sin el.inclination = c * (1 / sin el.inclination) := fun c => by ring
  have i1 : 0 < 1 / el.eccentricity := by positivity
  have i2 : 0 < 1 / sin el.inclination := by positivity
  rw [d1 7e-13, d1 2e-14, d1 7.1e-13, d2 4.1e-15, d2 4.5e-15] at sp sv
  refine ⟨el', p, v, N, k1, kepo, hN, ?_, ?_⟩
  · rw [d1, d2]
    have t1 := F64.minus_triangle p (orbitPos el' E') s.position
    have t2 := F64.minus_triangle (orbitPos el' E') (orbitPos el E) s.position
    have b1 := (abs_le.mp sa3).2
    clear sv hvel sk hEE hEE' kO kw kdM hdE hN
    generalize 1 / el.eccentricity = I at *
    generalize 1 / sin el.inclination = J at *
    have c1 : 0 < el.semimajor_axis * I := mul_pos ha i1
    have c2 : 0 < el.semimajor_axis * J := mul_pos ha i2
    norm_num at sp hpos op b1 ⊢
    linarith
  · rw [d1, d2]
    have t1 := F64.minus_triangle v (orbitVel el' (√(Earth.MU / el'.semimajor_axis ^ 3)) E') s.velocity
    have t2 := F64.minus_triangle (orbitVel el' (√(Earth.MU / el'.semimajor_axis ^ 3)) E')
      (orbitVel el (√(Earth.MU / el.semimajor_axis ^ 3)) E) s.velocity
    have b1 := (abs_le.mp sk).2
    clear sp hpos sa3 hEE hEE' kO kw kdM hdE hN
    generalize 1 / el.eccentricity = I at *
    generalize 1 / sin el.inclination = J at *
    have c1 : 0 < √(Earth.MU / el.semimajor_axis) * I := mul_pos κ0 i1
    have c2 : 0 < √(Earth.MU / el.semimajor_axis) * J := mul_pos κ0 i2
    generalize √(Earth.MU / el.semimajor_axis) = κ at *
    generalize √(Earth.MU / el'.semimajor_axis) = κ' at *
    norm_num at sv hvel ov b1 ⊢
    linarith

/-- an inclined elliptic orbit meets the hypotheses; its position comes back to a millimetre -/
example : ∃ el' p v N, F64.fromIjk F64.rounded (State.new ⟨0⟩ ⟨7000, 0, 0⟩ ⟨0, 6, 5⟩) = .ok el' ∧
    (∀ fuel, N ≤ fuel → F64.toIjk F64.rounded fuel el' = .ok (p, v)) ∧ (p.minus ⟨7000, 0, 0⟩).magnitude ≤ 1e-6 := by
  obtain ⟨s, hs⟩ : ∃ s : State, s = State.new ⟨0⟩ ⟨7000, 0, 0⟩ ⟨0, 6, 5⟩ := ⟨_, rfl⟩
  obtain ⟨hh, hb, el, g1, b3, b2⟩ := sample_orbit s hs
  have hsp : s.position = ⟨7000, 0, 0⟩ := by rw [hs]; rfl
  have hsv : s.velocity = ⟨0, 6, 5⟩ := by rw [hs]; rfl
  have hpm : (Vec3.mk 7000 0 0).magnitude = 7000 :=
    Vec3.magnitude_of_dot (by norm_num) (by norm_num [Vec3.dot])
  obtain ⟨el₀, E, nu, w, g1', -, ha, -, he1, hen, -, -, -, -, -, -, hwu, hc, hi, -⟩ := fromIjk_bound s (by rw [hsp]; norm_num) hh hb
  have : el₀ = el := by rw [g1, Except.ok.injEq] at g1'; exact g1'.symm
  subst this
  have hsin : 0.6 ≤ sin el₀.inclination := by
    rw [hi, sin_inclination hwu]
    refine Real.le_sqrt_of_sq_le ?_
    rw [hsp, hsv] at hc
    have k0 : 0 < √(Earth.MU * (el₀.semimajor_axis * (1 - el₀.eccentricity ^ 2))) :=
      Real.sqrt_pos.mpr (mul_pos mu_pos (mul_pos ha (by nlinarith)))
    obtain ⟨k, hk⟩ : ∃ k, k = √(Earth.MU * (el₀.semimajor_axis * (1 - el₀.eccentricity ^ 2))) := ⟨_, rfl⟩
    rw [← hk] at hc k0
    simp only [Vec3.cross, Vec3.scaled, Vec3.mk.injEq] at hc
    obtain ⟨hx, hy, hz⟩ := hc
    have yz : w.y = -(5 / 6) * w.z := by
      refine mul_right_cancel₀ k0.ne' ?_
      linarith
    simp only [Vec3.dot] at hwu
    rw [yz] at hwu ⊢
    nlinarith [mul_self_nonneg w.x]
  have hA : el₀.semimajor_axis ≤ 8000 := by
    rw [hsp, hsv, hpm, Vec3.magnitude_sq, show -Earth.MU / (2 * el₀.semimajor_axis)
      = -(Earth.MU / 2) * (1 / el₀.semimajor_axis) by ring] at hen
    have : 1 / 8000 ≤ 1 / el₀.semimajor_axis := by norm_num [Earth.MU] at hen ⊢; linarith
    rwa [one_div_le_one_div (by norm_num) ha] at this
  obtain ⟨el', p, v, N, h, -, hN, hp, -⟩ :=
    C155_round_trip F64.rounded F64.rounded_accurate.1 F64.rounded_accurate.2 s el₀ hh hb g1 (by linarith) (by linarith)
      (by linarith)
  refine ⟨el', p, v, N, hs ▸ h, hN, ?_⟩
  rw [hsp] at hp
  refine hp.trans (le_trans (b := 8000 * (3.2e-11 + 2.7e-12 + 1e-13)) ?_ (by norm_num))
  have i1 : 2.2e-12 / el₀.eccentricity ≤ 3.2e-11 := by
    rw [div_le_iff₀ (by linarith)]; norm_num at b3 ⊢; linarith
  have i2 : 1.7e-14 / sin el₀.inclination ≤ 1e-13 := by
    rw [div_le_iff₀ (by linarith)]; norm_num at hsin ⊢; linarith
  refine mul_le_mul hA (by linarith) ?_ (by norm_num)
  have := div_nonneg (show (0 : ℝ) ≤ 2.2e-12 by norm_num) (show 0 ≤ el₀.eccentricity by linarith)
  have := div_nonneg (show (0 : ℝ) ≤ 1.7e-14 by norm_num) (show 0 ≤ sin el₀.inclination by linarith)
  linarith

end Openspace
