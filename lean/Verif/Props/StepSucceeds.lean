import Verif.Props.Forces
import Verif.Props.Propagation

/-!
# C90: a propagation succeeds inside an explicit envelope
-/

namespace Openspace

open Real Spec

theorem Vec3.plus_zero_dist (c d : Vec3) : ((c.plus d).minus c) = d := by
  ext <;> simp only [Vec3.plus, Vec3.minus] <;> ring

theorem Vec3.plus_minus_cancel (c p : Vec3) : c.plus (p.minus c) = p := by
  ext <;> simp only [Vec3.plus, Vec3.minus] <;> ring

/-- moved by less than `d`, a point stays off the axis -/
theorem axis_margin {c p : Vec3} {d : ℝ} (h : |c.z| + 9 * d < 8 * c.axial) (hp : (p.minus c).magnitude ≤ d) :
    0 < p.axial ∧ |p.z| ≤ 8 * p.axial := by
  obtain ⟨h1, h2⟩ := Vec3.axial_plus c (p.minus c)
  rw [Vec3.plus_minus_cancel] at h1 h2
  have h3 := abs_nonneg c.z
  have h4 := Vec3.magnitude_nonneg (p.minus c)
  constructor <;> linarith

theorem centuries_window {e e0 : Epoch} {x : ℝ} (h0 : |e0.julianCenturies| ≤ 4.9) (he : e.value = e0.value + x)
    (hx : |x| ≤ 3000) : |e.julianCenturies| ≤ 5 := by
  have e1 : e.julianCenturies = e0.julianCenturies + x / 36525 := by
    simp only [Epoch.julianCenturies, Epoch.julianValue, he, Epoch.JULIAN_CENTURY]; ring
  rw [e1]
  refine (abs_add_le _ _).trans ?_
  rw [abs_div, abs_of_pos (by norm_num : (0 : ℝ) < 36525)]
  have : |x| / 36525 ≤ 0.1 := by rw [div_le_iff₀ (by norm_num)]; norm_num; linarith
  norm_num at h0 this ⊢
  linarith

theorem stage_half (v a : Vec3) {h B : ℝ} (hB : a.magnitude ≤ B) :
    ((v.plus (a.scaled (h / 2))).scaled (h / 2)).magnitude ≤ |h| * v.magnitude / 2 + h ^ 2 * B / 4 := by
  rw [Vec3.magnitude_scaled_abs, ← sq_abs h, abs_div, abs_two]
  have q1 := Vec3.magnitude_plus_le v (a.scaled (h / 2))
  rw [Vec3.magnitude_scaled_abs, abs_div, abs_two] at q1
  calc |h| / 2 * _ ≤ |h| / 2 * (v.magnitude + |h| / 2 * B) := by gcongr; exact q1.trans (by gcongr)
    _ = _ := by ring

theorem stage_full (v a : Vec3) {h B : ℝ} (hB : a.magnitude ≤ B) :
    ((v.plus (a.scaled (h / 2))).scaled h).magnitude ≤ |h| * v.magnitude + h ^ 2 * B / 2 := by
  rw [Vec3.magnitude_scaled_abs, ← sq_abs h]
  have q1 := Vec3.magnitude_plus_le v (a.scaled (h / 2))
  rw [Vec3.magnitude_scaled_abs, abs_div, abs_two] at q1
  calc |h| * _ ≤ |h| * (v.magnitude + |h| / 2 * B) := by gcongr; exact q1.trans (by gcongr)
    _ = _ := by ring

namespace RK4

/-- the forces are defined and bounded by `A` within `d` of `c`, in the window of epochs `W`, for thrust and
radiation pressure of at most `T` together -/
def Safe (c : Vec3) (d A T : ℝ) (W : Epoch → Prop) : Prop :=
  ∀ s : GCRF, (s.position.minus c).magnitude ≤ d → W s.epoch →
    s.thrust.magnitude + 4.56e-9 * |s.srp_scalar| ≤ T → ∃ a, s.derivative = .ok (s.velocity, a) ∧ a.magnitude ≤ A

/-- one step inside a ball -/
theorem step_inside {p : RK4} {c : Vec3} {d A T : ℝ} {W : Epoch → Prop} (hs : Safe c d A T W) (hA : 0 ≤ A)
    (hthr : ∀ dt, dt = 0 ∨ dt = p.step_size / 2 ∨ dt = p.step_size → ∃ a, p.thrustVector dt = .ok a ∧
      a.magnitude + 4.56e-9 * |p.state.srp_scalar| ≤ T)
    (hW : ∀ x, x = 0 ∨ x = p.step_size / 2 ∨ x = p.step_size → W (p.state.epoch.plusDays (x / SECONDS_IN_DAY)))
    (hd : (p.state.position.minus c).magnitude + |p.step_size| * p.state.velocity.magnitude +
      p.step_size ^ 2 * A / 2 ≤ d) :
    ∃ p', step p = (.ok (), p') ∧
      (p'.state.position.minus p.state.position).magnitude ≤
        |p.step_size| * p.state.velocity.magnitude + p.step_size ^ 2 * A / 2 ∧
      (p'.state.velocity.minus p.state.velocity).magnitude ≤ |p.step_size| * A ∧
      p'.state.srp_scalar = 0 ∧
      ((p'.state.position.minus p.state.position).minus (p.state.velocity.scaled p.step_size)).magnitude ≤
        p.step_size ^ 2 * A / 2 := by
  obtain ⟨h, hh⟩ : ∃ h, h = p.step_size := ⟨_, rfl⟩
  obtain ⟨y, hy⟩ : ∃ y, y = p.state.position := ⟨_, rfl⟩
  obtain ⟨v, hv⟩ : ∃ v, v = p.state.velocity := ⟨_, rfl⟩
  rw [← hh] at hthr hW hd ⊢
  rw [← hy, ← hv] at hd ⊢
  obtain ⟨t0, ht0, bt0⟩ := hthr 0 (.inl rfl)
  obtain ⟨t1, ht1, bt1⟩ := hthr (h / 2) (.inr (.inl rfl))
  obtain ⟨t2, ht2, bt2⟩ := hthr h (.inr (.inr rfl))
  have hsr : 0 ≤ |p.state.srp_scalar| := abs_nonneg _
  have hvn := v.magnitude_nonneg
  have hh2 : h ^ 2 = |h| * |h| := by rw [← sq, sq_abs]
  have hhn := abs_nonneg h
  -- first evaluation
  have e0 : p.state.epoch.plusDays (0 / SECONDS_IN_DAY) = p.state.epoch := by ext; simp [Epoch.plusDays]
  have hn : ∀ x : Vec3, x.magnitude + 4.56e-9 * |p.state.srp_scalar| ≤ T → x.magnitude + 4.56e-9 * |(0 : ℝ)| ≤ T := by
    intro x hx; rw [abs_zero]; norm_num at hx ⊢; linarith
  have hq : 0 ≤ h ^ 2 * A := mul_nonneg (sq_nonneg h) hA
  have hhv := mul_nonneg hhn hvn
  have key : ∀ w : Vec3, w.magnitude ≤ |h| * v.magnitude + h ^ 2 * A / 2 → ((y.plus w).minus c).magnitude ≤ d := by
    intro w hw
    have e : (y.plus w).minus c = (y.minus c).plus w := by ext <;> simp only [Vec3.plus, Vec3.minus] <;> ring
    rw [e]
    exact (Vec3.magnitude_plus_le _ _).trans (by linarith)
  have hmul : ∀ x : ℝ, x ≤ A → |h| * (|h| * x) ≤ h ^ 2 * A := by
    intro x hx; rw [hh2, mul_assoc]; gcongr
  have hst : ∀ (e : Epoch) (r w : Vec3) (dt : ℝ) (t : Vec3), p.thrustVector dt = .ok t →
      p.stage e r w dt = ({ GCRF.new e r w with thrust := t } : GCRF).derivative := by
    intro e r w dt t ht; simp only [stage, ht, ok_bind]
  obtain ⟨a1, h1, b1⟩ := hs (p.thrusted t0) (by
      show (p.state.position.minus c).magnitude ≤ d
      rw [← hy]; linarith) (by
      have := hW 0 (.inl rfl); rw [e0] at this; exact this) bt0
  have hv1 : (p.thrusted t0).velocity = v := hv.symm
  rw [hv1] at h1
  -- second
  obtain ⟨a2, h2, b2⟩ := hs { GCRF.new (p.state.epoch.plusDays (h / 2 / SECONDS_IN_DAY)) (y.plus (v.scaled (h / 2)))
      (v.plus (a1.scaled (h / 2))) with thrust := t1 } (key _ (by
        rw [Vec3.magnitude_scaled_abs, abs_div, abs_two]; linarith)) (hW _ (.inr (.inl rfl))) (hn _ bt1)
  -- third
  obtain ⟨a3, h3, b3⟩ := hs { GCRF.new (p.state.epoch.plusDays (h / 2 / SECONDS_IN_DAY))
      (y.plus ((v.plus (a1.scaled (h / 2))).scaled (h / 2)))
      (v.plus (a2.scaled (h / 2))) with thrust := t1 } (key _ (by
        rw [Vec3.magnitude_scaled_abs, abs_div, abs_two]
        have q1 := Vec3.magnitude_plus_le v (a1.scaled (h / 2))
        rw [Vec3.magnitude_scaled_abs, abs_div, abs_two] at q1
        have q2 := mul_le_mul_of_nonneg_left q1 (by positivity : 0 ≤ |h| / 2)
        have q3 := hmul _ b1
        nlinarith)) (hW _ (.inr (.inl rfl))) (hn _ bt1)
  -- fourth
  have ee : (p.state.epoch.plusDays (h / 2 / SECONDS_IN_DAY)).plusDays (h / 2 / SECONDS_IN_DAY) =
      p.state.epoch.plusDays (h / SECONDS_IN_DAY) := by
    ext; simp only [Epoch.plusDays]; ring
  obtain ⟨a4, h4, b4⟩ := hs { GCRF.new ((p.state.epoch.plusDays (h / 2 / SECONDS_IN_DAY)).plusDays
      (h / 2 / SECONDS_IN_DAY)) (y.plus ((v.plus (a2.scaled (h / 2))).scaled h))
      (v.plus (a3.scaled h)) with thrust := t2 } (key _ (by
        rw [Vec3.magnitude_scaled_abs]
        have q1 := Vec3.magnitude_plus_le v (a2.scaled (h / 2))
        rw [Vec3.magnitude_scaled_abs, abs_div, abs_two] at q1
        have q2 := mul_le_mul_of_nonneg_left q1 hhn
        have q3 := hmul _ b2
        nlinarith)) (by rw [ee]; exact hW _ (.inr (.inr rfl))) (hn _ bt2)
  refine ⟨_, (step_ok_iff _ _).mpr ⟨t0, (v, a1), (v.plus (a1.scaled (h / 2)), a2), (v.plus (a2.scaled (h / 2)), a3),
    (v.plus (a3.scaled h), a4), ht0, h1, ?_, ?_, ?_, rfl⟩, ?_, ?_, rfl, ?_⟩
  · rw [← hh, ← hy, ← hv, hst _ _ _ _ _ ht1]; exact h2
  · rw [← hh, ← hy, ← hv, hst _ _ _ _ _ ht1]; exact h3
  · rw [← hh, ← hy, ← hv, hst _ _ _ _ t2 (by rw [show h / 2 * 2 = h by ring]; exact ht2)]; exact h4
  · have e : ((p.stepped (v, a1) (v.plus (a1.scaled (h / 2)), a2) (v.plus (a2.scaled (h / 2)), a3)
        (v.plus (a3.scaled h), a4)).state.position.minus y) =
        (v.plus (((a1.plus a2).plus a3).scaled (h / 6))).scaled h := by
      simp only [stepped, GCRF.new, State.new, Vec3.copy, ← hh, ← hy]
      ext <;> simp only [Vec3.plus, Vec3.minus, Vec3.scaled] <;> ring
    rw [e, Vec3.magnitude_scaled_abs]
    have q1 := Vec3.magnitude_plus_le v (((a1.plus a2).plus a3).scaled (h / 6))
    rw [Vec3.magnitude_scaled_abs, abs_div, abs_of_pos (by norm_num : (0 : ℝ) < 6)] at q1
    have q2 := Vec3.magnitude_plus_le (a1.plus a2) a3
    have q3 := Vec3.magnitude_plus_le a1 a2
    have q4 : ((a1.plus a2).plus a3).magnitude ≤ 3 * A := by linarith
    have q5 := mul_le_mul_of_nonneg_left q1 hhn
    have q6 : |h| * (|h| * ((a1.plus a2).plus a3).magnitude) ≤ |h| * (|h| * (3 * A)) := by gcongr
    rw [hh2]
    nlinarith
  · have e : ((p.stepped (v, a1) (v.plus (a1.scaled (h / 2)), a2) (v.plus (a2.scaled (h / 2)), a3)
        (v.plus (a3.scaled h), a4)).state.velocity.minus v) =
        (((a1.plus (a2.scaled 2)).plus (a3.scaled 2)).plus a4).scaled (h / 6) := by
      simp only [stepped, GCRF.new, State.new, Vec3.copy, ← hh, ← hv]
      ext <;> simp only [Vec3.plus, Vec3.minus, Vec3.scaled] <;> ring
    rw [e, Vec3.magnitude_scaled_abs, abs_div, abs_of_pos (by norm_num : (0 : ℝ) < 6)]
    have q1 := Vec3.magnitude_plus_le ((a1.plus (a2.scaled 2)).plus (a3.scaled 2)) a4
    have q2 := Vec3.magnitude_plus_le (a1.plus (a2.scaled 2)) (a3.scaled 2)
    have q3 := Vec3.magnitude_plus_le a1 (a2.scaled 2)
    rw [Vec3.magnitude_scaled_abs, abs_two] at q2 q3
    have q4 : (((a1.plus (a2.scaled 2)).plus (a3.scaled 2)).plus a4).magnitude ≤ 6 * A := by linarith
    calc _ ≤ |h| / 6 * (6 * A) := by gcongr
      _ = _ := by ring
  · have e : ((p.stepped (v, a1) (v.plus (a1.scaled (h / 2)), a2) (v.plus (a2.scaled (h / 2)), a3)
        (v.plus (a3.scaled h), a4)).state.position.minus y).minus (v.scaled h) =
        ((a1.plus a2).plus a3).scaled (h * h / 6) := by
      simp only [stepped, GCRF.new, State.new, Vec3.copy, ← hh, ← hy]
      ext <;> simp only [Vec3.plus, Vec3.minus, Vec3.scaled] <;> ring
    rw [e, Vec3.magnitude_scaled_abs, abs_of_nonneg (by nlinarith [mul_self_nonneg h])]
    have q2 := Vec3.magnitude_plus_le (a1.plus a2) a3
    have q3 := Vec3.magnitude_plus_le a1 a2
    have q4 : ((a1.plus a2).plus a3).magnitude ≤ 3 * A := by linarith
    calc _ ≤ h * h / 6 * (3 * A) := by
          have : 0 ≤ h * h / 6 := by nlinarith [mul_self_nonneg h]
          gcongr
      _ = _ := by ring

/-- `n` steps inside a ball -/
theorem steps_inside {c : Vec3} {d A T : ℝ} {W : Epoch → Prop} (hs : Safe c d A T W) (hA : 0 ≤ A) (n : ℕ) :
    ∀ p : RK4, (∀ dt, dt = 0 ∨ dt = p.step_size / 2 ∨ dt = p.step_size → ∃ a, p.thrustVector dt = .ok a ∧
        a.magnitude + 4.56e-9 * |p.state.srp_scalar| ≤ T) →
      (∀ x, |x| ≤ n * |p.step_size| → W (p.state.epoch.plusDays (x / SECONDS_IN_DAY))) →
      (p.state.position.minus c).magnitude + n * |p.step_size| * p.state.velocity.magnitude +
        (n * |p.step_size|) ^ 2 * A / 2 ≤ d →
      ∃ p', Steps n p p' ∧ (p'.state.position.minus p.state.position).magnitude ≤
        n * |p.step_size| * p.state.velocity.magnitude + (n * |p.step_size|) ^ 2 * A / 2 ∧
        (p'.state.velocity.minus p.state.velocity).magnitude ≤ n * |p.step_size| * A ∧
        ((p'.state.position.minus p.state.position).minus (p.state.velocity.scaled (n * p.step_size))).magnitude ≤
          (n * |p.step_size|) ^ 2 * A / 2 := by
  induction n with
  | zero =>
    intro p _ _ _
    refine ⟨p, .zero p, ?_, ?_, ?_⟩
    · have : p.state.position.minus p.state.position = ⟨0, 0, 0⟩ := by ext <;> simp [Vec3.minus]
      rw [this, Vec3.magnitude_eq_zero.mpr rfl]; simp
    · have : p.state.velocity.minus p.state.velocity = ⟨0, 0, 0⟩ := by ext <;> simp [Vec3.minus]
      rw [this, Vec3.magnitude_eq_zero.mpr rfl]; simp
    · have : (p.state.position.minus p.state.position).minus (p.state.velocity.scaled (((0 : ℕ) : ℝ) * p.step_size)) =
          ⟨0, 0, 0⟩ := by ext <;> simp [Vec3.minus, Vec3.scaled]
      rw [this, Vec3.magnitude_eq_zero.mpr rfl]; simp
  | succ n ih =>
    intro p hthr hW hd
    have hhn := abs_nonneg p.step_size
    have hvn := p.state.velocity.magnitude_nonneg
    have hN : (0 : ℝ) ≤ n := n.cast_nonneg
    have hh2 : p.step_size ^ 2 = |p.step_size| ^ 2 := (sq_abs _).symm
    push_cast at hW hd ⊢
    have e1 : ((n : ℝ) + 1) * |p.step_size| = n * |p.step_size| + |p.step_size| := by ring
    have m1 : 0 ≤ n * |p.step_size| * p.state.velocity.magnitude := by positivity
    have m2 : 0 ≤ |p.step_size| * |p.step_size| * A := by positivity
    have m3 : 0 ≤ n * |p.step_size| * |p.step_size| * A := by positivity
    have m4 : 0 ≤ n * |p.step_size| * (n * |p.step_size|) * A := by positivity
    obtain ⟨q, hq, hq1, hq2, hq3, hq4⟩ := step_inside hs hA hthr (fun x hx => hW x (by
      rw [e1]
      have : |x| ≤ |p.step_size| := by
        rcases hx with rfl | rfl | rfl
        · simp
        · rw [abs_div, abs_two]; linarith
        · exact le_rfl
      have := mul_nonneg hN hhn
      linarith)) (by rw [hh2]; nlinarith)
    obtain ⟨f1, f2, f3, f4, f5, f6, -⟩ := step_frame hq
    have hthr' : ∀ dt, q.thrustVector dt = p.thrustVector dt := by
      intro dt; simp only [thrustVector, f2, f3, f4, f5]
    obtain ⟨v, hv⟩ : ∃ v, v = p.state.velocity.magnitude := ⟨_, rfl⟩
    obtain ⟨w, hw⟩ : ∃ w, w = q.state.velocity.magnitude := ⟨_, rfl⟩
    have hwv : w ≤ v + |p.step_size| * A := by
      rw [hv, hw]; linarith [magnitude_minus_ge q.state.velocity p.state.velocity]
    have hmw : n * |p.step_size| * w ≤ n * |p.step_size| * (v + |p.step_size| * A) := by gcongr
    have hqc : (q.state.position.minus c).magnitude ≤ (p.state.position.minus c).magnitude +
        (q.state.position.minus p.state.position).magnitude := by
      have e : q.state.position.minus c = (p.state.position.minus c).plus (q.state.position.minus p.state.position) := by
        ext <;> simp only [Vec3.plus, Vec3.minus] <;> ring
      rw [e]; exact Vec3.magnitude_plus_le _ _
    rw [hh2, ← hv] at hq1
    rw [← hv] at hd ⊢
    obtain ⟨p', hp', hp1, hp2, hp3⟩ := ih q (by
        intro dt hdt
        rw [f1] at hdt
        obtain ⟨a, ha, hb⟩ := hthr dt hdt
        refine ⟨a, by rw [hthr', ha], ?_⟩
        rw [hq3, abs_zero]
        have := abs_nonneg p.state.srp_scalar
        norm_num at hb ⊢; linarith) (by
        intro x hx
        rw [f1] at hx
        have e : q.state.epoch.plusDays (x / SECONDS_IN_DAY) =
            p.state.epoch.plusDays ((p.step_size + x) / SECONDS_IN_DAY) := by
          ext; simp only [Epoch.plusDays, f6]; ring
        rw [e]
        refine hW _ ((abs_add_le _ _).trans ?_)
        rw [e1]; linarith) (by rw [f1, ← hw]; nlinarith)
    rw [f1, ← hw] at hp1
    rw [f1] at hp2 hp3
    refine ⟨p', .succ hq hp', ?_, ?_, ?_⟩
    · have e : p'.state.position.minus p.state.position =
          (p'.state.position.minus q.state.position).plus (q.state.position.minus p.state.position) := by
        ext <;> simp only [Vec3.plus, Vec3.minus] <;> ring
      rw [e]
      refine (Vec3.magnitude_plus_le _ _).trans ?_
      nlinarith
    · have e : p'.state.velocity.minus p.state.velocity =
          (p'.state.velocity.minus q.state.velocity).plus (q.state.velocity.minus p.state.velocity) := by
        ext <;> simp only [Vec3.plus, Vec3.minus] <;> ring
      rw [e]
      refine (Vec3.magnitude_plus_le _ _).trans ?_
      linarith
    · have e : (p'.state.position.minus p.state.position).minus
            (p.state.velocity.scaled (((n : ℝ) + 1) * p.step_size)) =
          (((p'.state.position.minus q.state.position).minus (q.state.velocity.scaled (n * p.step_size))).plus
            ((q.state.position.minus p.state.position).minus (p.state.velocity.scaled p.step_size))).plus
            ((q.state.velocity.minus p.state.velocity).scaled (n * p.step_size)) := by
        ext <;> simp only [Vec3.plus, Vec3.minus, Vec3.scaled] <;> ring
      rw [e]
      have r1 := Vec3.magnitude_plus_le
        (((p'.state.position.minus q.state.position).minus (q.state.velocity.scaled (n * p.step_size))).plus
            ((q.state.position.minus p.state.position).minus (p.state.velocity.scaled p.step_size)))
        ((q.state.velocity.minus p.state.velocity).scaled (n * p.step_size))
      have r2 := Vec3.magnitude_plus_le
        ((p'.state.position.minus q.state.position).minus (q.state.velocity.scaled (n * p.step_size)))
        ((q.state.position.minus p.state.position).minus (p.state.velocity.scaled p.step_size))
      rw [Vec3.magnitude_scaled_abs _ (n * p.step_size), abs_mul, Nat.abs_cast] at r1
      have r3 : n * |p.step_size| * (q.state.velocity.minus p.state.velocity).magnitude ≤
          n * |p.step_size| * (|p.step_size| * A) := by gcongr
      rw [hh2] at hq4
      have r4 : (((n : ℝ) + 1) * |p.step_size|) ^ 2 * A / 2 =
          (n * |p.step_size|) ^ 2 * A / 2 + |p.step_size| ^ 2 * A / 2 + n * |p.step_size| * (|p.step_size| * A) := by
        ring
      rw [r4]
      linarith

theorem mu_pos : 0 < Earth.MU := by norm_num [Earth.MU]

/-- the ball about a position 6378 to 90000 km from the centre, a fifth of that distance in radius, if it keeps
clear of the axis -/
theorem safe_ball {c : Vec3} {d T : ℝ} (h1 : 6378 ≤ c.magnitude) (h2 : c.magnitude ≤ 90000) (hd : d ≤ c.magnitude / 5)
    (hz : |c.z| + 9 * d < 8 * c.axial) :
    Safe c d (1.9 * (Earth.MU / c.magnitude ^ 2) + T) T fun e => |e.julianCenturies| ≤ 5 := by
  intro s hp ht hT
  obtain ⟨hax, haz⟩ := axis_margin hz hp
  have hlo : c.magnitude - d ≤ s.position.magnitude := by
    have := Vec3.magnitude_plus_ge c (s.position.minus c)
    rw [Vec3.plus_minus_cancel] at this; linarith
  have hhi : s.position.magnitude ≤ c.magnitude + d := by
    have := Vec3.magnitude_plus_le c (s.position.minus c)
    rw [Vec3.plus_minus_cancel] at this; linarith
  obtain ⟨a, ha, hb⟩ := derivative_bound s (by linarith) (by linarith) ht hax haz
  refine ⟨a, ha, hb.trans ?_⟩
  have hM := mu_pos
  have k1 : Earth.MU / s.position.magnitude ^ 2 ≤ 25 / 16 * (Earth.MU / c.magnitude ^ 2) := by
    have : 4 / 5 * c.magnitude ≤ s.position.magnitude := by linarith
    calc Earth.MU / s.position.magnitude ^ 2 ≤ Earth.MU / (4 / 5 * c.magnitude) ^ 2 := by
          have : 0 < 4 / 5 * c.magnitude := by linarith
          gcongr
      _ = _ := by field_simp; norm_num
  have k2 : 4.9e-5 ≤ Earth.MU / c.magnitude ^ 2 := by
    rw [le_div_iff₀ (by positivity)]
    calc 4.9e-5 * c.magnitude ^ 2 ≤ 4.9e-5 * 90000 ^ 2 := by gcongr
      _ ≤ _ := by norm_num [Earth.MU]
  norm_num at hT k2 ⊢
  linarith

end RK4

/-! ## C90 -/

/-- `step()` succeeds from any state 6378 to 100000 km from the centre of the Earth, within 4.9 centuries of the
year 2000, if a straight flight over the step covers at most 35 % of that distance and the distance it may reach
stays clear of the polar axis; `T` bounds thrust and radiation pressure -/
theorem C90_step (p : RK4) (T : ℝ)
    (h1 : 6378 ≤ p.state.position.magnitude) (h2 : p.state.position.magnitude ≤ 100000)
    (ht : |p.state.epoch.julianCenturies| ≤ 4.9)
    (hthr : ∀ dt, dt = 0 ∨ dt = p.step_size / 2 ∨ dt = p.step_size → ∃ a, p.thrustVector dt = .ok a ∧
      a.magnitude + 4.56e-9 * |p.state.srp_scalar| ≤ T)
    (hv : |p.step_size| * p.state.velocity.magnitude ≤ 0.35 * p.state.position.magnitude)
    (hz : |p.state.position.z| + 9 * (|p.step_size| * p.state.velocity.magnitude +
      p.step_size ^ 2 * (Earth.MU / p.state.position.magnitude ^ 2 + T)) < 8 * p.state.position.axial) :
    ∃ p', RK4.step p = (.ok (), p') := by
  obtain ⟨h, hh⟩ : ∃ h, h = p.step_size := ⟨_, rfl⟩
  obtain ⟨y, hy⟩ : ∃ y, y = p.state.position := ⟨_, rfl⟩
  obtain ⟨v, hve⟩ : ∃ v, v = p.state.velocity := ⟨_, rfl⟩
  rw [← hh] at hthr hv hz
  rw [← hy] at h1 h2 hv hz
  rw [← hve] at hv hz
  obtain ⟨M, hM⟩ : ∃ M, M = Earth.MU / y.magnitude ^ 2 := ⟨_, rfl⟩
  obtain ⟨d, hd⟩ : ∃ d, d = |h| * v.magnitude + h ^ 2 * (M + T) := ⟨_, rfl⟩
  rw [← hM, ← hd] at hz
  have hmu := RK4.mu_pos
  have hM0 : 3.98e-5 ≤ M := by
    rw [hM, le_div_iff₀ (by positivity)]
    calc 3.98e-5 * y.magnitude ^ 2 ≤ 3.98e-5 * 100000 ^ 2 := by gcongr
      _ ≤ _ := by norm_num [Earth.MU]
  obtain ⟨t0, ht0, bt0⟩ := hthr 0 (.inl rfl)
  obtain ⟨t1, ht1, bt1⟩ := hthr (h / 2) (.inr (.inl rfl))
  obtain ⟨t2, ht2, bt2⟩ := hthr h (.inr (.inr rfl))
  have hsr : 0 ≤ |p.state.srp_scalar| := abs_nonneg _
  have hvn := v.magnitude_nonneg
  have hhn := abs_nonneg h
  have hhv := mul_nonneg hhn hvn
  have hT0 : 0 ≤ T := by
    have := t0.magnitude_nonneg
    norm_num at bt0; linarith
  have hh2 : h ^ 2 = |h| * |h| := by rw [← sq, sq_abs]
  have hdpos : 0 ≤ d := by
    rw [hd]; have : 0 ≤ M := by norm_num at hM0; linarith
    positivity
  have hdr : d ≤ y.magnitude := by
    have := y.axial_le
    have := abs_nonneg y.z
    linarith
  -- the step is short
  have hshort : |h| ≤ 60000 := by
    have q1 : h ^ 2 * M ≤ d := by
      rw [hd]
      have : 0 ≤ h ^ 2 * T := by positivity
      linarith
    have q2 : h ^ 2 * 3.98e-5 ≤ 100000 := by
      have : h ^ 2 * 3.98e-5 ≤ h ^ 2 * M := by gcongr
      linarith
    refine abs_le_of_sq_le_sq ?_ (by norm_num)
    norm_num at q2 ⊢; linarith
  have hW : ∀ x, |x| ≤ |h| → |(p.state.epoch.plusDays (x / SECONDS_IN_DAY)).julianCenturies| ≤ 5 := by
    intro x hx
    refine centuries_window ht rfl ?_
    rw [abs_div, abs_of_pos RK4.secondsInDay_pos, div_le_iff₀ RK4.secondsInDay_pos]
    norm_num [SECONDS_IN_DAY]; linarith
  have hW1 : |h / 2| ≤ |h| := by rw [abs_div, abs_two]; linarith
  have e0 : p.state.epoch.plusDays (0 / SECONDS_IN_DAY) = p.state.epoch := by ext; simp [Epoch.plusDays]
  have hn : ∀ x : Vec3, x.magnitude + 4.56e-9 * |p.state.srp_scalar| ≤ T → x.magnitude ≤ T := by
    intro x hx; norm_num at hx; linarith
  have key : ∀ w : Vec3, w.magnitude ≤ d → 0 < (y.plus w).axial ∧ |(y.plus w).z| ≤ 8 * (y.plus w).axial := by
    intro w hw
    exact axis_margin hz (by rw [Vec3.plus_zero_dist]; exact hw)
  have key2 : ∀ w : Vec3, w.magnitude ≤ d → y.plus w ≠ ⟨0, 0, 0⟩ ∧ (y.plus w).magnitude ≤ 350000 := by
    intro w hw
    constructor
    · refine Vec3.magnitude_pos.mp ((key w hw).1.trans_le (Vec3.axial_le _))
    · have := Vec3.magnitude_plus_le y w; linarith
  have hst : ∀ (e : Epoch) (r w : Vec3) (dt : ℝ) (t : Vec3), p.thrustVector dt = .ok t →
      p.stage e r w dt = ({ GCRF.new e r w with thrust := t } : GCRF).derivative := by
    intro e r w dt t ht; simp only [RK4.stage, ht, ok_bind]
  -- first evaluation
  have hz0 := axis_margin hz (p := y) (by
    have : y.minus y = ⟨0, 0, 0⟩ := by ext <;> simp [Vec3.minus]
    rw [this, Vec3.magnitude_eq_zero.mpr rfl]; exact hdpos)
  obtain ⟨a1, h1', b1⟩ := derivative_bound (p.thrusted t0) (by show 5000 ≤ p.state.position.magnitude; rw [← hy]; linarith)
    (by show p.state.position.magnitude ≤ _; rw [← hy]; linarith)
    (by have := hW 0 (by simp); rw [e0] at this; exact this)
    (by show 0 < p.state.position.axial; rw [← hy]; exact hz0.1)
    (by show |p.state.position.z| ≤ 8 * p.state.position.axial; rw [← hy]; exact hz0.2)
  have ev : (p.thrusted t0).velocity = v := hve.symm
  have ep : (p.thrusted t0).position = y := hy.symm
  have et : (p.thrusted t0).thrust = t0 := rfl
  have es : (p.thrusted t0).srp_scalar = p.state.srp_scalar := rfl
  rw [ev] at h1'
  rw [ep, et, es, ← hM] at b1
  have c1 : a1.magnitude ≤ 2 * M + T := by norm_num at b1 bt0 hM0; linarith
  -- second
  have d2 : (v.scaled (h / 2)).magnitude ≤ 0.175 * y.magnitude := by
    rw [Vec3.magnitude_scaled_abs, abs_div, abs_two]; norm_num at hv ⊢; linarith
  have d2' : (v.scaled (h / 2)).magnitude ≤ d := by
    rw [Vec3.magnitude_scaled_abs, abs_div, abs_two, hd]
    have : 0 ≤ h ^ 2 * (M + T) := by norm_num at hM0; have : 0 ≤ M + T := by linarith
                                     positivity
    linarith
  have l2 : 0.825 * y.magnitude ≤ (y.plus (v.scaled (h / 2))).magnitude := by
    have := Vec3.magnitude_plus_ge y (v.scaled (h / 2)); norm_num at d2 ⊢; linarith
  have u2 := Vec3.magnitude_plus_le y (v.scaled (h / 2))
  obtain ⟨a2, h2', b2⟩ := derivative_bound
    { GCRF.new (p.state.epoch.plusDays (h / 2 / SECONDS_IN_DAY)) (y.plus (v.scaled (h / 2)))
      (v.plus (a1.scaled (h / 2))) with thrust := t1 }
    (by show 5000 ≤ (y.plus (v.scaled (h / 2))).magnitude; norm_num at l2; linarith)
    (by show (y.plus (v.scaled (h / 2))).magnitude ≤ _; norm_num at d2; linarith) (hW _ hW1) (key _ d2').1 (key _ d2').2
  have c2 : a2.magnitude ≤ 2 * M + 2 * T := by
    have bb : a2.magnitude ≤ 1.01 * (Earth.MU / (y.plus (v.scaled (h / 2))).magnitude ^ 2) + 1.3e-5 + t1.magnitude +
      4.56e-9 * |(0 : ℝ)| := b2
    have k1 : Earth.MU / (y.plus (v.scaled (h / 2))).magnitude ^ 2 ≤ 1.47 * M := by
      calc _ ≤ Earth.MU / (0.825 * y.magnitude) ^ 2 := by
            have : 0 < 0.825 * y.magnitude := by norm_num; linarith
            gcongr
        _ = M / 0.825 ^ 2 := by rw [hM]; field_simp
        _ ≤ _ := by rw [div_le_iff₀ (by norm_num)]; norm_num at hM0 ⊢; linarith
    have := hn _ bt1
    rw [abs_zero] at bb
    norm_num at bb k1 hM0
    linarith
  -- third
  have d3 : ((v.plus (a1.scaled (h / 2))).scaled (h / 2)).magnitude ≤ d := by
    refine (stage_half v a1 c1).trans ?_
    have q4 : 0 ≤ h ^ 2 * M := mul_nonneg (sq_nonneg h) (by norm_num at hM0; linarith)
    have q5 : 0 ≤ h ^ 2 * T := mul_nonneg (sq_nonneg h) hT0
    rw [hd]
    linarith
  obtain ⟨a3, h3'⟩ := derivative_defined { GCRF.new (p.state.epoch.plusDays (h / 2 / SECONDS_IN_DAY))
      (y.plus ((v.plus (a1.scaled (h / 2))).scaled (h / 2)))
      (v.plus (a2.scaled (h / 2))) with thrust := t1 } (key2 _ d3).1 (key2 _ d3).2
      (off_axis (hW _ hW1) (key _ d3).1 (key _ d3).2)
  -- fourth
  have d4 : ((v.plus (a2.scaled (h / 2))).scaled h).magnitude ≤ d := by
    refine (stage_full v a2 c2).trans (le_of_eq ?_)
    rw [hd]; ring
  have ee : (p.state.epoch.plusDays (h / 2 / SECONDS_IN_DAY)).plusDays (h / 2 / SECONDS_IN_DAY) =
      p.state.epoch.plusDays (h / SECONDS_IN_DAY) := by
    ext; simp only [Epoch.plusDays]; ring
  obtain ⟨a4, h4'⟩ := derivative_defined { GCRF.new ((p.state.epoch.plusDays (h / 2 / SECONDS_IN_DAY)).plusDays
      (h / 2 / SECONDS_IN_DAY)) (y.plus ((v.plus (a2.scaled (h / 2))).scaled h))
      (v.plus (a3.scaled h)) with thrust := t2 } (key2 _ d4).1 (key2 _ d4).2
      (off_axis (by rw [ee]; exact hW _ le_rfl) (key _ d4).1 (key _ d4).2)
  refine ⟨_, (RK4.step_ok_iff _ _).mpr ⟨t0, (v, a1), (v.plus (a1.scaled (h / 2)), a2), (v.plus (a2.scaled (h / 2)), a3),
    (v.plus (a3.scaled h), a4), ht0, h1', ?_, ?_, ?_, rfl⟩⟩
  · rw [← hh, ← hy, ← hve, hst _ _ _ _ _ ht1]; exact h2'
  · rw [← hh, ← hy, ← hve, hst _ _ _ _ _ ht1]; exact h3'
  · rw [← hh, ← hy, ← hve, hst _ _ _ _ t2 (by rw [show h / 2 * 2 = h by ring]; exact ht2)]; exact h4'

/-- `step_to_epoch` succeeds from any state 6378 to 90000 km from the centre of the Earth if the distance `d` that
may be flown meanwhile is at most a fifth of that and stays clear of the polar axis; it changes the position by at
most `d`, and ends within `S² (M + T)` of a straight flight with the initial velocity -/
theorem C90_propagation (p : RK4) (t : Epoch) (S M d T : ℝ)
    (h1 : 6378 ≤ p.state.position.magnitude) (h2 : p.state.position.magnitude ≤ 90000)
    (ht : |p.state.epoch.julianCenturies| ≤ 4.9)
    (hS : S = |(t.value - p.state.epoch.value) * 86400|) (hM : M = Earth.MU / p.state.position.magnitude ^ 2)
    (hdd : d = S * p.state.velocity.magnitude + S ^ 2 * (M + T))
    (hthr : ∀ dt, |dt| ≤ 300 → |dt| ≤ S → 0 ≤ dt * (t.value - p.state.epoch.value) →
      ∃ a, p.thrustVector dt = .ok a ∧ a.magnitude + 4.56e-9 * |p.state.srp_scalar| ≤ T)
    (hd : d ≤ p.state.position.magnitude / 5)
    (hz : |p.state.position.z| + 9 * d < 8 * p.state.position.axial) :
    ∃ p', RK4.stepToEpoch t p = (.ok (), p') ∧
      (p'.state.position.minus p.state.position).magnitude ≤ d ∧
      (p'.state.velocity.minus p.state.velocity).magnitude ≤ S * (2 * M + T) ∧
      ((p'.state.position.minus p.state.position).minus
        (p.state.velocity.scaled ((t.value - p.state.epoch.value) * 86400))).magnitude ≤ S ^ 2 * (M + T) := by
  have hmu := RK4.mu_pos
  have hS0 : 0 ≤ S := by rw [hS]; exact abs_nonneg _
  have hM0 : 4.9e-5 ≤ M := by
    rw [hM, le_div_iff₀ (by positivity)]
    calc 4.9e-5 * p.state.position.magnitude ^ 2 ≤ 4.9e-5 * 90000 ^ 2 := by gcongr
      _ ≤ _ := by norm_num [Earth.MU]
  have hMp : 0 ≤ M := by norm_num at hM0; linarith
  have hvn := p.state.velocity.magnitude_nonneg
  have hT : 0 ≤ T := by
    obtain ⟨a, -, ha⟩ := hthr 0 (by simp) (by simpa using hS0) (by simp)
    have := a.magnitude_nonneg
    have := abs_nonneg p.state.srp_scalar
    norm_num at ha; linarith
  have hsec : SECONDS_IN_DAY = 86400 := by norm_num [SECONDS_IN_DAY]
  have hsafe := RK4.safe_ball (T := T) h1 h2 hd hz
  rw [← hM] at hsafe
  have hshort : S ≤ 60000 := by
    have q0 : 0 ≤ S * p.state.velocity.magnitude := by positivity
    have q1 : 0 ≤ S ^ 2 * T := by positivity
    have q2 : S ^ 2 * 4.9e-5 ≤ S ^ 2 * M := by gcongr
    refine le_of_sq_le_sq ?_ (by norm_num)
    norm_num at q2 ⊢; nlinarith
  have hL := ceil_isLeast ((t.value - p.state.epoch.value) * SECONDS_IN_DAY)
  obtain ⟨n, hn⟩ : ∃ n, n = ⌈|(t.value - p.state.epoch.value) * SECONDS_IN_DAY / 300|⌉₊ := ⟨_, rfl⟩
  rw [← hn, hsec] at hL
  have hle : |(t.value - p.state.epoch.value) * 86400| ≤ 300 * n := hL.1
  rw [← hS] at hle
  rw [hsec] at hn
  obtain ⟨D, hD⟩ : ∃ D, D = (t.value - p.state.epoch.value) * 86400 := ⟨_, rfl⟩
  rw [← hD] at hn hS
  suffices hsuf : ∃ q, RK4.Steps n (if 0 < n then { p with step_size := D / n } else p) q ∧
      (q.state.position.minus p.state.position).magnitude ≤ d ∧
      (q.state.velocity.minus p.state.velocity).magnitude ≤ S * (2 * M + T) ∧
      ((q.state.position.minus p.state.position).minus (p.state.velocity.scaled D)).magnitude ≤ S ^ 2 * (M + T) by
    obtain ⟨q, hq, b1, b2, b3⟩ := hsuf
    exact ⟨_, RK4.stepToEpoch_ok_iff.mpr ⟨q, by rw [hsec, ← hD, ← hn]; exact hq, rfl⟩, b1, b2, hD ▸ b3⟩
  have hz0 : ∀ v : Vec3, (v.minus v).magnitude = 0 := fun v =>
    Vec3.magnitude_eq_zero.mpr (by ext <;> simp [Vec3.minus])
  rcases Nat.eq_zero_or_pos n with h0 | h0
  · rw [h0, if_neg (lt_irrefl 0)]
    refine ⟨p, .zero p, ?_, ?_, ?_⟩
    · rw [hz0, hdd]; positivity
    · rw [hz0]; positivity
    · have hS00 : S = 0 := le_antisymm (by rw [h0] at hle; simpa using hle) hS0
      have hD0 : D = 0 := abs_eq_zero.mp (hS ▸ hS00)
      have : (p.state.position.minus p.state.position).minus (p.state.velocity.scaled D) = ⟨0, 0, 0⟩ := by
        rw [hD0]; ext <;> simp [Vec3.minus, Vec3.scaled]
      rw [this, Vec3.magnitude_eq_zero.mpr rfl]; positivity
  · rw [if_pos h0]
    have hnR : (1 : ℝ) ≤ n := by exact_mod_cast h0
    have hnS : (n : ℝ) * |D / n| = S := by
      rw [abs_div, Nat.abs_cast, hS]; field_simp
    have hhS : |D / n| ≤ S := by
      have := abs_nonneg (D / n); nlinarith
    have hh300 : |D / n| ≤ 300 := by
      rw [abs_div, Nat.abs_cast, div_le_iff₀ (by linarith), ← hS]; exact hle
    have hA : 0 ≤ 1.9 * M + T := by positivity
    obtain ⟨q, hq, b1, b2, b3⟩ := RK4.steps_inside hsafe hA n { p with step_size := D / n }
      (by
        intro dt hdt
        have hb : |dt| ≤ |D / n| ∧ 0 ≤ dt * (t.value - p.state.epoch.value) := by
          have hpos : 0 ≤ D / n * (t.value - p.state.epoch.value) := by
            rw [hD]
            have : (t.value - p.state.epoch.value) * 86400 / n * (t.value - p.state.epoch.value) =
              (t.value - p.state.epoch.value) ^ 2 * (86400 / n) := by ring
            rw [this]; positivity
          rcases hdt with rfl | rfl | rfl
          · simp
          · refine ⟨?_, ?_⟩
            · show |D / n / 2| ≤ _
              rw [abs_div _ 2, abs_two]; linarith [abs_nonneg (D / n)]
            · show 0 ≤ D / n / 2 * _
              linarith
          · exact ⟨le_rfl, hpos⟩
        exact hthr dt (hb.1.trans hh300) (hb.1.trans hhS) hb.2)
      (by
        intro x hx
        refine centuries_window ht rfl ?_
        have hx' : |x| ≤ S := by rw [← hnS]; exact hx
        rw [hsec, abs_div, abs_of_pos (by norm_num : (0 : ℝ) < 86400), div_le_iff₀ (by norm_num)]
        linarith)
      (by
        show (p.state.position.minus p.state.position).magnitude + n * |D / n| * p.state.velocity.magnitude +
          (n * |D / n|) ^ 2 * (1.9 * M + T) / 2 ≤ d
        rw [hz0, hnS, hdd]
        have q1 : 0 ≤ S ^ 2 * M := by positivity
        have q2 : 0 ≤ S ^ 2 * T := by positivity
        norm_num; linarith)
    have b1' : (q.state.position.minus p.state.position).magnitude ≤ n * |D / n| * p.state.velocity.magnitude +
          (n * |D / n|) ^ 2 * (1.9 * M + T) / 2 := b1
    have b2' : (q.state.velocity.minus p.state.velocity).magnitude ≤ n * |D / n| * (1.9 * M + T) := b2
    have b3' : ((q.state.position.minus p.state.position).minus (p.state.velocity.scaled (n * (D / n)))).magnitude ≤
          (n * |D / n|) ^ 2 * (1.9 * M + T) / 2 := b3
    rw [hnS] at b1' b2' b3'
    rw [mul_div_cancel₀ D (by linarith : (n : ℝ) ≠ 0)] at b3'
    refine ⟨q, hq, ?_, ?_, ?_⟩
    · have q1 : 0 ≤ S ^ 2 * M := by positivity
      have q2 : 0 ≤ S ^ 2 * T := by positivity
      rw [hdd]; norm_num at b1' ⊢; linarith
    · have q1 : 0 ≤ S * M := by positivity
      norm_num at b2' ⊢; linarith
    · have q1 : 0 ≤ S ^ 2 * M := by positivity
      have q2 : 0 ≤ S ^ 2 * T := by positivity
      norm_num at b3' ⊢; linarith

/-- with the engine off only the radiation pressure counts -/
theorem C90_coast (p : RK4) (t : Epoch) (S M d T : ℝ) (hoff : p.m_dot = 0)
    (h1 : 6378 ≤ p.state.position.magnitude) (h2 : p.state.position.magnitude ≤ 90000)
    (ht : |p.state.epoch.julianCenturies| ≤ 4.9)
    (hS : S = |(t.value - p.state.epoch.value) * 86400|) (hM : M = Earth.MU / p.state.position.magnitude ^ 2)
    (hT : T = 4.56e-9 * |p.state.srp_scalar|)
    (hdd : d = S * p.state.velocity.magnitude + S ^ 2 * (M + T))
    (hd : d ≤ p.state.position.magnitude / 5)
    (hz : |p.state.position.z| + 9 * d < 8 * p.state.position.axial) :
    ∃ p', RK4.stepToEpoch t p = (.ok (), p') ∧
      (p'.state.position.minus p.state.position).magnitude ≤ d ∧
      (p'.state.velocity.minus p.state.velocity).magnitude ≤ S * (2 * M + T) ∧
      ((p'.state.position.minus p.state.position).minus
        (p.state.velocity.scaled ((t.value - p.state.epoch.value) * 86400))).magnitude ≤ S ^ 2 * (M + T) :=
  C90_propagation p t S M d T h1 h2 ht hS hM hdd (fun dt _ _ _ => ⟨_, C43_off p dt hoff, by
    rw [Vec3.magnitude_eq_zero.mpr rfl, hT, zero_add]⟩) hd hz

/-- a burn succeeds under the same conditions, `T` being the acceleration at the mass left at its end -/
theorem C90_burn (p : RK4) (dv : Vec3) (m_dot m0 isp S M d T : ℝ) (hdv : dv ≠ ⟨0, 0, 0⟩) (hm : 0 < m_dot) (h0 : 0 < m0)
    (hi : 0 < isp)
    (h1 : 6378 ≤ p.state.position.magnitude) (h2 : p.state.position.magnitude ≤ 90000)
    (ht : |p.state.epoch.julianCenturies| ≤ 4.9)
    (hS : S = m0 / m_dot * (1 - exp (-dv.magnitude / (isp * SEA_LEVEL_G))))
    (hM : M = Earth.MU / p.state.position.magnitude ^ 2)
    (hT : T = m_dot * isp * SEA_LEVEL_G / (m0 * exp (-dv.magnitude / (isp * SEA_LEVEL_G))) +
      4.56e-9 * |p.state.srp_scalar|)
    (hdd : d = S * p.state.velocity.magnitude + S ^ 2 * (M + T))
    (hd : d ≤ p.state.position.magnitude / 5)
    (hz : |p.state.position.z| + 9 * d < 8 * p.state.position.axial) :
    ∃ p', RK4.maneuver dv m_dot m0 isp p = (.ok (), p') ∧
      (p'.state.position.minus p.state.position).magnitude ≤ d ∧
      (p'.state.velocity.minus p.state.velocity).magnitude ≤ S * (2 * M + T) ∧
      ((p'.state.position.minus p.state.position).minus (p.state.velocity.scaled S)).magnitude ≤ S ^ 2 * (M + T) := by
  have hg := g_pos
  have he : exp (-dv.magnitude / (isp * SEA_LEVEL_G)) ≤ 1 := by
    rw [exp_le_one_iff, div_nonpos_iff]; right; exact ⟨by linarith [dv.magnitude_nonneg], by positivity⟩
  have he0 := exp_pos (-dv.magnitude / (isp * SEA_LEVEL_G))
  have hS0 : 0 ≤ S := by rw [hS]; apply mul_nonneg (by positivity); linarith
  have hend : m0 - m_dot * S = m0 * exp (-dv.magnitude / (isp * SEA_LEVEL_G)) := by
    rw [hS]; field_simp; ring
  have hsec : SECONDS_IN_DAY = 86400 := by norm_num [SECONDS_IN_DAY]
  obtain ⟨q, hq, b1, b2, b3⟩ := C90_propagation { p with thrust_direction := dv, m0 := m0, m_dot := m_dot, isp := isp }
    (p.state.epoch.plusDays (S / SECONDS_IN_DAY)) S M d T h1 h2 ht
    (by
      show S = |(p.state.epoch.value + S / SECONDS_IN_DAY - p.state.epoch.value) * 86400|
      rw [hsec, show (p.state.epoch.value + S / 86400 - p.state.epoch.value) * 86400 = S by ring, abs_of_nonneg hS0])
    hM hdd (by
      intro dt _ hdt _
      have hmass : m_dot * dt ≤ m_dot * S := mul_le_mul_of_nonneg_left ((le_abs_self dt).trans hdt) hm.le
      have hpos : 0 < m0 * exp (-dv.magnitude / (isp * SEA_LEVEL_G)) := by positivity
      obtain ⟨u, hu, hthr⟩ := C43_thrust { p with thrust_direction := dv, m0 := m0, m_dot := m_dot, isp := isp } dt
        hm.ne' h0 (by show m_dot * dt < m0; linarith) hdv
      refine ⟨_, hthr, ?_⟩
      rw [hT]
      refine add_le_add ?_ le_rfl
      rw [Vec3.magnitude_scaled_abs]
      have hu1 : u.magnitude = 1 := by
        rw [Vec3.normalized_eq_ok] at hu
        rw [hu.2]; exact Vec3.magnitude_unit (Vec3.unit_dot hdv)
      rw [hu1, mul_one]
      show |m_dot * isp * SEA_LEVEL_G / (m0 - m_dot * dt)| ≤ _
      rw [abs_of_nonneg (div_nonneg (by positivity) (by linarith))]
      have : m0 * exp (-dv.magnitude / (isp * SEA_LEVEL_G)) ≤ m0 - m_dot * dt := by linarith
      gcongr) hd hz
  have e : ((p.state.epoch.plusDays (S / SECONDS_IN_DAY)).value - p.state.epoch.value) * 86400 = S := by
    show (p.state.epoch.value + S / SECONDS_IN_DAY - p.state.epoch.value) * 86400 = S
    rw [hsec]; ring
  have b3' : ((q.state.position.minus p.state.position).minus (p.state.velocity.scaled
    (((p.state.epoch.plusDays (S / SECONDS_IN_DAY)).value - p.state.epoch.value) * 86400))).magnitude ≤
      S ^ 2 * (M + T) := b3
  rw [e] at b3'
  exact ⟨_, maneuver_ok_iff.mpr ⟨S, q, by rw [burnDuration_ok dv hm.ne' h0.ne' hi.ne', hS]; rfl, hq, rfl⟩, b1, b2, b3'⟩

/-! ## the hypotheses are met -/

/-- a geosynchronous satellite -/
noncomputable def geoExample : RK4 := RK4.new (GCRF.new ⟨59932⟩ ⟨42164, 0, 0⟩ ⟨0, 3.07, 0⟩)

/-- a satellite in a low circular orbit, 3000 km north of the equatorial plane -/
noncomputable def leoExample : RK4 := RK4.new (GCRF.new ⟨59932⟩ ⟨7200, 0, 3000⟩ ⟨0, 7.15, 0⟩)

theorem geoExample_data : geoExample.state.position.magnitude = 42164 ∧ geoExample.state.velocity.magnitude = 3.07 ∧
    geoExample.state.position.axial = 42164 ∧ |geoExample.state.epoch.julianCenturies| ≤ 4.9 := by
  refine ⟨Vec3.magnitude_of_dot (by norm_num) ?_, Vec3.magnitude_of_dot (by norm_num) ?_, ?_, ?_⟩
  · simp [geoExample, RK4.new, GCRF.copy, GCRF.new, State.new, Vec3.dot, Vec3.copy]; norm_num
  · simp [geoExample, RK4.new, GCRF.copy, GCRF.new, State.new, Vec3.dot, Vec3.copy]; norm_num
  · have : Vec3.axial ⟨42164, 0, 0⟩ = 42164 := by
      rw [Vec3.axial, show ((42164 : ℝ) ^ 2 + 0 ^ 2) = 42164 ^ 2 by ring]
      exact Real.sqrt_sq (by norm_num)
    exact this
  · show |(Epoch.mk 59932).julianCenturies| ≤ _
    norm_num [Epoch.julianCenturies, Epoch.julianValue, Epoch.JULIAN_CENTURY, Epoch.MJD_ZERO,
      Epoch.J2000_JULIAN_DATE, abs_of_pos]

/-- thirty-eight minutes of geosynchronous flight, in either direction: up to eight steps -/
theorem geoExample_flies (x : ℝ) (hx : |x| ≤ 2300) : ∃ p', RK4.stepToEpoch ⟨59932 + x / 86400⟩ geoExample = (.ok (), p') := by
  obtain ⟨h1, h2, h3, h4⟩ := geoExample_data
  have hS : |((59932 + x / 86400) - 59932) * 86400| = |x| := by congr 1; ring
  have hb : |x| * 3.07 + |x| ^ 2 * (Earth.MU / 42164 ^ 2 + 0) ≤ 8400 := by
    have q1 : |x| ^ 2 ≤ 2300 ^ 2 := pow_le_pow_left₀ (abs_nonneg x) hx 2
    have q2 : Earth.MU / 42164 ^ 2 + 0 ≤ 2.25e-4 := by norm_num [Earth.MU]
    have q3 : |x| ^ 2 * (Earth.MU / 42164 ^ 2 + 0) ≤ 2300 ^ 2 * 2.25e-4 :=
      mul_le_mul q1 q2 (by norm_num [Earth.MU]) (by norm_num)
    norm_num at q3 ⊢; linarith
  obtain ⟨p', hp, -⟩ := C90_coast geoExample ⟨59932 + x / 86400⟩ |x| (Earth.MU / 42164 ^ 2)
    (|x| * 3.07 + |x| ^ 2 * (Earth.MU / 42164 ^ 2 + 0)) 0 rfl (by rw [h1]; norm_num) (by rw [h1]; norm_num) h4
    hS.symm (by rw [h1]) (by simp [geoExample, RK4.new, GCRF.copy, GCRF.new]) (by rw [h2]) (by rw [h1]; linarith)
    (by
      have : |geoExample.state.position.z| = 0 := by
        simp [geoExample, RK4.new, GCRF.copy, GCRF.new, State.new, Vec3.copy]
      rw [this, h3]; linarith)
  exact ⟨p', hp⟩

/-- a step of the default 300 s in a low orbit -/
example : ∃ p', RK4.step leoExample = (.ok (), p') := by
  have h1 : leoExample.state.position.magnitude = 7800 := by
    refine Vec3.magnitude_of_dot (by norm_num) ?_
    simp [leoExample, RK4.new, GCRF.copy, GCRF.new, State.new, Vec3.dot, Vec3.copy]; norm_num
  have h2 : leoExample.state.velocity.magnitude = 7.15 := by
    refine Vec3.magnitude_of_dot (by norm_num) ?_
    simp [leoExample, RK4.new, GCRF.copy, GCRF.new, State.new, Vec3.dot, Vec3.copy]; norm_num
  have h3 : leoExample.state.position.axial = 7200 := by
    have : Vec3.axial ⟨7200, 0, 3000⟩ = 7200 := by
      rw [Vec3.axial, show ((7200 : ℝ) ^ 2 + 0 ^ 2) = 7200 ^ 2 by ring]
      exact Real.sqrt_sq (by norm_num)
    exact this
  have h4 : leoExample.step_size = 300 := rfl
  have h5 : |leoExample.state.position.z| = 3000 := by
    show |(3000 : ℝ)| = 3000
    norm_num
  refine C90_step leoExample 0 (by rw [h1]; norm_num) (by rw [h1]; norm_num) geoExample_data.2.2.2 ?_ ?_ ?_
  · intro dt _
    refine ⟨_, C43_off _ dt rfl, ?_⟩
    rw [Vec3.magnitude_eq_zero.mpr rfl]
    have : leoExample.state.srp_scalar = 0 := rfl
    rw [this, abs_zero]; norm_num
  · rw [h1, h2, h4]; norm_num [abs_of_pos]
  · rw [h1, h2, h3, h4, h5]; norm_num [abs_of_pos, Earth.MU]

/-- a burn of 10 m/s from geosynchronous orbit, of about half a minute -/
theorem geoExample_burns : ∃ p', RK4.maneuver ⟨0, 0.01, 0⟩ 0.1 1000 300 geoExample = (.ok (), p') := by
  obtain ⟨h1, h2, h3, h4⟩ := geoExample_data
  have hdv : (⟨0, 0.01, 0⟩ : Vec3).magnitude = 0.01 :=
    Vec3.magnitude_of_dot (by norm_num) (by simp only [Vec3.dot]; norm_num)
  obtain ⟨E, hE⟩ : ∃ E, E = exp (-(⟨0, 0.01, 0⟩ : Vec3).magnitude / (300 * SEA_LEVEL_G)) := ⟨_, rfl⟩
  have hE1 : 0.99 ≤ E := by
    rw [hE, hdv]
    refine le_trans ?_ (add_one_le_exp _)
    norm_num [SEA_LEVEL_G]
  have hE2 : E ≤ 1 := by
    rw [hE, hdv, exp_le_one_iff]; norm_num [SEA_LEVEL_G]
  have hSb : 1000 / 0.1 * (1 - E) ≤ 100 := by norm_num at hE1 ⊢; linarith
  have hS0 : 0 ≤ 1000 / 0.1 * (1 - E) := by norm_num; linarith
  have hTb : 0.1 * 300 * SEA_LEVEL_G / (1000 * E) + 0 ≤ 1e-3 := by
    rw [add_zero, div_le_iff₀ (by norm_num at hE1; linarith)]
    norm_num [SEA_LEVEL_G] at hE1 ⊢; linarith
  have hT0 : 0 ≤ 0.1 * 300 * SEA_LEVEL_G / (1000 * E) + 0 := by
    have := g_pos
    have : 0 ≤ E := by norm_num at hE1; linarith
    positivity
  obtain ⟨S, hS⟩ : ∃ S, S = 1000 / 0.1 * (1 - E) := ⟨_, rfl⟩
  obtain ⟨T, hT⟩ : ∃ T, T = 0.1 * 300 * SEA_LEVEL_G / (1000 * E) + 0 := ⟨_, rfl⟩
  rw [← hS] at hSb hS0
  rw [← hT] at hTb hT0
  have hb : S * 3.07 + S ^ 2 * (Earth.MU / 42164 ^ 2 + T) ≤ 400 := by
    have q1 : S ^ 2 ≤ 100 ^ 2 := pow_le_pow_left₀ hS0 hSb 2
    have q2 : Earth.MU / 42164 ^ 2 + T ≤ 1.3e-3 := by
      have : Earth.MU / 42164 ^ 2 ≤ 2.25e-4 := by norm_num [Earth.MU]
      norm_num at this hTb ⊢; linarith
    have q3 : S ^ 2 * (Earth.MU / 42164 ^ 2 + T) ≤ 100 ^ 2 * 1.3e-3 :=
      mul_le_mul q1 q2 (add_nonneg (by norm_num [Earth.MU]) hT0) (by norm_num)
    norm_num at q3 ⊢; linarith
  obtain ⟨p', hp, -⟩ := C90_burn geoExample ⟨0, 0.01, 0⟩ 0.1 1000 300 S (Earth.MU / 42164 ^ 2)
    (S * 3.07 + S ^ 2 * (Earth.MU / 42164 ^ 2 + T)) T
    (by intro h; have := congrArg Vec3.y h; norm_num at this) (by norm_num) (by norm_num) (by norm_num)
    (by rw [h1]; norm_num) (by rw [h1]; norm_num) h4 (by rw [hS, hE]) (by rw [h1])
    (by
      rw [hT, ← hE]
      have : geoExample.state.srp_scalar = 0 := rfl
      rw [this, abs_zero, mul_zero]) (by rw [h2]) (by rw [h1]; linarith)
    (by
      have : |geoExample.state.position.z| = 0 := by
        simp [geoExample, RK4.new, GCRF.copy, GCRF.new, State.new, Vec3.copy]
      rw [this, h3]; linarith)
  exact ⟨p', hp⟩

end Openspace
