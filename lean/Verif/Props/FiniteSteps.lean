import Verif.Lemmas.StepError
import Verif.Lemmas.Jerk
import Verif.Props.Existence

/-!
# C174: how far propagation in a given number of steps is from what the elements predict
-/

namespace Openspace

open Real Filter Topology

namespace Finite

/-- a force law evaluated near a point `b` of the two-body motion -/
theorem near (s : GCRF) (hth : s.thrust = ⟨0, 0, 0⟩) (hsrp : s.srp_scalar = 0) {lo hi w ε : ℝ} (hlo : 5000 ≤ lo)
    (hhi : hi ≤ 300000) (hw : w = √(2 * Earth.MU / lo ^ 3)) (hε : ε = Spec.perturbation lo hi)
    (h1 : lo ≤ s.position.magnitude) (h2 : s.position.magnitude ≤ hi)
    (hax : ∀ z, PositionConvert.gcrfToItrf s.position s.epoch ≠ .ok ⟨0, 0, z⟩) {b : Vec3} (hb : lo ≤ b.magnitude) :
    ∃ a, s.derivative = .ok (s.velocity, a) ∧ ‖a.toE‖ ≤ Earth.MU / lo ^ 2 + ε ∧
      ‖a.toE - -(Earth.MU / ‖b.toE‖ ^ 3) • b.toE‖ ≤ w ^ 2 * ‖s.position.toE - b.toE‖ + ε := by
  have hM : 0 < Earth.MU := by norm_num [Earth.MU]
  have hlo0 : 0 < lo := by linarith
  obtain ⟨a, ha, hb1⟩ := C169_perturbation s (by linarith) (by linarith) hax
  rw [hsrp, abs_zero, mul_zero, add_zero, hth] at hb1
  have hmono := perturbation_mono hlo0 h1 h2 hhi
  rw [← hε] at hmono
  have hb2 := hb1.trans hmono
  rw [show a.minus ⟨0, 0, 0⟩ = a by ext <;> simp [Vec3.minus]] at hb2
  have hs := Perturbed.attraction_sharp hlo0 h1 hb
  have hw2 : w ^ 2 = 2 * Earth.MU / lo ^ 3 := by rw [hw]; exact Real.sq_sqrt (by positivity)
  rw [← hw2, ← Vec3.norm_toE (Vec3.minus _ _), ← Vec3.norm_toE (s.position.minus b), toE_minus, toE_minus, toE_scaled,
    toE_scaled] at hs
  rw [← Vec3.norm_toE (Vec3.minus _ _), toE_minus, toE_scaled] at hb2
  have n1 : ‖(-Earth.MU / s.position.magnitude ^ 3) • s.position.toE‖ ≤ Earth.MU / lo ^ 2 := by
    have h0 : 0 < s.position.magnitude := by linarith
    rw [norm_smul, Vec3.norm_toE, neg_div, norm_neg, Real.norm_of_nonneg (by positivity)]
    have e : Earth.MU / s.position.magnitude ^ 3 * s.position.magnitude = Earth.MU / s.position.magnitude ^ 2 := by
      field_simp
    rw [e]
    gcongr
  refine ⟨a, ha, ?_, ?_⟩
  · have := norm_add_le_of_le n1 hb2
    rwa [add_sub_cancel] at this
  · have := norm_add_le_of_le hs hb2
    rw [show (-Earth.MU / s.position.magnitude ^ 3) • s.position.toE - (-Earth.MU / b.magnitude ^ 3) • b.toE +
      (a.toE - (-Earth.MU / s.position.magnitude ^ 3) • s.position.toE) = a.toE - (-Earth.MU / b.magnitude ^ 3) • b.toE by
        module, neg_div, ← Vec3.norm_toE b] at this
    exact this

theorem plusDays_plusDays (t : Epoch) (x y : ℝ) : (t.plusDays x).plusDays y = t.plusDays (x + y) := by
  ext; simp only [Epoch.plusDays]; ring

/-- what is known of a two-body motion and the tube around it -/
structure Tube (t0 : Epoch) (k : ℝ → State) (γ' γ'' : ℝ → EuclideanSpace ℝ (Fin 3)) (T lo hi m : ℝ) : Prop where
  hlo : 5000 ≤ lo
  hhi : hi ≤ 300000
  hi0 : 0 ≤ hi
  vel : ∀ s, HasDerivAt (fun s => (k s).position.toE) ((k s).velocity.toE) s
  acc : ∀ s, HasDerivAt (fun s => (k s).velocity.toE)
    (-(Earth.MU / ‖(k s).position.toE‖ ^ 3) • (k s).position.toE) s
  jerk : ∀ s, HasDerivAt (fun s => -(Earth.MU / ‖(k s).position.toE‖ ^ 3) • (k s).position.toE) (γ' s) s
  snap : ∀ s, HasDerivAt γ' (γ'' s) s
  size : ∀ s, ‖-(Earth.MU / ‖(k s).position.toE‖ ^ 3) • (k s).position.toE‖ ≤ Earth.MU / lo ^ 2
  bound : ∀ s, ‖γ'' s‖ ≤ 52 * Earth.MU ^ 2 / lo ^ 5
  above : ∀ s, lo ≤ (k s).position.magnitude
  tube : ∀ s ∈ Set.Icc 0 T, ∀ r : Vec3, ‖r.toE - (k s).position.toE‖ ≤ m → lo ≤ r.magnitude ∧
      r.magnitude ≤ hi ∧ ∀ z, PositionConvert.gcrfToItrf r (t0.plusDays (s / 86400)) ≠ .ok ⟨0, 0, z⟩

/-- a propagator that has come `t` seconds along the motion -/
structure Along (t0 : Epoch) (k : ℝ → State) (δ w h t : ℝ) (q : RK4) : Prop where
  off : q.m_dot = 0
  srp : q.state.srp_scalar = 0
  size : q.step_size = h
  epoch : q.state.epoch = t0.plusDays (t / 86400)
  pos : ‖q.state.position.toE - (k t).position.toE‖ ≤ StepError.P δ w t
  vel : ‖q.state.velocity.toE - (k t).velocity.toE‖ ≤ StepError.Q δ w t

theorem one {t0 : Epoch} {k : ℝ → State} {γ' γ'' : ℝ → EuclideanSpace ℝ (Fin 3)} {T lo hi m δ w ε h t : ℝ}
    (H : Tube t0 k γ' γ'' T lo hi m) (hw : w = √(2 * Earth.MU / lo ^ 3)) (hε : ε = Spec.perturbation lo hi)
    (hδ : δ = (1 + (w * h) ^ 2 / 6) * ε + 18 * Earth.MU ^ 2 / lo ^ 5 * h ^ 2) (hh : 0 ≤ h) (ht : 0 ≤ t) (htT : t + h ≤ T)
    (hm : StepError.P δ w T + Earth.MU / lo ^ 2 * h ^ 2 ≤ m) {q : RK4} (hq : Along t0 k δ w h t q) :
    ∃ q', RK4.step q = (.ok (), q') ∧ Along t0 k δ w h (t + h) q' := by
  have hM : 0 < Earth.MU := by norm_num [Earth.MU]
  have hlo0 : 0 < lo := by linarith [H.hlo]
  have hw0 : 0 < w := by rw [hw]; positivity
  have hw2 : w ^ 2 = 2 * Earth.MU / lo ^ 3 := by rw [hw]; exact Real.sq_sqrt (by positivity)
  have hε0 : 0 ≤ ε := by
    have h2 : 0 < 356000 - hi := by linarith [H.hhi]
    have h3 : 0 < Moon.MU := by norm_num [Moon.MU]
    have h4 := H.hi0
    rw [hε, Spec.perturbation]
    positivity
  obtain ⟨A, hA⟩ : ∃ A, A = Earth.MU / lo ^ 2 := ⟨_, rfl⟩
  obtain ⟨M, hMd⟩ : ∃ M, M = 52 * Earth.MU ^ 2 / lo ^ 5 := ⟨_, rfl⟩
  have hA0 : 0 ≤ A := by rw [hA]; positivity
  have hM0 : 0 ≤ M := by rw [hMd]; positivity
  have hδ' : δ = (1 + (w * h) ^ 2 / 6) * ε + (w ^ 2 * A + M) / 3 * h ^ 2 := by
    rw [hδ, hw2, hA, hMd]; field_simp; ring
  have hδ0 : 0 ≤ δ := by rw [hδ']; positivity
  obtain ⟨e, he⟩ : ∃ e, e = StepError.P δ w t := ⟨_, rfl⟩
  obtain ⟨u, hu⟩ : ∃ u, u = StepError.Q δ w t := ⟨_, rfl⟩
  have hu0 : 0 ≤ u := (norm_nonneg _).trans (hu ▸ hq.vel)
  have he0 : 0 ≤ e := (norm_nonneg _).trans (he ▸ hq.pos)
  obtain ⟨ad1, ad2, ad3⟩ := StepError.advance hw0 hh ht hε0 hA0 hM0 hδ' he hu rfl rfl rfl rfl
  have hPT := (StepError.mono hw0 hδ0 (by linarith : 0 ≤ t + h) htT).1
  rw [← hA] at hm
  have reach : e + h * u + A / 2 * h ^ 2 + (A + ε) / 2 * h ^ 2 ≤ m := by linarith
  have hhu : 0 ≤ h * u := mul_nonneg hh hu0
  have hAh : 0 ≤ A * h ^ 2 := by positivity
  have hεh : 0 ≤ ε * h ^ 2 := by positivity
  -- the motion from here on
  obtain ⟨R, hR⟩ : ∃ R : ℝ → EuclideanSpace ℝ (Fin 3), R = fun s => (k (t + s)).position.toE := ⟨_, rfl⟩
  obtain ⟨V, hV⟩ : ∃ V : ℝ → EuclideanSpace ℝ (Fin 3), V = fun s => (k (t + s)).velocity.toE := ⟨_, rfl⟩
  obtain ⟨γ, hγ⟩ : ∃ γ : ℝ → EuclideanSpace ℝ (Fin 3), γ = fun s =>
    -(Earth.MU / ‖(k (t + s)).position.toE‖ ^ 3) • (k (t + s)).position.toE := ⟨_, rfl⟩
  have dR : ∀ s ∈ Set.Icc 0 h, HasDerivAt R (V s) s := fun s _ => by
    rw [hR, hV]; exact (H.vel (t + s)).comp_const_add t s
  have dV : ∀ s ∈ Set.Icc 0 h, HasDerivAt V (γ s) s := fun s _ => by
    rw [hγ, hV]; exact (H.acc (t + s)).comp_const_add t s
  have dγ : ∀ s ∈ Set.Icc 0 h, HasDerivAt γ ((fun s => γ' (t + s)) s) s := fun s _ => by
    rw [hγ]; exact (H.jerk (t + s)).comp_const_add t s
  have dγ' : ∀ s ∈ Set.Icc 0 h, HasDerivAt (fun s => γ' (t + s)) ((fun s => γ'' (t + s)) s) s := fun s _ =>
    (H.snap (t + s)).comp_const_add t s
  have bA : ∀ s ∈ Set.Icc 0 h, ‖γ s‖ ≤ A := fun s _ => by rw [hγ, hA]; exact H.size (t + s)
  have bM : ∀ s ∈ Set.Icc 0 h, ‖(fun s => γ'' (t + s)) s‖ ≤ M := fun s _ => by rw [hMd]; exact H.bound (t + s)
  have start : ‖q.state.position.toE - R 0‖ ≤ e := by rw [hR, he]; simpa using hq.pos
  have start' : ‖q.state.velocity.toE - V 0‖ ≤ u := by rw [hV, hu]; simpa using hq.vel
  have eval : ∀ (s : GCRF) (x : ℝ), s.thrust = ⟨0, 0, 0⟩ → s.srp_scalar = 0 → x ∈ Set.Icc 0 h →
      s.epoch = t0.plusDays ((t + x) / 86400) → ‖s.position.toE - R x‖ ≤ m →
      ∃ a, s.derivative = .ok (s.velocity, a) ∧ ‖a.toE‖ ≤ A + ε ∧ ‖a.toE - γ x‖ ≤ w ^ 2 * ‖s.position.toE - R x‖ + ε := by
    intro s x h1 h2 hx h3 h4
    rw [hR] at h4
    obtain ⟨g1, g2, g3⟩ := H.tube (t + x) ⟨by linarith [hx.1], by linarith [hx.2]⟩ s.position h4
    rw [← h3] at g3
    obtain ⟨a, a1, a2, a3⟩ := near s h1 h2 H.hlo H.hhi hw hε g1 g2 g3 (H.above (t + x))
    refine ⟨a, a1, by rw [hA]; exact a2, ?_⟩
    rw [hγ, hR]; exact a3
  have hsec : SECONDS_IN_DAY = 86400 := by norm_num [SECONDS_IN_DAY]
  have mid : q.state.epoch.plusDays (q.step_size / 2 / SECONDS_IN_DAY) = t0.plusDays ((t + h / 2) / 86400) := by
    rw [hq.epoch, hq.size, hsec, plusDays_plusDays]; congr 1; ring
  have fin : (q.state.epoch.plusDays (q.step_size / 2 / SECONDS_IN_DAY)).plusDays (q.step_size / 2 / SECONDS_IN_DAY) =
      t0.plusDays ((t + h) / 86400) := by
    rw [mid, hq.size, hsec, plusDays_plusDays]; congr 1; ring
  obtain ⟨r, hr⟩ : ∃ r, r = q.state.position := ⟨_, rfl⟩
  obtain ⟨v, hv⟩ : ∃ v, v = q.state.velocity := ⟨_, rfl⟩
  rw [← hr] at start
  rw [← hv] at start'
  have toE2 : ∀ (a b : Vec3) (x : ℝ), (a.plus (b.scaled x)).toE = a.toE + x • b.toE := fun a b x => by
    rw [toE_plus, toE_scaled]
  -- the four stages
  obtain ⟨a1, d1, n1, b1⟩ := eval (q.thrusted ⟨0, 0, 0⟩) 0 rfl hq.srp ⟨le_rfl, hh⟩
    (by show q.state.epoch = _; rw [hq.epoch, add_zero]) (by
      show ‖q.state.position.toE - R 0‖ ≤ m
      rw [← hr]; refine start.trans ?_; linarith)
  have p2 := (StepError.places (a1 := a1.toE) (a2 := a1.toE) (B := A + ε) hh dR dV bA start start').1
  have p3 := (StepError.places (a1 := a1.toE) (a2 := a1.toE) (B := A + ε) hh dR dV bA start start').2.1 n1
  obtain ⟨a2, d2, n2, b2⟩ := eval { GCRF.new (t0.plusDays ((t + h / 2) / 86400)) (r.plus (v.scaled (h / 2)))
    (v.plus (a1.scaled (h / 2))) with thrust := ⟨0, 0, 0⟩ } (h / 2) rfl rfl ⟨by linarith, by linarith⟩ rfl (by
      show ‖(r.plus (v.scaled (h / 2))).toE - R (h / 2)‖ ≤ m
      rw [toE2]; refine p2.trans ?_; linarith)
  obtain ⟨a3, d3, -, b3⟩ := eval { GCRF.new (t0.plusDays ((t + h / 2) / 86400))
    (r.plus ((v.plus (a1.scaled (h / 2))).scaled (h / 2)))
    (v.plus (a2.scaled (h / 2))) with thrust := ⟨0, 0, 0⟩ } (h / 2) rfl rfl ⟨by linarith, by linarith⟩ rfl (by
      show ‖(r.plus ((v.plus (a1.scaled (h / 2))).scaled (h / 2))).toE - R (h / 2)‖ ≤ m
      rw [toE2, toE2]; refine p3.trans ?_; linarith)
  have p4 := (StepError.places (a1 := a1.toE) (a2 := a2.toE) (B := A + ε) hh dR dV bA start start').2.2 n2
  obtain ⟨a4, d4, -, b4⟩ := eval { GCRF.new (t0.plusDays ((t + h) / 86400))
    (r.plus ((v.plus (a2.scaled (h / 2))).scaled h))
    (v.plus (a3.scaled h)) with thrust := ⟨0, 0, 0⟩ } h rfl rfl ⟨hh, le_rfl⟩ rfl (by
      show ‖(r.plus ((v.plus (a2.scaled (h / 2))).scaled h)).toE - R h‖ ≤ m
      rw [toE2, toE2]; exact p4.trans reach)
  have c1 : ‖a1.toE - γ 0‖ ≤ w ^ 2 * e + ε := by
    refine b1.trans (add_le_add (mul_le_mul_of_nonneg_left ?_ (by positivity)) le_rfl)
    show ‖q.state.position.toE - R 0‖ ≤ e
    rw [← hr]; exact start
  have c2 : ‖a2.toE - γ (h / 2)‖ ≤ w ^ 2 * (e + h / 2 * u + A / 8 * h ^ 2) + ε := by
    refine b2.trans (add_le_add (mul_le_mul_of_nonneg_left ?_ (by positivity)) le_rfl)
    show ‖(r.plus (v.scaled (h / 2))).toE - R (h / 2)‖ ≤ _
    rw [toE2]; exact p2
  have c3 : ‖a3.toE - γ (h / 2)‖ ≤ w ^ 2 * (e + h / 2 * u + A / 8 * h ^ 2 + (A + ε) / 4 * h ^ 2) + ε := by
    refine b3.trans (add_le_add (mul_le_mul_of_nonneg_left ?_ (by positivity)) le_rfl)
    show ‖(r.plus ((v.plus (a1.scaled (h / 2))).scaled (h / 2))).toE - R (h / 2)‖ ≤ _
    rw [toE2, toE2]; exact p3
  have c4 : ‖a4.toE - γ h‖ ≤ w ^ 2 * (e + h * u + A / 2 * h ^ 2 + (A + ε) / 2 * h ^ 2) + ε := by
    refine b4.trans (add_le_add (mul_le_mul_of_nonneg_left ?_ (by positivity)) le_rfl)
    show ‖(r.plus ((v.plus (a2.scaled (h / 2))).scaled h)).toE - R h‖ ≤ _
    rw [toE2, toE2]; exact p4
  obtain ⟨s1, s2⟩ := StepError.step hh dR dV dγ dγ' bM start start' c1 c2 c3 c4
  have thr := fun x => C43_off q x hq.off
  have ok : RK4.step q = (.ok (), q.stepped (v, a1) (v.plus (a1.scaled (h / 2)), a2) (v.plus (a2.scaled (h / 2)), a3)
      (v.plus (a3.scaled h), a4)) := by
    rw [RK4.step_ok_iff]
    refine ⟨_, _, _, _, _, thr 0, by rw [hv]; exact d1, ?_, ?_, ?_, rfl⟩
    · rw [mid, hq.size, RK4.stage, thr, ok_bind, ← hr, ← hv]; exact d2
    · rw [mid, hq.size, RK4.stage, thr, ok_bind, ← hr, ← hv]; exact d3
    · rw [fin, hq.size, RK4.stage, thr, ok_bind, ← hr, ← hv]; exact d4
  refine ⟨_, ok, ?_⟩
  obtain ⟨f1, f2, -, -, -, -, -, f8, -⟩ := RK4.step_frame ok
  refine ⟨by rw [f2]; exact hq.off, f8, by rw [f1]; exact hq.size, fin, ?_, ?_⟩
  · refine le_trans (le_of_eq ?_) (s2.trans ad2)
    rw [hR]
    congr 2
    show (q.state.position.plus _).toE = _
    rw [← hr, hq.size]
    simp only [toE_plus, toE_scaled]
    module
  · refine le_trans (le_of_eq ?_) (s1.trans ad1)
    rw [hV]
    congr 2
    show (q.state.velocity.plus _).toE = _
    rw [← hv, hq.size]
    simp only [toE_plus, toE_scaled]
    module

theorem many {t0 : Epoch} {k : ℝ → State} {γ' γ'' : ℝ → EuclideanSpace ℝ (Fin 3)} {T lo hi m δ w ε h : ℝ}
    (H : Tube t0 k γ' γ'' T lo hi m) (hw : w = √(2 * Earth.MU / lo ^ 3)) (hε : ε = Spec.perturbation lo hi)
    (hδ : δ = (1 + (w * h) ^ 2 / 6) * ε + 18 * Earth.MU ^ 2 / lo ^ 5 * h ^ 2) (hh : 0 ≤ h)
    (hm : StepError.P δ w T + Earth.MU / lo ^ 2 * h ^ 2 ≤ m) (n : ℕ) {t : ℝ} (ht : 0 ≤ t) (htT : t + n * h ≤ T) {q : RK4}
    (hq : Along t0 k δ w h t q) :
    ∃ q', PyM.repeatN n RK4.step q = (.ok (), q') ∧ Along t0 k δ w h (t + n * h) q' := by
  induction n generalizing t q with
  | zero => exact ⟨q, rfl, by simpa using hq⟩
  | succ n ih =>
    push_cast at htT
    have hn : 0 ≤ n * h := by positivity
    obtain ⟨q1, h1, hq1⟩ := one H hw hε hδ hh ht (by linarith) hm hq
    obtain ⟨q2, h2, hq2⟩ := ih (t := t + h) (by linarith) (by linarith) hq1
    refine ⟨q2, ?_, by push_cast; rw [show t + ((n : ℝ) + 1) * h = t + h + n * h by ring]; exact hq2⟩
    rw [RK4.repeatN_ok_iff] at h2 ⊢
    exact .succ h1 h2

/-- the two-body motion from the start of the propagation, with the tube around its orbit -/
theorem setup (p : RK4) (T lo hi m : ℝ) (hlo : 5000 ≤ lo) (hhi : hi ≤ 300000)
    (hepoch : ∀ s ∈ Set.Icc 0 T, |(p.state.epoch.plusDays (s / 86400)).julianCenturies| ≤ 5)
    (hb : p.state.velocity.magnitude ^ 2 / 2 < Earth.MU / p.state.position.magnitude)
    (hp : (p.state.position.cross p.state.velocity).x ≠ 0 ∨ (p.state.position.cross p.state.velocity).y ≠ 0)
    (el : ClassicalElements) (hel : ClassicalElements.fromIjk p.state.toState = .ok el)
    (hper : lo + m ≤ el.semimajor_axis * (1 - el.eccentricity))
    (hapo : el.semimajor_axis * (1 + el.eccentricity) + m ≤ hi)
    (hinc : 9 * m ≤ (8 * |cos el.inclination| - 1) * lo) (hm0 : 0 < m) :
    ∃ (k : ℝ → State) (γ' γ'' : ℝ → EuclideanSpace ℝ (Fin 3)), k 0 = p.state.toState ∧
      Spec.TwoBody Earth.MU Set.univ (fun t => (k t).position.toE) (fun t => (k t).velocity.toE) ∧
      Tube p.state.epoch k γ' γ'' T lo hi m := by
  have hM : 0 < Earth.MU := by norm_num [Earth.MU]
  have hlo0 : 0 < lo := by linarith
  have hh : p.state.position.cross p.state.velocity ≠ ⟨0, 0, 0⟩ := by
    intro h; rw [h] at hp; simp at hp
  obtain ⟨k0, hk0, e1, e2⟩ := exists_motion p.state.toState hh hb 0
  obtain ⟨k, hk⟩ : ∃ k : ℝ → State, k = fun t =>
    { p.state.toState with position := (k0 t).position, velocity := (k0 t).velocity } := ⟨_, rfl⟩
  have hkm : Spec.TwoBody Earth.MU Set.univ (fun t => (k t).position.toE) (fun t => (k t).velocity.toE) := by
    rw [hk]; exact hk0
  have hk00 : k 0 = p.state.toState := by rw [hk]; simp only [e1, e2]
  have hpos : ∀ t, ∃ E, (k t).position = orbitPos el E ∧ 0 < el.semimajor_axis ∧ 0 ≤ el.eccentricity ∧
      el.eccentricity < 1 := fun t => by
    obtain ⟨ha, he, he', E, _, _, h, _⟩ := motion_of_elements Set.ordConnected_univ hkm (t := t) trivial
      (t0 := 0) trivial (by rw [hk00]; exact hp) (by rw [hk00]; exact hb) (by rw [hk00]; exact hel)
    exact ⟨E, h, ha, he, he'⟩
  have above : ∀ t, lo ≤ (k t).position.magnitude := fun t => by
    obtain ⟨E, h, ha, he, he'⟩ := hpos t
    rw [h, Gauss.orbitPos_mag ha he he']
    have : el.semimajor_axis * (1 - el.eccentricity) ≤ el.semimajor_axis * (1 - el.eccentricity * cos E) :=
      mul_le_mul_of_nonneg_left (by nlinarith [Real.cos_le_one E]) ha.le
    linarith
  have hne : ∀ t ∈ Set.univ, (k t).position ≠ ⟨0, 0, 0⟩ := fun t _ => Vec3.magnitude_pos.mp (by linarith [above t])
  have hbound : ∀ t, ‖(k t).velocity.toE‖ ^ 2 / 2 ≤ Earth.MU / ‖(k t).position.toE‖ := fun t => by
    have := energy_const Set.ordConnected_univ (p := fun t => (k t).position) (v := fun t => (k t).velocity) hkm hne
      (t := t) (t0 := 0) trivial trivial
    simp only [hk00] at this
    rw [Vec3.norm_toE, Vec3.norm_toE]
    have h1 : p.state.toState.velocity.magnitude ^ 2 / 2 < Earth.MU / p.state.toState.position.magnitude := hb
    linarith
  obtain ⟨γ', γ'', hg⟩ := Jerk.jerk hM hlo0 (fun s => hkm.velocity s trivial) (fun s => hkm.attraction s trivial)
    (fun s => by rw [Vec3.norm_toE]; exact above s) hbound
  have hi0 : 0 ≤ hi := by
    obtain ⟨E, h, ha, he, he'⟩ := hpos 0
    nlinarith
  refine ⟨k, γ', γ'', hk00, hkm, ⟨hlo, hhi, hi0, fun s => hkm.velocity s trivial, fun s => hkm.attraction s trivial,
    fun s => (hg s).1, fun s => (hg s).2.1, fun s => (hg s).2.2.1, fun s => (hg s).2.2.2, above, fun s hs r hr => ?_⟩⟩
  obtain ⟨E, h, ha, he, he'⟩ := hpos s
  rw [← toE_minus, Vec3.norm_toE, h] at hr
  exact Existence.tube ha he he' hlo hm0 hper hapo hinc hr (hepoch s hs)

theorem larger {δ δ' w t : ℝ} (hw : 0 < w) (ht : 0 ≤ t) (h : δ ≤ δ') :
    StepError.P δ w t ≤ StepError.P δ' w t ∧ StepError.Q δ w t ≤ StepError.Q δ' w t := by
  have h1 := Real.add_one_le_exp (w * t)
  have h2 : 0 ≤ w * t := mul_nonneg hw.le ht
  rw [StepError.P, StepError.P, StepError.Q, StepError.Q]
  exact ⟨mul_le_mul_of_nonneg_right (div_le_div_of_nonneg_right h (by positivity)) (by linarith),
    mul_le_mul_of_nonneg_right (div_le_div_of_nonneg_right h hw.le) (by linarith)⟩

/-- `N` steps of at most `H` seconds -/
theorem run (p : RK4) (hsrp : p.state.srp_scalar = 0)
    (hoff : p.m_dot = 0) (T lo hi m H : ℝ) (hT : 0 ≤ T) (hlo : 5000 ≤ lo)
    (hhi : hi ≤ 300000) (hepoch : ∀ s ∈ Set.Icc 0 T, |(p.state.epoch.plusDays (s / 86400)).julianCenturies| ≤ 5)
    (hb : p.state.velocity.magnitude ^ 2 / 2 < Earth.MU / p.state.position.magnitude)
    (hp : (p.state.position.cross p.state.velocity).x ≠ 0 ∨ (p.state.position.cross p.state.velocity).y ≠ 0)
    (el : ClassicalElements) (hel : ClassicalElements.fromIjk p.state.toState = .ok el)
    (hper : lo + m ≤ el.semimajor_axis * (1 - el.eccentricity))
    (hapo : el.semimajor_axis * (1 + el.eccentricity) + m ≤ hi)
    (hinc : 9 * m ≤ (8 * |cos el.inclination| - 1) * lo) (hm0 : 0 < m)
    (w ε δ : ℝ) (hw : w = √(2 * Earth.MU / lo ^ 3)) (hε : ε = Spec.perturbation lo hi)
    (hδ : δ = (1 + (w * H) ^ 2 / 6) * ε + 18 * Earth.MU ^ 2 / lo ^ 5 * H ^ 2)
    (hm : δ / w ^ 2 * (exp (w * T) - 1 - w * T) + Earth.MU / lo ^ 2 * H ^ 2 ≤ m) (N : ℕ) (hN : 0 < N) (hH : T / N ≤ H)
    (j : ℤ) (ma : ℝ)
    (hma : ma = el.mean_anomaly + √(Earth.MU / el.semimajor_axis ^ 3) * T + 2 * π * j)
    (ma1 : -(2 * π) ≤ ma) (ma2 : ma ≤ 2 * π) :
    ∃ q, PyM.repeatN N RK4.step { p with step_size := T / N } = (.ok (), q) ∧
      q.state.epoch = p.state.epoch.plusDays (T / 86400) ∧
      ∃ s' F, (∀ fuel, F ≤ fuel → ({el with mean_anomaly := ma} : ClassicalElements).toIjk fuel = .ok s') ∧
        (s'.position.minus q.state.position).magnitude ≤ δ / w ^ 2 * (exp (w * T) - 1 - w * T) +
          el.semimajor_axis * (5e-25 / (1 - el.eccentricity)) ∧
        (s'.velocity.minus q.state.velocity).magnitude ≤ δ / w * (exp (w * T) - 1) +
          √(Earth.MU / el.semimajor_axis) * (5e-25 / (1 - el.eccentricity) ^ 3) := by
  have hM : 0 < Earth.MU := by norm_num [Earth.MU]
  have hlo0 : 0 < lo := by linarith
  have hw0 : 0 < w := by rw [hw]; positivity
  obtain ⟨k, γ', γ'', hk0, hkm, tb⟩ := setup p T lo hi m hlo hhi hepoch hb hp el hel hper hapo hinc hm0
  have hε0 : 0 ≤ ε := by
    have h2 : 0 < 356000 - hi := by linarith
    have h3 : 0 < Moon.MU := by norm_num [Moon.MU]
    have h4 := tb.hi0
    rw [hε, Spec.perturbation]
    positivity
  have hN0 : (0 : ℝ) < N := by exact_mod_cast hN
  obtain ⟨h, hh⟩ : ∃ h, h = T / N := ⟨_, rfl⟩
  rw [← hh] at hH
  have h0 : 0 ≤ h := by rw [hh]; positivity
  obtain ⟨δh, hδh⟩ : ∃ δh, δh = (1 + (w * h) ^ 2 / 6) * ε + 18 * Earth.MU ^ 2 / lo ^ 5 * h ^ 2 := ⟨_, rfl⟩
  have hle : δh ≤ δ := by rw [hδh, hδ]; gcongr
  obtain ⟨l1, l2⟩ := larger hw0 hT hle
  have hmh : StepError.P δh w T + Earth.MU / lo ^ 2 * h ^ 2 ≤ m := by
    have : Earth.MU / lo ^ 2 * h ^ 2 ≤ Earth.MU / lo ^ 2 * H ^ 2 := by gcongr
    have e : StepError.P δ w T = δ / w ^ 2 * (exp (w * T) - 1 - w * T) := rfl
    linarith
  have hNh : N * h = T := by rw [hh]; field_simp
  obtain ⟨q, hq, hal⟩ := many tb hw hε hδh h0 hmh N (t := 0) le_rfl (by rw [zero_add, hNh])
    (q := { p with step_size := h }) ⟨hoff, hsrp, rfl, (plusDays_zero _).symm, by
      rw [hk0]; simp [StepError.P], by rw [hk0]; simp [StepError.Q]⟩
  rw [zero_add, hNh] at hal
  refine ⟨q, by rw [← hh]; exact hq, hal.epoch, ?_⟩
  obtain ⟨el0, e0, hpred⟩ := C125_prediction k Set.univ Set.ordConnected_univ hkm 0 trivial (by rw [hk0]; exact hb)
    (by rw [hk0]; exact hp)
  rw [hk0] at e0
  cases hel.symm.trans e0
  obtain ⟨s', F, hF, d1, d2⟩ := hpred T trivial j ma (by rw [sub_zero]; exact hma) ma1 ma2
  have c1 := hal.pos.trans l1
  have c2 := hal.vel.trans l2
  rw [← toE_minus, Vec3.norm_toE, StepError.P] at c1
  rw [← toE_minus, Vec3.norm_toE, StepError.Q] at c2
  refine ⟨s', F, hF, ?_, ?_⟩
  · have t := Vec3.magnitude_plus_le (s'.position.minus (k T).position) ((k T).position.minus q.state.position)
    rw [show (s'.position.minus (k T).position).plus ((k T).position.minus q.state.position) =
      s'.position.minus q.state.position by
      ext <;> simp [Vec3.plus, Vec3.minus], Perturbed.minus_swap (k T).position] at t
    linarith
  · have t := Vec3.magnitude_plus_le (s'.velocity.minus (k T).velocity) ((k T).velocity.minus q.state.velocity)
    rw [show (s'.velocity.minus (k T).velocity).plus ((k T).velocity.minus q.state.velocity) =
      s'.velocity.minus q.state.velocity by
      ext <;> simp [Vec3.plus, Vec3.minus], Perturbed.minus_swap (k T).velocity] at t
    linarith

end Finite

/-- **C174**: a coasting propagator without solar radiation pressure, within five centuries of the year 2000, on an ellipse
that is not too steep for its size, as in C171: `N ≥ 1` equal steps over `T` seconds all return, and end within
`δ/w² (e^(wT) - 1 - wT)` in position and `δ/w (e^(wT) - 1)` in velocity of what `to_ijk` returns for the advanced mean
anomaly, besides the tolerance of the solver of Kepler's equation, where the defect `δ` is `(1 + (wh)²/6)` times the bound
of the perturbations plus `18 mu² h² / lo⁵` for the length `h = T/N` of a step. -/
theorem C174_steps (p : RK4) (hsrp : p.state.srp_scalar = 0)
    (hoff : p.m_dot = 0) (T lo hi m : ℝ) (hT : 0 ≤ T) (hlo : 5000 ≤ lo)
    (hhi : hi ≤ 300000) (hepoch : ∀ s ∈ Set.Icc 0 T, |(p.state.epoch.plusDays (s / 86400)).julianCenturies| ≤ 5)
    (hb : p.state.velocity.magnitude ^ 2 / 2 < Earth.MU / p.state.position.magnitude)
    (hp : (p.state.position.cross p.state.velocity).x ≠ 0 ∨ (p.state.position.cross p.state.velocity).y ≠ 0)
    (el : ClassicalElements) (hel : ClassicalElements.fromIjk p.state.toState = .ok el)
    (hper : lo + m ≤ el.semimajor_axis * (1 - el.eccentricity))
    (hapo : el.semimajor_axis * (1 + el.eccentricity) + m ≤ hi)
    (hinc : 9 * m ≤ (8 * |cos el.inclination| - 1) * lo) (hm0 : 0 < m) (N : ℕ) (hN : 0 < N)
    (w ε h δ : ℝ) (hw : w = √(2 * Earth.MU / lo ^ 3)) (hε : ε = Spec.perturbation lo hi) (hh : h = T / N)
    (hδ : δ = (1 + (w * h) ^ 2 / 6) * ε + 18 * Earth.MU ^ 2 / lo ^ 5 * h ^ 2)
    (hm : δ / w ^ 2 * (exp (w * T) - 1 - w * T) + Earth.MU / lo ^ 2 * h ^ 2 ≤ m)
    (j : ℤ) (ma : ℝ)
    (hma : ma = el.mean_anomaly + √(Earth.MU / el.semimajor_axis ^ 3) * T + 2 * π * j)
    (ma1 : -(2 * π) ≤ ma) (ma2 : ma ≤ 2 * π) :
    ∃ q, PyM.repeatN N RK4.step { p with step_size := h } = (.ok (), q) ∧
      q.state.epoch = p.state.epoch.plusDays (T / 86400) ∧
      ∃ s' F, (∀ fuel, F ≤ fuel → ({el with mean_anomaly := ma} : ClassicalElements).toIjk fuel = .ok s') ∧
        (s'.position.minus q.state.position).magnitude ≤ δ / w ^ 2 * (exp (w * T) - 1 - w * T) +
          el.semimajor_axis * (5e-25 / (1 - el.eccentricity)) ∧
        (s'.velocity.minus q.state.velocity).magnitude ≤ δ / w * (exp (w * T) - 1) +
          √(Earth.MU / el.semimajor_axis) * (5e-25 / (1 - el.eccentricity) ^ 3) := by
  rw [hh]
  rw [hh] at hδ hm
  exact Finite.run p hsrp hoff T lo hi m (T / N) hT hlo hhi hepoch hb hp el hel hper hapo hinc hm0 w ε δ hw hε hδ hm N hN
    le_rfl j ma hma ma1 ma2

/-- **C174**: `step_to_epoch`, which never takes steps of more than 300 seconds, returns under the same conditions at the
epoch asked for, with these bounds for `h = 300`. -/
theorem C174_epoch (p : RK4) (hsrp : p.state.srp_scalar = 0) (hoff : p.m_dot = 0) (t : Epoch) (T lo hi m : ℝ)
    (hTt : T = (t.value - p.state.epoch.value) * 86400) (hT : 0 < T) (hlo : 5000 ≤ lo)
    (hhi : hi ≤ 300000) (hepoch : ∀ s ∈ Set.Icc 0 T, |(p.state.epoch.plusDays (s / 86400)).julianCenturies| ≤ 5)
    (hb : p.state.velocity.magnitude ^ 2 / 2 < Earth.MU / p.state.position.magnitude)
    (hp : (p.state.position.cross p.state.velocity).x ≠ 0 ∨ (p.state.position.cross p.state.velocity).y ≠ 0)
    (el : ClassicalElements) (hel : ClassicalElements.fromIjk p.state.toState = .ok el)
    (hper : lo + m ≤ el.semimajor_axis * (1 - el.eccentricity))
    (hapo : el.semimajor_axis * (1 + el.eccentricity) + m ≤ hi)
    (hinc : 9 * m ≤ (8 * |cos el.inclination| - 1) * lo) (hm0 : 0 < m)
    (w ε δ : ℝ) (hw : w = √(2 * Earth.MU / lo ^ 3)) (hε : ε = Spec.perturbation lo hi)
    (hδ : δ = (1 + (w * 300) ^ 2 / 6) * ε + 18 * Earth.MU ^ 2 / lo ^ 5 * 300 ^ 2)
    (hm : δ / w ^ 2 * (exp (w * T) - 1 - w * T) + Earth.MU / lo ^ 2 * 300 ^ 2 ≤ m)
    (j : ℤ) (ma : ℝ)
    (hma : ma = el.mean_anomaly + √(Earth.MU / el.semimajor_axis ^ 3) * T + 2 * π * j)
    (ma1 : -(2 * π) ≤ ma) (ma2 : ma ≤ 2 * π) :
    ∃ q, RK4.stepToEpoch t p = (.ok (), q) ∧ q.state.epoch = t ∧ q.step_size = p.step_size ∧
      ∃ s' F, (∀ fuel, F ≤ fuel → ({el with mean_anomaly := ma} : ClassicalElements).toIjk fuel = .ok s') ∧
        (s'.position.minus q.state.position).magnitude ≤ δ / w ^ 2 * (exp (w * T) - 1 - w * T) +
          el.semimajor_axis * (5e-25 / (1 - el.eccentricity)) ∧
        (s'.velocity.minus q.state.velocity).magnitude ≤ δ / w * (exp (w * T) - 1) +
          √(Earth.MU / el.semimajor_axis) * (5e-25 / (1 - el.eccentricity) ^ 3) := by
  have hsec : SECONDS_IN_DAY = 86400 := by norm_num [SECONDS_IN_DAY]
  obtain ⟨N, hNd⟩ : ∃ N, N = ⌈|T / 300|⌉₊ := ⟨_, rfl⟩
  have h1 : T / 300 ≤ N := by rw [hNd]; exact (le_abs_self _).trans (Nat.le_ceil _)
  have hN0 : (0 : ℝ) < N := lt_of_lt_of_le (by positivity) h1
  have hN : 0 < N := by exact_mod_cast hN0
  obtain ⟨q, hq, he, hs⟩ := Finite.run p hsrp hoff T lo hi m 300 hT.le hlo hhi hepoch hb hp el hel hper hapo hinc hm0 w ε δ
    hw hε hδ hm N hN (by rw [div_le_iff₀ hN0]; linarith) j ma hma ma1 ma2
  refine ⟨{ q with step_size := p.step_size }, ?_, ?_, rfl, hs⟩
  · rw [RK4.stepToEpoch_ok_iff, hsec, ← hTt, ← hNd, if_pos hN]
    exact ⟨q, RK4.repeatN_ok_iff.mp hq, rfl⟩
  · show q.state.epoch = t
    rw [he, hTt]
    ext
    simp only [Epoch.plusDays]
    ring

/-! ## one hour of the inclined geosynchronous orbit, with the library's own steps of 300 seconds -/

theorem geoTilted_finite {w ε δ h : ℝ} (hw : w = √(2 * Earth.MU / 40000 ^ 3)) (hε : ε = Spec.perturbation 40000 43000)
    (hh : 0 ≤ h) (hh' : h ≤ 300) (hδ : δ = (1 + (w * h) ^ 2 / 6) * ε + 18 * Earth.MU ^ 2 / 40000 ^ 5 * h ^ 2) :
    δ / w ^ 2 * (exp (w * 3600) - 1 - w * 3600) ≤ (7.1e-8 + 2.8e-11 * h ^ 2) * 3600 ^ 2 := by
  have hw0 : 0 < w := by rw [hw]; exact Real.sqrt_pos.mpr (by norm_num [Earth.MU])
  have hw1 : w ≤ 2e-4 := by
    rw [hw]; exact Real.sqrt_le_iff.mpr ⟨by norm_num, by norm_num [Earth.MU]⟩
  have hε0 : 0 ≤ ε := by rw [hε]; norm_num [Spec.perturbation, Earth.MU, Earth.RADIUS, Moon.MU]
  have hε1 : ε ≤ 7e-8 := by rw [hε]; norm_num [Spec.perturbation, Earth.MU, Earth.RADIUS, Moon.MU]
  have hwh : w * h ≤ 2e-4 * 300 := mul_le_mul hw1 hh' hh (by norm_num)
  have hwh0 : 0 ≤ w * h := mul_nonneg hw0.le hh
  have hδ0 : 0 ≤ δ := by rw [hδ]; have : 0 < Earth.MU := by norm_num [Earth.MU]
                         positivity
  have hδ1 : δ ≤ 7.1e-8 + 2.8e-11 * h ^ 2 := by
    have t1 : (w * h) ^ 2 ≤ (2e-4 * 300) ^ 2 := pow_le_pow_left₀ hwh0 hwh 2
    have t2 : (1 + (w * h) ^ 2 / 6) * ε ≤ 1.001 * 7e-8 := mul_le_mul (by linarith) hε1 hε0 (by norm_num)
    have t3 : 18 * Earth.MU ^ 2 / 40000 ^ 5 * h ^ 2 ≤ 2.8e-11 * h ^ 2 :=
      mul_le_mul_of_nonneg_right (by norm_num [Earth.MU]) (sq_nonneg _)
    rw [hδ]; linarith
  have hs0 : 0 ≤ w * 3600 := by positivity
  have hexp := Real.abs_exp_sub_one_sub_id_le (x := w * 3600) (by rw [abs_of_nonneg hs0]; linarith)
  have t1 : δ / w ^ 2 * (exp (w * 3600) - 1 - w * 3600) ≤ δ / w ^ 2 * (w * 3600) ^ 2 :=
    mul_le_mul_of_nonneg_left ((le_abs_self _).trans hexp) (by positivity)
  have t2 : δ / w ^ 2 * (w * 3600) ^ 2 = δ * 3600 ^ 2 := by field_simp
  rw [t2] at t1
  exact t1.trans (mul_le_mul_of_nonneg_right hδ1 (by norm_num))

/-- the elements, and an advanced mean anomaly that `to_ijk` accepts -/
theorem geoTilted_advance : ∃ el, ClassicalElements.fromIjk geoTilted.state.toState = .ok el ∧ ∃ j : ℤ, ∃ ma,
    ma = el.mean_anomaly + √(Earth.MU / el.semimajor_axis ^ 3) * 3600 + 2 * π * j ∧ -(2 * π) ≤ ma ∧ ma ≤ 2 * π ∧
    el.semimajor_axis * (5e-25 / (1 - el.eccentricity)) ≤ 1e-19 := by
  obtain ⟨hb, hp⟩ := geoTilted_bound
  obtain ⟨el, -, -, -, hel, -⟩ := fromIjk_bound geoTilted.state.toState
    (fun h => by
      have : (42164 : ℝ) = 0 := congrArg Vec3.x h
      norm_num at this)
    (fun h => hp (congrArg Vec3.y h)) hb
  obtain ⟨g1, g2, g3, g4⟩ := geoTilted_elements hel
  obtain ⟨x, hx⟩ : ∃ x, x = el.mean_anomaly + √(Earth.MU / el.semimajor_axis ^ 3) * 3600 := ⟨_, rfl⟩
  have hpi := Real.two_pi_pos
  have f1 := Int.floor_le (x / (2 * π))
  have f2 := Int.lt_floor_add_one (x / (2 * π))
  rw [le_div_iff₀ hpi] at f1
  rw [div_lt_iff₀ hpi] at f2
  refine ⟨el, hel, -⌊x / (2 * π)⌋, _, rfl, ?_, ?_, ?_⟩
  · rw [← hx]; push_cast; nlinarith
  · rw [← hx]; push_cast; nlinarith
  · have t4 : (5e-25 / (1 - el.eccentricity)) ≤ 1e-24 := by
      rw [div_le_iff₀ (by linarith)]; linarith
    have t5 : el.semimajor_axis * (5e-25 / (1 - el.eccentricity)) ≤ 41800 * 1e-24 :=
      mul_le_mul g2 t4 (div_nonneg (by norm_num) (by linarith)) (by norm_num)
    linarith

/-- 360 steps of ten seconds end within one kilometre of the elements' prediction -/
example : ∃ el ma q s' F, ClassicalElements.fromIjk geoTilted.state.toState = .ok el ∧
    (∀ fuel, F ≤ fuel → ({el with mean_anomaly := ma} : ClassicalElements).toIjk fuel = .ok s') ∧
    PyM.repeatN 360 RK4.step { geoTilted with step_size := 10 } = (.ok (), q) ∧
    (s'.position.minus q.state.position).magnitude ≤ 1 := by
  obtain ⟨hb, hp⟩ := geoTilted_bound
  obtain ⟨el, hel, j, ma, hma, ma1, ma2, tol⟩ := geoTilted_advance
  obtain ⟨g1, g2, g3, g4⟩ := geoTilted_elements hel
  have gi := geoTilted_inclination hel
  have drift := geoTilted_finite (h := 10) rfl rfl (by norm_num) (by norm_num) rfl
  have hA : Earth.MU / 40000 ^ 2 * 10 ^ 2 ≤ 0.025 := by norm_num [Earth.MU]
  obtain ⟨q, h1, -, s', F, h2, h3, -⟩ := C174_steps geoTilted rfl rfl 3600 40000 43000 1 (by norm_num) (by norm_num)
    (by norm_num) (fun s hs => geoMidnight_centuries (by rw [abs_of_nonneg hs.1]; exact hs.2)) hb (.inr hp) el hel
    (by linarith) (by linarith) (by linarith) (by norm_num) 360 (by norm_num) _ _ 10 _ rfl rfl (by norm_num) rfl
    (by linarith) j ma hma ma1 ma2
  exact ⟨el, ma, q, s', F, hel, h2, h1, by linarith⟩

/-- and `step_to_epoch` over the hour, in steps of 300 seconds, within 34 kilometres -/
example : ∃ el ma q s' F, ClassicalElements.fromIjk geoTilted.state.toState = .ok el ∧
    (∀ fuel, F ≤ fuel → ({el with mean_anomaly := ma} : ClassicalElements).toIjk fuel = .ok s') ∧
    RK4.stepToEpoch (geoTilted.state.epoch.plusDays (3600 / 86400)) geoTilted = (.ok (), q) ∧
    (s'.position.minus q.state.position).magnitude ≤ 34 := by
  obtain ⟨hb, hp⟩ := geoTilted_bound
  obtain ⟨el, hel, j, ma, hma, ma1, ma2, tol⟩ := geoTilted_advance
  obtain ⟨g1, g2, g3, g4⟩ := geoTilted_elements hel
  have gi := geoTilted_inclination hel
  have drift := geoTilted_finite (h := 300) rfl rfl (by norm_num) (by norm_num) rfl
  have hA : Earth.MU / 40000 ^ 2 * 300 ^ 2 ≤ 23 := by norm_num [Earth.MU]
  obtain ⟨q, h1, -, -, s', F, h2, h3, -⟩ := C174_epoch geoTilted rfl rfl (geoTilted.state.epoch.plusDays (3600 / 86400)) 3600
    40000 43000 60 (by simp only [Epoch.plusDays]; ring) (by norm_num) (by norm_num)
    (by norm_num) (fun s hs => geoMidnight_centuries (by rw [abs_of_nonneg hs.1]; exact hs.2)) hb (.inr hp) el hel
    (by linarith) (by linarith) (by linarith) (by norm_num) _ _ _ rfl rfl rfl
    (by linarith) j ma hma ma1 ma2
  exact ⟨el, ma, q, s', F, hel, h2, h1, by linarith⟩

end Openspace
