import Verif.Props.FiniteSteps

/-!
# C176: propagation to earlier epochs, and there and back again
-/

namespace Openspace

open Real Filter Topology

namespace Finite

/-- what is known of a two-body motion and the tube around it from `a` to `b` seconds after an epoch -/
structure Around (t0 : Epoch) (k : ℝ → State) (γ' γ'' : ℝ → EuclideanSpace ℝ (Fin 3)) (a b lo hi m : ℝ) : Prop where
  hlo : 5000 ≤ lo
  hhi : hi ≤ 300000
  hi0 : 0 ≤ hi
  vel : ∀ s, HasDerivAt (fun s => (k s).position.toE) ((k s).velocity.toE) s
  acc : ∀ s, HasDerivAt (fun s => (k s).velocity.toE)
    (-(Earth.MU / ‖(k s).position.toE‖ ^ 3) • (k s).position.toE) s
  jerk : ∀ s, HasDerivAt (fun s => -(Earth.MU / ‖(k s).position.toE‖ ^ 3) • (k s).position.toE) (γ' s) s
  snap : ∀ s, HasDerivAt γ' (γ'' s) s
  size : ∀ s, ‖-(Earth.MU / ‖(k s).position.toE‖ ^ 3) • (k s).position.toE‖ ≤ Earth.MU / lo ^ 2
  bound : ∀ s, ‖γ'' s‖ ≤ 52 * Earth.MU ^ 2 / lo ^ 5
  above : ∀ s, lo ≤ (k s).position.magnitude
  tube : ∀ s ∈ Set.Icc a b, ∀ r : Vec3, ‖r.toE - (k s).position.toE‖ ≤ m → lo ≤ r.magnitude ∧
      r.magnitude ≤ hi ∧ ∀ z, PositionConvert.gcrfToItrf r (t0.plusDays (s / 86400)) ≠ .ok ⟨0, 0, z⟩

/-- a propagator that goes back along the motion and is `c - t` seconds after the epoch, with errors of `t` seconds -/
structure Backward (t0 : Epoch) (k : ℝ → State) (δ w h c t : ℝ) (q : RK4) : Prop where
  off : q.m_dot = 0
  srp : q.state.srp_scalar = 0
  size : q.step_size = -h
  epoch : q.state.epoch = t0.plusDays ((c - t) / 86400)
  pos : ‖q.state.position.toE - (k (c - t)).position.toE‖ ≤ StepError.P δ w t
  vel : ‖q.state.velocity.toE - (k (c - t)).velocity.toE‖ ≤ StepError.Q δ w t

theorem oneBack {t0 : Epoch} {k : ℝ → State} {γ' γ'' : ℝ → EuclideanSpace ℝ (Fin 3)} {a b c T lo hi m δ w ε h t : ℝ}
    (H : Around t0 k γ' γ'' a b lo hi m) (hca : a ≤ c - T) (hcb : c - t ≤ b) (hw : w = √(2 * Earth.MU / lo ^ 3)) (hε : ε = Spec.perturbation lo hi)
    (hδ : δ = (1 + (w * h) ^ 2 / 6) * ε + 18 * Earth.MU ^ 2 / lo ^ 5 * h ^ 2) (hh : 0 ≤ h) (ht : 0 ≤ t) (htT : t + h ≤ T)
    (hm : StepError.P δ w T + Earth.MU / lo ^ 2 * h ^ 2 ≤ m) {q : RK4} (hq : Backward t0 k δ w h c t q) :
    ∃ q', RK4.step q = (.ok (), q') ∧ Backward t0 k δ w h c (t + h) q' := by
  have hM : 0 < Earth.MU := by norm_num [Earth.MU]
  have hlo0 : 0 < lo := by linarith [H.hlo]
  have hw0 : 0 < w := by rw [hw]; positivity
  have hw2 : w ^ 2 = 2 * Earth.MU / lo ^ 3 := by rw [hw]; exact Real.sq_sqrt (by positivity)
  have hε0 : 0 ≤ ε := by
    have h2 : 0 < 356000 - hi := by linarith [H.hhi]
    have h3 : 0 < Moon.MU := by norm_num [Moon.MU]
    have h4 := H.hi0
    rw [hε, Spec.perturbation]
    positivity
  obtain ⟨A, hA⟩ : ∃ A, A = Earth.MU / lo ^ 2 := ⟨_, rfl⟩
  obtain ⟨M, hMd⟩ : ∃ M, M = 52 * Earth.MU ^ 2 / lo ^ 5 := ⟨_, rfl⟩
  have hA0 : 0 ≤ A := by rw [hA]; positivity
  have hM0 : 0 ≤ M := by rw [hMd]; positivity
  have hδ' : δ = (1 + (w * h) ^ 2 / 6) * ε + (w ^ 2 * A + M) / 3 * h ^ 2 := by
    rw [hδ, hw2, hA, hMd]; field_simp; ring
  have hδ0 : 0 ≤ δ := by rw [hδ']; positivity
  obtain ⟨e, he⟩ : ∃ e, e = StepError.P δ w t := ⟨_, rfl⟩
  obtain ⟨u, hu⟩ : ∃ u, u = StepError.Q δ w t := ⟨_, rfl⟩
  have hu0 : 0 ≤ u := (norm_nonneg _).trans (hu ▸ hq.vel)
  have he0 : 0 ≤ e := (norm_nonneg _).trans (he ▸ hq.pos)
  obtain ⟨ad1, ad2, ad3⟩ := StepError.advance hw0 hh ht hε0 hA0 hM0 hδ' he hu rfl rfl rfl rfl
  have hPT := (StepError.mono hw0 hδ0 (by linarith : 0 ≤ t + h) htT).1
  rw [← hA] at hm
  have reach : e + h * u + A / 2 * h ^ 2 + (A + ε) / 2 * h ^ 2 ≤ m := by linarith
  have hhu : 0 ≤ h * u := mul_nonneg hh hu0
  have hAh : 0 ≤ A * h ^ 2 := by positivity
  have hεh : 0 ≤ ε * h ^ 2 := by positivity
  -- the motion from here on
  obtain ⟨R, hR⟩ : ∃ R : ℝ → EuclideanSpace ℝ (Fin 3), R = fun s => (k (c - (t + s))).position.toE := ⟨_, rfl⟩
  obtain ⟨V, hV⟩ : ∃ V : ℝ → EuclideanSpace ℝ (Fin 3), V = fun s => -(k (c - (t + s))).velocity.toE := ⟨_, rfl⟩
  obtain ⟨γ, hγ⟩ : ∃ γ : ℝ → EuclideanSpace ℝ (Fin 3), γ = fun s =>
    -(Earth.MU / ‖(k (c - (t + s))).position.toE‖ ^ 3) • (k (c - (t + s))).position.toE := ⟨_, rfl⟩
  have rev : ∀ (g : ℝ → EuclideanSpace ℝ (Fin 3)) (g' : EuclideanSpace ℝ (Fin 3)) (s : ℝ), HasDerivAt g g' (c - (t + s)) →
      HasDerivAt (fun s => g (c - (t + s))) (-g') s := fun g g' s hg => by
    have h1 : HasDerivAt (fun s : ℝ => c - (t + s)) (-1) s := ((hasDerivAt_id s).const_add t).const_sub c
    have := hg.scomp s h1
    rw [neg_one_smul] at this
    exact this
  have dR : ∀ s ∈ Set.Icc 0 h, HasDerivAt R (V s) s := fun s _ => by
    rw [hR, hV]; exact rev _ _ s (H.vel (c - (t + s)))
  have dV : ∀ s ∈ Set.Icc 0 h, HasDerivAt V (γ s) s := fun s _ => by
    rw [hγ, hV]
    have := (rev _ _ s (H.acc (c - (t + s)))).neg
    rwa [neg_neg] at this
  have dγ : ∀ s ∈ Set.Icc 0 h, HasDerivAt γ ((fun s => -γ' (c - (t + s))) s) s := fun s _ => by
    rw [hγ]; exact rev _ _ s (H.jerk (c - (t + s)))
  have dγ' : ∀ s ∈ Set.Icc 0 h, HasDerivAt (fun s => -γ' (c - (t + s))) ((fun s => γ'' (c - (t + s))) s) s := fun s _ => by
    have := (rev _ _ s (H.snap (c - (t + s)))).neg
    rwa [neg_neg] at this
  have bA : ∀ s ∈ Set.Icc 0 h, ‖γ s‖ ≤ A := fun s _ => by rw [hγ, hA]; exact H.size (c - (t + s))
  have bM : ∀ s ∈ Set.Icc 0 h, ‖(fun s => γ'' (c - (t + s))) s‖ ≤ M := fun s _ => by rw [hMd]; exact H.bound (c - (t + s))
  have start : ‖q.state.position.toE - R 0‖ ≤ e := by rw [hR, he]; simpa using hq.pos
  have start' : ‖-q.state.velocity.toE - V 0‖ ≤ u := by
    rw [hV, hu, neg_sub_neg, norm_sub_rev]; simpa using hq.vel
  have eval : ∀ (s : GCRF) (x : ℝ), s.thrust = ⟨0, 0, 0⟩ → s.srp_scalar = 0 → x ∈ Set.Icc 0 h →
      s.epoch = t0.plusDays ((c - (t + x)) / 86400) → ‖s.position.toE - R x‖ ≤ m →
      ∃ a, s.derivative = .ok (s.velocity, a) ∧ ‖a.toE‖ ≤ A + ε ∧ ‖a.toE - γ x‖ ≤ w ^ 2 * ‖s.position.toE - R x‖ + ε := by
    intro s x h1 h2 hx h3 h4
    rw [hR] at h4
    obtain ⟨g1, g2, g3⟩ := H.tube (c - (t + x)) ⟨by linarith [hx.2], by linarith [hx.1]⟩ s.position h4
    rw [← h3] at g3
    obtain ⟨a, a1, a2, a3⟩ := near s h1 h2 H.hlo H.hhi hw hε g1 g2 g3 (H.above (c - (t + x)))
    refine ⟨a, a1, by rw [hA]; exact a2, ?_⟩
    rw [hγ, hR]; exact a3
  have hsec : SECONDS_IN_DAY = 86400 := by norm_num [SECONDS_IN_DAY]
  have mid : q.state.epoch.plusDays (q.step_size / 2 / SECONDS_IN_DAY) = t0.plusDays ((c - (t + h / 2)) / 86400) := by
    rw [hq.epoch, hq.size, hsec, plusDays_plusDays]; congr 1; ring
  have fin : (q.state.epoch.plusDays (q.step_size / 2 / SECONDS_IN_DAY)).plusDays (q.step_size / 2 / SECONDS_IN_DAY) =
      t0.plusDays ((c - (t + h)) / 86400) := by
    rw [mid, hq.size, hsec, plusDays_plusDays]; congr 1; ring
  obtain ⟨r, hr⟩ : ∃ r, r = q.state.position := ⟨_, rfl⟩
  obtain ⟨v, hv⟩ : ∃ v, v = q.state.velocity := ⟨_, rfl⟩
  rw [← hr] at start
  rw [← hv] at start'
  have toE2 : ∀ (a b : Vec3) (x : ℝ), (a.plus (b.scaled (-x))).toE = a.toE + x • -b.toE := fun a b x => by
    rw [toE_plus, toE_scaled]; module
  have toE3 : ∀ (a b d : Vec3) (x y : ℝ), (a.plus ((b.plus (d.scaled (-y))).scaled (-x))).toE =
      a.toE + x • (-b.toE + y • d.toE) := fun a b d x y => by
    simp only [toE_plus, toE_scaled]; module
  have half : q.step_size / 2 = -(h / 2) := by rw [hq.size]; ring
  -- the four stages
  obtain ⟨a1, d1, n1, b1⟩ := eval (q.thrusted ⟨0, 0, 0⟩) 0 rfl hq.srp ⟨le_rfl, hh⟩
    (by show q.state.epoch = _; rw [hq.epoch, add_zero]) (by
      show ‖q.state.position.toE - R 0‖ ≤ m
      rw [← hr]; refine start.trans ?_; linarith)
  have p2 := (StepError.places (a1 := a1.toE) (a2 := a1.toE) (B := A + ε) hh dR dV bA start start').1
  have p3 := (StepError.places (a1 := a1.toE) (a2 := a1.toE) (B := A + ε) hh dR dV bA start start').2.1 n1
  obtain ⟨a2, d2, n2, b2⟩ := eval { GCRF.new (t0.plusDays ((c - (t + h / 2)) / 86400)) (r.plus (v.scaled (-(h / 2))))
    (v.plus (a1.scaled (-(h / 2)))) with thrust := ⟨0, 0, 0⟩ } (h / 2) rfl rfl ⟨by linarith, by linarith⟩ rfl (by
      show ‖(r.plus (v.scaled (-(h / 2)))).toE - R (h / 2)‖ ≤ m
      rw [toE2]; refine p2.trans ?_; linarith)
  obtain ⟨a3, d3, -, b3⟩ := eval { GCRF.new (t0.plusDays ((c - (t + h / 2)) / 86400))
    (r.plus ((v.plus (a1.scaled (-(h / 2)))).scaled (-(h / 2))))
    (v.plus (a2.scaled (-(h / 2)))) with thrust := ⟨0, 0, 0⟩ } (h / 2) rfl rfl ⟨by linarith, by linarith⟩ rfl (by
      show ‖(r.plus ((v.plus (a1.scaled (-(h / 2)))).scaled (-(h / 2)))).toE - R (h / 2)‖ ≤ m
      rw [toE3]; refine p3.trans ?_; linarith)
  have p4 := (StepError.places (a1 := a1.toE) (a2 := a2.toE) (B := A + ε) hh dR dV bA start start').2.2 n2
  obtain ⟨a4, d4, -, b4⟩ := eval { GCRF.new (t0.plusDays ((c - (t + h)) / 86400))
    (r.plus ((v.plus (a2.scaled (-(h / 2)))).scaled (-h)))
    (v.plus (a3.scaled (-h))) with thrust := ⟨0, 0, 0⟩ } h rfl rfl ⟨hh, le_rfl⟩ rfl (by
      show ‖(r.plus ((v.plus (a2.scaled (-(h / 2)))).scaled (-h))).toE - R h‖ ≤ m
      rw [toE3]; exact p4.trans reach)
  have c1 : ‖a1.toE - γ 0‖ ≤ w ^ 2 * e + ε := by
    refine b1.trans (add_le_add (mul_le_mul_of_nonneg_left ?_ (by positivity)) le_rfl)
    show ‖q.state.position.toE - R 0‖ ≤ e
    rw [← hr]; exact start
  have c2 : ‖a2.toE - γ (h / 2)‖ ≤ w ^ 2 * (e + h / 2 * u + A / 8 * h ^ 2) + ε := by
    refine b2.trans (add_le_add (mul_le_mul_of_nonneg_left ?_ (by positivity)) le_rfl)
    show ‖(r.plus (v.scaled (-(h / 2)))).toE - R (h / 2)‖ ≤ _
    rw [toE2]; exact p2
  have c3 : ‖a3.toE - γ (h / 2)‖ ≤ w ^ 2 * (e + h / 2 * u + A / 8 * h ^ 2 + (A + ε) / 4 * h ^ 2) + ε := by
    refine b3.trans (add_le_add (mul_le_mul_of_nonneg_left ?_ (by positivity)) le_rfl)
    show ‖(r.plus ((v.plus (a1.scaled (-(h / 2)))).scaled (-(h / 2)))).toE - R (h / 2)‖ ≤ _
    rw [toE3]; exact p3
  have c4 : ‖a4.toE - γ h‖ ≤ w ^ 2 * (e + h * u + A / 2 * h ^ 2 + (A + ε) / 2 * h ^ 2) + ε := by
    refine b4.trans (add_le_add (mul_le_mul_of_nonneg_left ?_ (by positivity)) le_rfl)
    show ‖(r.plus ((v.plus (a2.scaled (-(h / 2)))).scaled (-h))).toE - R h‖ ≤ _
    rw [toE3]; exact p4
  obtain ⟨s1, s2⟩ := StepError.step hh dR dV dγ dγ' bM start start' c1 c2 c3 c4
  have thr := fun x => C43_off q x hq.off
  have ok : RK4.step q = (.ok (), q.stepped (v, a1) (v.plus (a1.scaled (-(h / 2))), a2) (v.plus (a2.scaled (-(h / 2))), a3)
      (v.plus (a3.scaled (-h)), a4)) := by
    rw [RK4.step_ok_iff]
    refine ⟨_, _, _, _, _, thr 0, by rw [hv]; exact d1, ?_, ?_, ?_, rfl⟩
    · rw [mid, half, RK4.stage, thr, ok_bind, ← hr, ← hv]; exact d2
    · rw [mid, half, RK4.stage, thr, ok_bind, ← hr, ← hv]; exact d3
    · rw [fin, hq.size, RK4.stage, thr, ok_bind, ← hr, ← hv]; exact d4
  refine ⟨_, ok, ?_⟩
  obtain ⟨f1, f2, -, -, -, -, -, f8, -⟩ := RK4.step_frame ok
  refine ⟨by rw [f2]; exact hq.off, f8, by rw [f1]; exact hq.size, fin, ?_, ?_⟩
  · refine le_trans (le_of_eq ?_) (s2.trans ad2)
    rw [hR]
    congr 2
    show (q.state.position.plus _).toE = _
    rw [← hr, hq.size]
    simp only [toE_plus, toE_scaled]
    module
  · refine le_trans (le_of_eq ?_) (s1.trans ad1)
    rw [hV, norm_sub_rev]
    congr 1
    show (k (c - (t + h))).velocity.toE - (q.state.velocity.plus _).toE = _
    rw [← hv, hq.size]
    simp only [toE_plus, toE_scaled]
    module

theorem manyBack {t0 : Epoch} {k : ℝ → State} {γ' γ'' : ℝ → EuclideanSpace ℝ (Fin 3)} {a b c T lo hi m δ w ε h : ℝ}
    (H : Around t0 k γ' γ'' a b lo hi m) (hca : a ≤ c - T) (hw : w = √(2 * Earth.MU / lo ^ 3))
    (hε : ε = Spec.perturbation lo hi)
    (hδ : δ = (1 + (w * h) ^ 2 / 6) * ε + 18 * Earth.MU ^ 2 / lo ^ 5 * h ^ 2) (hh : 0 ≤ h)
    (hm : StepError.P δ w T + Earth.MU / lo ^ 2 * h ^ 2 ≤ m) (n : ℕ) {t : ℝ} (hcb : c - t ≤ b) (ht : 0 ≤ t)
    (htT : t + n * h ≤ T) {q : RK4} (hq : Backward t0 k δ w h c t q) :
    ∃ q', PyM.repeatN n RK4.step q = (.ok (), q') ∧ Backward t0 k δ w h c (t + n * h) q' := by
  induction n generalizing t q with
  | zero => exact ⟨q, rfl, by simpa using hq⟩
  | succ n ih =>
    push_cast at htT
    have hn : 0 ≤ n * h := by positivity
    obtain ⟨q1, h1, hq1⟩ := oneBack H hca hcb hw hε hδ hh ht (by linarith) hm hq
    obtain ⟨q2, h2, hq2⟩ := ih (t := t + h) (by linarith) (by linarith) (by linarith) hq1
    refine ⟨q2, ?_, by push_cast; rw [show t + ((n : ℝ) + 1) * h = t + h + n * h by ring]; exact hq2⟩
    rw [RK4.repeatN_ok_iff] at h2 ⊢
    exact .succ h1 h2

/-- the two-body motion through the start of the propagation, with the tube around its orbit -/
theorem setupAround (p : RK4) (a b lo hi m : ℝ) (ha0 : a ≤ 0) (hb0 : 0 ≤ b) (hlo : 5000 ≤ lo) (hhi : hi ≤ 300000)
    (hepoch : ∀ s ∈ Set.Icc a b, |(p.state.epoch.plusDays (s / 86400)).julianCenturies| ≤ 5)
    (hb : p.state.velocity.magnitude ^ 2 / 2 < Earth.MU / p.state.position.magnitude)
    (hp : (p.state.position.cross p.state.velocity).x ≠ 0 ∨ (p.state.position.cross p.state.velocity).y ≠ 0)
    (el : ClassicalElements) (hel : ClassicalElements.fromIjk p.state.toState = .ok el)
    (hper : lo + m ≤ el.semimajor_axis * (1 - el.eccentricity))
    (hapo : el.semimajor_axis * (1 + el.eccentricity) + m ≤ hi)
    (hinc : 9 * m ≤ (8 * |cos el.inclination| - 1) * lo) (hm0 : 0 < m) :
    ∃ (k : ℝ → State) (γ' γ'' : ℝ → EuclideanSpace ℝ (Fin 3)), k 0 = p.state.toState ∧
      Spec.TwoBody Earth.MU Set.univ (fun t => (k t).position.toE) (fun t => (k t).velocity.toE) ∧
      Around p.state.epoch k γ' γ'' a b lo hi m := by
  obtain ⟨k, γ', γ'', hk0, hkm, tb⟩ := setup p 0 lo hi m hlo hhi (fun s hs => hepoch s ⟨by linarith [hs.1], by linarith [hs.2]⟩)
    hb hp el hel hper hapo hinc hm0
  refine ⟨k, γ', γ'', hk0, hkm, ⟨tb.hlo, tb.hhi, tb.hi0, tb.vel, tb.acc, tb.jerk, tb.snap, tb.size, tb.bound, tb.above,
    fun s hs r hr => ?_⟩⟩
  obtain ⟨ha, he, he', E, _, _, h, _⟩ := motion_of_elements Set.ordConnected_univ hkm (t := s) trivial
    (t0 := 0) trivial (by rw [hk0]; exact hp) (by rw [hk0]; exact hb) (by rw [hk0]; exact hel)
  rw [← toE_minus, Vec3.norm_toE, h] at hr
  exact Existence.tube ha he he' hlo hm0 hper hapo hinc hr (hepoch s hs)

theorem Around.toTube {t0 : Epoch} {k : ℝ → State} {γ' γ'' : ℝ → EuclideanSpace ℝ (Fin 3)} {b lo hi m : ℝ}
    (H : Around t0 k γ' γ'' 0 b lo hi m) : Tube t0 k γ' γ'' b lo hi m :=
  ⟨H.hlo, H.hhi, H.hi0, H.vel, H.acc, H.jerk, H.snap, H.size, H.bound, H.above, H.tube⟩

/-- `N` steps of at most `H` seconds back -/
theorem runBack (p : RK4) (hsrp : p.state.srp_scalar = 0)
    (hoff : p.m_dot = 0) (T lo hi m H : ℝ) (hT : 0 ≤ T) (hlo : 5000 ≤ lo)
    (hhi : hi ≤ 300000) (hepoch : ∀ s ∈ Set.Icc (-T) 0, |(p.state.epoch.plusDays (s / 86400)).julianCenturies| ≤ 5)
    (hb : p.state.velocity.magnitude ^ 2 / 2 < Earth.MU / p.state.position.magnitude)
    (hp : (p.state.position.cross p.state.velocity).x ≠ 0 ∨ (p.state.position.cross p.state.velocity).y ≠ 0)
    (el : ClassicalElements) (hel : ClassicalElements.fromIjk p.state.toState = .ok el)
    (hper : lo + m ≤ el.semimajor_axis * (1 - el.eccentricity))
    (hapo : el.semimajor_axis * (1 + el.eccentricity) + m ≤ hi)
    (hinc : 9 * m ≤ (8 * |cos el.inclination| - 1) * lo) (hm0 : 0 < m)
    (w ε δ : ℝ) (hw : w = √(2 * Earth.MU / lo ^ 3)) (hε : ε = Spec.perturbation lo hi)
    (hδ : δ = (1 + (w * H) ^ 2 / 6) * ε + 18 * Earth.MU ^ 2 / lo ^ 5 * H ^ 2)
    (hm : δ / w ^ 2 * (exp (w * T) - 1 - w * T) + Earth.MU / lo ^ 2 * H ^ 2 ≤ m) (N : ℕ) (hN : 0 < N) (hH : T / N ≤ H)
    (j : ℤ) (ma : ℝ)
    (hma : ma = el.mean_anomaly - √(Earth.MU / el.semimajor_axis ^ 3) * T + 2 * π * j)
    (ma1 : -(2 * π) ≤ ma) (ma2 : ma ≤ 2 * π) :
    ∃ q, PyM.repeatN N RK4.step { p with step_size := -(T / N) } = (.ok (), q) ∧
      q.state.epoch = p.state.epoch.plusDays (-T / 86400) ∧
      ∃ s' F, (∀ fuel, F ≤ fuel → ({el with mean_anomaly := ma} : ClassicalElements).toIjk fuel = .ok s') ∧
        (s'.position.minus q.state.position).magnitude ≤ δ / w ^ 2 * (exp (w * T) - 1 - w * T) +
          el.semimajor_axis * (5e-25 / (1 - el.eccentricity)) ∧
        (s'.velocity.minus q.state.velocity).magnitude ≤ δ / w * (exp (w * T) - 1) +
          √(Earth.MU / el.semimajor_axis) * (5e-25 / (1 - el.eccentricity) ^ 3) := by
  have hM : 0 < Earth.MU := by norm_num [Earth.MU]
  have hlo0 : 0 < lo := by linarith
  have hw0 : 0 < w := by rw [hw]; positivity
  obtain ⟨k, γ', γ'', hk0, hkm, tb⟩ := setupAround p (-T) 0 lo hi m (by linarith) le_rfl hlo hhi hepoch hb hp el hel hper hapo
    hinc hm0
  have hε0 : 0 ≤ ε := by
    have h2 : 0 < 356000 - hi := by linarith
    have h3 : 0 < Moon.MU := by norm_num [Moon.MU]
    have h4 := tb.hi0
    rw [hε, Spec.perturbation]
    positivity
  have hN0 : (0 : ℝ) < N := by exact_mod_cast hN
  obtain ⟨h, hh⟩ : ∃ h, h = T / N := ⟨_, rfl⟩
  rw [← hh] at hH
  have h0 : 0 ≤ h := by rw [hh]; positivity
  obtain ⟨δh, hδh⟩ : ∃ δh, δh = (1 + (w * h) ^ 2 / 6) * ε + 18 * Earth.MU ^ 2 / lo ^ 5 * h ^ 2 := ⟨_, rfl⟩
  have hle : δh ≤ δ := by rw [hδh, hδ]; gcongr
  obtain ⟨l1, l2⟩ := larger hw0 hT hle
  have hmh : StepError.P δh w T + Earth.MU / lo ^ 2 * h ^ 2 ≤ m := by
    have : Earth.MU / lo ^ 2 * h ^ 2 ≤ Earth.MU / lo ^ 2 * H ^ 2 := by gcongr
    have e : StepError.P δ w T = δ / w ^ 2 * (exp (w * T) - 1 - w * T) := rfl
    linarith
  have hNh : N * h = T := by rw [hh]; field_simp
  obtain ⟨q, hq, hal⟩ := manyBack (c := 0) tb (by linarith) hw hε hδh h0 hmh N (t := 0) (by linarith) le_rfl
    (by rw [zero_add, hNh])
    (q := { p with step_size := -h }) ⟨hoff, hsrp, rfl, by rw [sub_zero]; exact (plusDays_zero _).symm, by
      rw [sub_zero, hk0]; simp [StepError.P], by rw [sub_zero, hk0]; simp [StepError.Q]⟩
  rw [zero_add, hNh] at hal
  refine ⟨q, by rw [← hh]; exact hq, by rw [hal.epoch, zero_sub], ?_⟩
  obtain ⟨el0, e0, hpred⟩ := C125_prediction k Set.univ Set.ordConnected_univ hkm 0 trivial (by rw [hk0]; exact hb)
    (by rw [hk0]; exact hp)
  rw [hk0] at e0
  cases hel.symm.trans e0
  obtain ⟨s', F, hF, d1, d2⟩ := hpred (-T) trivial j ma (by rw [sub_zero, hma]; ring) ma1 ma2
  have c1 := hal.pos.trans l1
  have c2 := hal.vel.trans l2
  rw [zero_sub] at c1 c2
  rw [← toE_minus, Vec3.norm_toE, StepError.P] at c1
  rw [← toE_minus, Vec3.norm_toE, StepError.Q] at c2
  refine ⟨s', F, hF, ?_, ?_⟩
  · have t := Vec3.magnitude_plus_le (s'.position.minus (k (-T)).position) ((k (-T)).position.minus q.state.position)
    rw [show (s'.position.minus (k (-T)).position).plus ((k (-T)).position.minus q.state.position) =
      s'.position.minus q.state.position by
      ext <;> simp [Vec3.plus, Vec3.minus], Perturbed.minus_swap (k (-T)).position] at t
    linarith
  · have t := Vec3.magnitude_plus_le (s'.velocity.minus (k (-T)).velocity) ((k (-T)).velocity.minus q.state.velocity)
    rw [show (s'.velocity.minus (k (-T)).velocity).plus ((k (-T)).velocity.minus q.state.velocity) =
      s'.velocity.minus q.state.velocity by
      ext <;> simp [Vec3.plus, Vec3.minus], Perturbed.minus_swap (k (-T)).velocity] at t
    linarith

end Finite

/-- **C176**: `N ≥ 1` steps of `-h` seconds, `h = T/N`, under the conditions of C174: they all return, and end within the
bounds of C174 of what `to_ijk` returns for the mean anomaly taken back by `T` seconds. -/
theorem C176_steps (p : RK4) (hsrp : p.state.srp_scalar = 0)
    (hoff : p.m_dot = 0) (T lo hi m : ℝ) (hT : 0 ≤ T) (hlo : 5000 ≤ lo)
    (hhi : hi ≤ 300000) (hepoch : ∀ s ∈ Set.Icc (-T) 0, |(p.state.epoch.plusDays (s / 86400)).julianCenturies| ≤ 5)
    (hb : p.state.velocity.magnitude ^ 2 / 2 < Earth.MU / p.state.position.magnitude)
    (hp : (p.state.position.cross p.state.velocity).x ≠ 0 ∨ (p.state.position.cross p.state.velocity).y ≠ 0)
    (el : ClassicalElements) (hel : ClassicalElements.fromIjk p.state.toState = .ok el)
    (hper : lo + m ≤ el.semimajor_axis * (1 - el.eccentricity))
    (hapo : el.semimajor_axis * (1 + el.eccentricity) + m ≤ hi)
    (hinc : 9 * m ≤ (8 * |cos el.inclination| - 1) * lo) (hm0 : 0 < m) (N : ℕ) (hN : 0 < N)
    (w ε h δ : ℝ) (hw : w = √(2 * Earth.MU / lo ^ 3)) (hε : ε = Spec.perturbation lo hi) (hh : h = T / N)
    (hδ : δ = (1 + (w * h) ^ 2 / 6) * ε + 18 * Earth.MU ^ 2 / lo ^ 5 * h ^ 2)
    (hm : δ / w ^ 2 * (exp (w * T) - 1 - w * T) + Earth.MU / lo ^ 2 * h ^ 2 ≤ m)
    (j : ℤ) (ma : ℝ)
    (hma : ma = el.mean_anomaly - √(Earth.MU / el.semimajor_axis ^ 3) * T + 2 * π * j)
    (ma1 : -(2 * π) ≤ ma) (ma2 : ma ≤ 2 * π) :
    ∃ q, PyM.repeatN N RK4.step { p with step_size := -h } = (.ok (), q) ∧
      q.state.epoch = p.state.epoch.plusDays (-T / 86400) ∧
      ∃ s' F, (∀ fuel, F ≤ fuel → ({el with mean_anomaly := ma} : ClassicalElements).toIjk fuel = .ok s') ∧
        (s'.position.minus q.state.position).magnitude ≤ δ / w ^ 2 * (exp (w * T) - 1 - w * T) +
          el.semimajor_axis * (5e-25 / (1 - el.eccentricity)) ∧
        (s'.velocity.minus q.state.velocity).magnitude ≤ δ / w * (exp (w * T) - 1) +
          √(Earth.MU / el.semimajor_axis) * (5e-25 / (1 - el.eccentricity) ^ 3) := by
  rw [hh]
  rw [hh] at hδ hm
  exact Finite.runBack p hsrp hoff T lo hi m (T / N) hT hlo hhi hepoch hb hp el hel hper hapo hinc hm0 w ε δ hw hε hδ hm N hN
    le_rfl j ma hma ma1 ma2

/-- **C176**: `step_to_epoch` to an epoch `T` seconds before that of the propagator, under the conditions of C174: it
returns at that epoch, with the bounds of C174 for `h = 300`, and the mean anomaly taken back by `T` seconds. -/
theorem C176_earlier (p : RK4) (hsrp : p.state.srp_scalar = 0) (hoff : p.m_dot = 0) (t : Epoch) (T lo hi m : ℝ)
    (hTt : T = (p.state.epoch.value - t.value) * 86400) (hT : 0 < T) (hlo : 5000 ≤ lo)
    (hhi : hi ≤ 300000) (hepoch : ∀ s ∈ Set.Icc (-T) 0, |(p.state.epoch.plusDays (s / 86400)).julianCenturies| ≤ 5)
    (hb : p.state.velocity.magnitude ^ 2 / 2 < Earth.MU / p.state.position.magnitude)
    (hp : (p.state.position.cross p.state.velocity).x ≠ 0 ∨ (p.state.position.cross p.state.velocity).y ≠ 0)
    (el : ClassicalElements) (hel : ClassicalElements.fromIjk p.state.toState = .ok el)
    (hper : lo + m ≤ el.semimajor_axis * (1 - el.eccentricity))
    (hapo : el.semimajor_axis * (1 + el.eccentricity) + m ≤ hi)
    (hinc : 9 * m ≤ (8 * |cos el.inclination| - 1) * lo) (hm0 : 0 < m)
    (w ε δ : ℝ) (hw : w = √(2 * Earth.MU / lo ^ 3)) (hε : ε = Spec.perturbation lo hi)
    (hδ : δ = (1 + (w * 300) ^ 2 / 6) * ε + 18 * Earth.MU ^ 2 / lo ^ 5 * 300 ^ 2)
    (hm : δ / w ^ 2 * (exp (w * T) - 1 - w * T) + Earth.MU / lo ^ 2 * 300 ^ 2 ≤ m)
    (j : ℤ) (ma : ℝ)
    (hma : ma = el.mean_anomaly - √(Earth.MU / el.semimajor_axis ^ 3) * T + 2 * π * j)
    (ma1 : -(2 * π) ≤ ma) (ma2 : ma ≤ 2 * π) :
    ∃ q, RK4.stepToEpoch t p = (.ok (), q) ∧ q.state.epoch = t ∧ q.step_size = p.step_size ∧
      ∃ s' F, (∀ fuel, F ≤ fuel → ({el with mean_anomaly := ma} : ClassicalElements).toIjk fuel = .ok s') ∧
        (s'.position.minus q.state.position).magnitude ≤ δ / w ^ 2 * (exp (w * T) - 1 - w * T) +
          el.semimajor_axis * (5e-25 / (1 - el.eccentricity)) ∧
        (s'.velocity.minus q.state.velocity).magnitude ≤ δ / w * (exp (w * T) - 1) +
          √(Earth.MU / el.semimajor_axis) * (5e-25 / (1 - el.eccentricity) ^ 3) := by
  have hsec : SECONDS_IN_DAY = 86400 := by norm_num [SECONDS_IN_DAY]
  have hTt' : (t.value - p.state.epoch.value) * 86400 = -T := by rw [hTt]; ring
  obtain ⟨N, hNd⟩ : ∃ N, N = ⌈|-T / 300|⌉₊ := ⟨_, rfl⟩
  have h1 : T / 300 ≤ N := by
    rw [hNd, neg_div, abs_neg]; exact (le_abs_self _).trans (Nat.le_ceil _)
  have hN0 : (0 : ℝ) < N := lt_of_lt_of_le (by positivity) h1
  have hN : 0 < N := by exact_mod_cast hN0
  obtain ⟨q, hq, he, hs⟩ := Finite.runBack p hsrp hoff T lo hi m 300 hT.le hlo hhi hepoch hb hp el hel hper hapo hinc hm0 w ε δ
    hw hε hδ hm N hN (by rw [div_le_iff₀ hN0]; linarith) j ma hma ma1 ma2
  refine ⟨{ q with step_size := p.step_size }, ?_, ?_, rfl, hs⟩
  · rw [RK4.stepToEpoch_ok_iff, hsec, hTt', ← hNd, if_pos hN, neg_div]
    exact ⟨q, RK4.repeatN_ok_iff.mp hq, rfl⟩
  · show q.state.epoch = t
    rw [he, hTt]
    ext
    simp only [Epoch.plusDays]
    ring

/-- **C176**: `step_to_epoch` to an epoch `T` seconds later and then back to where it started: both calls return, and the
propagator is back at its epoch within `δ/w² (e^(2wT) - 1 - 2wT)` in position and `δ/w (e^(2wT) - 1)` in velocity of where
it was. -/
theorem C176_return (p : RK4) (hsrp : p.state.srp_scalar = 0) (hoff : p.m_dot = 0) (t : Epoch) (T lo hi m : ℝ)
    (hTt : T = (t.value - p.state.epoch.value) * 86400) (hT : 0 < T) (hlo : 5000 ≤ lo)
    (hhi : hi ≤ 300000) (hepoch : ∀ s ∈ Set.Icc 0 T, |(p.state.epoch.plusDays (s / 86400)).julianCenturies| ≤ 5)
    (hb : p.state.velocity.magnitude ^ 2 / 2 < Earth.MU / p.state.position.magnitude)
    (hp : (p.state.position.cross p.state.velocity).x ≠ 0 ∨ (p.state.position.cross p.state.velocity).y ≠ 0)
    (el : ClassicalElements) (hel : ClassicalElements.fromIjk p.state.toState = .ok el)
    (hper : lo + m ≤ el.semimajor_axis * (1 - el.eccentricity))
    (hapo : el.semimajor_axis * (1 + el.eccentricity) + m ≤ hi)
    (hinc : 9 * m ≤ (8 * |cos el.inclination| - 1) * lo) (hm0 : 0 < m)
    (w ε δ : ℝ) (hw : w = √(2 * Earth.MU / lo ^ 3)) (hε : ε = Spec.perturbation lo hi)
    (hδ : δ = (1 + (w * 300) ^ 2 / 6) * ε + 18 * Earth.MU ^ 2 / lo ^ 5 * 300 ^ 2)
    (hm : δ / w ^ 2 * (exp (w * (2 * T)) - 1 - w * (2 * T)) + Earth.MU / lo ^ 2 * 300 ^ 2 ≤ m) :
    ∃ q q', RK4.stepToEpoch t p = (.ok (), q) ∧ q.state.epoch = t ∧
      RK4.stepToEpoch p.state.epoch q = (.ok (), q') ∧ q'.state.epoch = p.state.epoch ∧ q'.step_size = p.step_size ∧
      (q'.state.position.minus p.state.position).magnitude ≤ δ / w ^ 2 * (exp (w * (2 * T)) - 1 - w * (2 * T)) ∧
      (q'.state.velocity.minus p.state.velocity).magnitude ≤ δ / w * (exp (w * (2 * T)) - 1) := by
  have hM : 0 < Earth.MU := by norm_num [Earth.MU]
  have hlo0 : 0 < lo := by linarith
  have hw0 : 0 < w := by rw [hw]; positivity
  have hsec : SECONDS_IN_DAY = 86400 := by norm_num [SECONDS_IN_DAY]
  obtain ⟨k, γ', γ'', hk0, hkm, tb⟩ := Finite.setupAround p 0 T lo hi m le_rfl hT.le hlo hhi hepoch hb hp el hel hper hapo
    hinc hm0
  have hε0 : 0 ≤ ε := by
    have h2 : 0 < 356000 - hi := by linarith
    have h3 : 0 < Moon.MU := by norm_num [Moon.MU]
    have h4 := tb.hi0
    rw [hε, Spec.perturbation]
    positivity
  obtain ⟨N, hNd⟩ : ∃ N, N = ⌈|T / 300|⌉₊ := ⟨_, rfl⟩
  have h1 : T / 300 ≤ N := by rw [hNd]; exact (le_abs_self _).trans (Nat.le_ceil _)
  have hN0 : (0 : ℝ) < N := lt_of_lt_of_le (by positivity) h1
  have hN : 0 < N := by exact_mod_cast hN0
  obtain ⟨h, hh⟩ : ∃ h, h = T / N := ⟨_, rfl⟩
  have hH : h ≤ 300 := by rw [hh, div_le_iff₀ hN0]; linarith
  have h0 : 0 ≤ h := by rw [hh]; positivity
  have hNh : N * h = T := by rw [hh]; field_simp
  obtain ⟨δh, hδh⟩ : ∃ δh, δh = (1 + (w * h) ^ 2 / 6) * ε + 18 * Earth.MU ^ 2 / lo ^ 5 * h ^ 2 := ⟨_, rfl⟩
  have hle : δh ≤ δ := by rw [hδh, hδ]; gcongr
  obtain ⟨l1, l2⟩ := Finite.larger hw0 (by positivity : 0 ≤ 2 * T) hle
  have hδ0 : 0 ≤ δh := by rw [hδh]; positivity
  have hmh : StepError.P δh w (2 * T) + Earth.MU / lo ^ 2 * h ^ 2 ≤ m := by
    have : Earth.MU / lo ^ 2 * h ^ 2 ≤ Earth.MU / lo ^ 2 * 300 ^ 2 := by gcongr
    have e : StepError.P δ w (2 * T) = δ / w ^ 2 * (exp (w * (2 * T)) - 1 - w * (2 * T)) := rfl
    linarith
  have hmh' : StepError.P δh w T + Earth.MU / lo ^ 2 * h ^ 2 ≤ m := by
    have := (StepError.mono hw0 hδ0 hT.le (by linarith : T ≤ 2 * T)).1
    linarith
  -- there
  obtain ⟨q1, hq1, hal⟩ := Finite.many tb.toTube hw hε hδh h0 hmh' N (t := 0) le_rfl (by rw [zero_add, hNh])
    (q := { p with step_size := h }) ⟨hoff, hsrp, rfl, (plusDays_zero _).symm, by
      rw [hk0]; simp [StepError.P], by rw [hk0]; simp [StepError.Q]⟩
  rw [zero_add, hNh] at hal
  have go : RK4.stepToEpoch t p = (.ok (), { q1 with step_size := p.step_size }) := by
    rw [RK4.stepToEpoch_ok_iff, hsec, ← hTt, ← hNd, if_pos hN, ← hh]
    exact ⟨q1, RK4.repeatN_ok_iff.mp hq1, rfl⟩
  have arrive : q1.state.epoch = t := by
    rw [hal.epoch, hTt]
    ext
    simp only [Epoch.plusDays]
    ring
  -- and back
  obtain ⟨q2, hq2, hbk⟩ := Finite.manyBack (c := 2 * T) (T := 2 * T) tb (by linarith) hw hε hδh h0 hmh N (t := T) (by linarith)
    hT.le (by rw [hNh]; linarith) (q := { q1 with step_size := -h }) ⟨hal.off, hal.srp, rfl, by
      rw [show 2 * T - T = T by ring]; exact hal.epoch, by rw [show 2 * T - T = T by ring]; exact hal.pos, by
      rw [show 2 * T - T = T by ring]; exact hal.vel⟩
  rw [hNh, show T + T = 2 * T by ring] at hbk
  have hback : (p.state.epoch.value - t.value) * 86400 = -T := by rw [hTt]; ring
  have hNd' : N = ⌈|-T / 300|⌉₊ := by rw [neg_div, abs_neg]; exact hNd
  have key : ∀ Q : RK4, Q.state.epoch = t → PyM.repeatN N RK4.step { Q with step_size := -h } = (.ok (), q2) →
      RK4.stepToEpoch p.state.epoch Q = (.ok (), { q2 with step_size := Q.step_size }) := fun Q hQ hQ2 => by
    rw [RK4.stepToEpoch_ok_iff, hsec, hQ, hback, ← hNd', if_pos hN, neg_div, ← hh]
    exact ⟨q2, RK4.repeatN_ok_iff.mp hQ2, rfl⟩
  have ret := key { q1 with step_size := p.step_size } arrive hq2
  refine ⟨_, _, go, arrive, ret, ?_, rfl, ?_, ?_⟩
  · show q2.state.epoch = _
    rw [hbk.epoch, sub_self, plusDays_zero]
  · have := hbk.pos.trans l1
    rw [sub_self, hk0, ← toE_minus, Vec3.norm_toE, StepError.P] at this
    exact this
  · have := hbk.vel.trans l2
    rw [sub_self, hk0, ← toE_minus, Vec3.norm_toE, StepError.Q] at this
    exact this

/-! ## the inclined geosynchronous orbit -/

/-- an hour back, in steps of 300 seconds, within 34 kilometres of the elements -/
example : ∃ el ma q s' F, ClassicalElements.fromIjk geoTilted.state.toState = .ok el ∧
    (∀ fuel, F ≤ fuel → ({el with mean_anomaly := ma} : ClassicalElements).toIjk fuel = .ok s') ∧
    RK4.stepToEpoch (geoTilted.state.epoch.plusDays (-3600 / 86400)) geoTilted = (.ok (), q) ∧
    (s'.position.minus q.state.position).magnitude ≤ 34 := by
  obtain ⟨hb, hp⟩ := geoTilted_bound
  obtain ⟨el, hel, -, -, -, -, -, tol⟩ := geoTilted_advance
  obtain ⟨g1, g2, g3, g4⟩ := geoTilted_elements hel
  have gi := geoTilted_inclination hel
  have drift := geoTilted_finite (h := 300) rfl rfl (by norm_num) (by norm_num) rfl
  have hA : Earth.MU / 40000 ^ 2 * 300 ^ 2 ≤ 23 := by norm_num [Earth.MU]
  obtain ⟨x, hx⟩ : ∃ x, x = el.mean_anomaly - √(Earth.MU / el.semimajor_axis ^ 3) * 3600 := ⟨_, rfl⟩
  have hpi := Real.two_pi_pos
  have f1 := Int.floor_le (x / (2 * π))
  have f2 := Int.lt_floor_add_one (x / (2 * π))
  rw [le_div_iff₀ hpi] at f1
  rw [div_lt_iff₀ hpi] at f2
  obtain ⟨q, h1, -, -, s', F, h2, h3, -⟩ := C176_earlier geoTilted rfl rfl (geoTilted.state.epoch.plusDays (-3600 / 86400)) 3600
    40000 43000 60 (by simp only [Epoch.plusDays]; ring) (by norm_num) (by norm_num)
    (by norm_num) (fun s hs => geoMidnight_centuries (by rw [abs_of_nonpos hs.2]; linarith [hs.1])) hb (.inr hp) el hel
    (by linarith) (by linarith) (by linarith) (by norm_num) _ _ _ rfl rfl rfl
    (by linarith) (-⌊x / (2 * π)⌋) _ rfl (by rw [← hx]; push_cast; nlinarith) (by rw [← hx]; push_cast; nlinarith)
  exact ⟨el, _, q, s', F, hel, h2, h1, by linarith⟩

/-- 360 steps of minus ten seconds, within one kilometre -/
example : ∃ el ma q s' F, ClassicalElements.fromIjk geoTilted.state.toState = .ok el ∧
    (∀ fuel, F ≤ fuel → ({el with mean_anomaly := ma} : ClassicalElements).toIjk fuel = .ok s') ∧
    PyM.repeatN 360 RK4.step { geoTilted with step_size := -10 } = (.ok (), q) ∧
    (s'.position.minus q.state.position).magnitude ≤ 1 := by
  obtain ⟨hb, hp⟩ := geoTilted_bound
  obtain ⟨el, hel, -, -, -, -, -, tol⟩ := geoTilted_advance
  obtain ⟨g1, g2, g3, g4⟩ := geoTilted_elements hel
  have gi := geoTilted_inclination hel
  have drift := geoTilted_finite (h := 10) rfl rfl (by norm_num) (by norm_num) rfl
  have hA : Earth.MU / 40000 ^ 2 * 10 ^ 2 ≤ 0.025 := by norm_num [Earth.MU]
  obtain ⟨x, hx⟩ : ∃ x, x = el.mean_anomaly - √(Earth.MU / el.semimajor_axis ^ 3) * 3600 := ⟨_, rfl⟩
  have hpi := Real.two_pi_pos
  have f1 := Int.floor_le (x / (2 * π))
  have f2 := Int.lt_floor_add_one (x / (2 * π))
  rw [le_div_iff₀ hpi] at f1
  rw [div_lt_iff₀ hpi] at f2
  obtain ⟨q, h1, -, s', F, h2, h3, -⟩ := C176_steps geoTilted rfl rfl 3600 40000 43000 1 (by norm_num) (by norm_num)
    (by norm_num) (fun s hs => geoMidnight_centuries (by rw [abs_of_nonpos hs.2]; linarith [hs.1])) hb (.inr hp) el hel
    (by linarith) (by linarith) (by linarith) (by norm_num) 360 (by norm_num) _ _ 10 _ rfl rfl (by norm_num) rfl
    (by linarith) (-⌊x / (2 * π)⌋) _ rfl (by rw [← hx]; push_cast; nlinarith) (by rw [← hx]; push_cast; nlinarith)
  exact ⟨el, _, q, s', F, hel, h2, h1, by linarith⟩

/-- half an hour there and half an hour back, within 34 kilometres of the start -/
example : ∃ q q', RK4.stepToEpoch (geoTilted.state.epoch.plusDays (1800 / 86400)) geoTilted = (.ok (), q) ∧
    RK4.stepToEpoch geoTilted.state.epoch q = (.ok (), q') ∧ q'.state.epoch = geoTilted.state.epoch ∧
    (q'.state.position.minus geoTilted.state.position).magnitude ≤ 34 := by
  obtain ⟨hb, hp⟩ := geoTilted_bound
  obtain ⟨el, hel, -⟩ := geoTilted_advance
  obtain ⟨g1, g2, g3, g4⟩ := geoTilted_elements hel
  have gi := geoTilted_inclination hel
  have drift := geoTilted_finite (h := 300) rfl rfl (by norm_num) (by norm_num) rfl
  rw [show (3600 : ℝ) = 2 * 1800 by norm_num] at drift
  have hA : Earth.MU / 40000 ^ 2 * 300 ^ 2 ≤ 23 := by norm_num [Earth.MU]
  obtain ⟨q, q', h1, -, h2, h3, -, h4, -⟩ := C176_return geoTilted rfl rfl (geoTilted.state.epoch.plusDays (1800 / 86400)) 1800
    40000 43000 60 (by simp only [Epoch.plusDays]; ring) (by norm_num) (by norm_num)
    (by norm_num) (fun s hs => geoMidnight_centuries (by rw [abs_of_nonneg hs.1]; linarith [hs.2])) hb (.inr hp) el hel
    (by linarith) (by linarith) (by linarith) (by norm_num) _ _ _ rfl rfl rfl (by linarith)
  exact ⟨q, q', h1, h2, h3, by linarith⟩

end Openspace
