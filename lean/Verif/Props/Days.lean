import Verif.Lemmas.RKJump
import Verif.Lemmas.SmoothDay
import Verif.Props.Routes

/-!
# C168: propagation over any number of days converges to the motion

The hour angle of the library jumps a little at midnight UTC, because the rate at which it advances within a day is not
exactly the rate at which the days advance.  A motion is continuous there, but its acceleration is not.  Propagation
still converges to it: the error is of the fourth order, plus one step size for each midnight that is passed.
-/

namespace Openspace

open Real Filter Topology
open scoped ContDiff

/-- the number of the UTC day of an epoch, as the library counts it -/
noncomputable def Spec.utcDay (t : Epoch) : ℤ := ⌊t.value - 69.184 / 86400⌋

/-- how many midnights UTC are passed on the way from `t` through the epochs of a list -/
noncomputable def Spec.midnights : Epoch → List Epoch → ℤ
  | _, [] => 0
  | t, t' :: ts => |Spec.utcDay t' - Spec.utcDay t| + Spec.midnights t' ts

/-- `y` is, from `a` to `b` seconds after the epoch of the propagator, a continuous motion that passes through its
state at that epoch and whose rate of change, except at midnights UTC, is what `derivative()` returns -/
structure RK4.Flight (p : RK4) (y : ℝ → Spec.Phase) (a b : ℝ) : Prop where
  before : a < 0
  after : 0 < b
  start : y 0 = Spec.phase p.state.position p.state.velocity
  cont : ∀ s, a < s → s < b → ContinuousAt y s
  motion : ∀ s, a < s → s < b → (∀ k : ℤ, p.state.epoch.value + s / 86400 - 69.184 / 86400 ≠ k) →
    ∃ (r v T : Vec3) (d : Vec3 × Vec3), y s = Spec.phase r v ∧ p.thrustVector s = .ok T ∧
      ({ GCRF.new (p.state.epoch.plusDays (s / 86400)) r v with thrust := T } : GCRF).derivative = .ok d ∧
      HasDerivAt y (Spec.phase d.1 d.2) s

theorem RK4.Trajectory.flight {p : RK4} {y : ℝ → Spec.Phase} {a b : ℝ} (h : p.Trajectory y a b) : p.Flight y a b :=
  ⟨h.before, h.after, h.start, fun s h1 h2 => by
    obtain ⟨r, v, T, d, -, -, -, hd⟩ := h.motion s h1 h2
    exact hd.continuousAt, fun s h1 h2 _ => h.motion s h1 h2⟩

namespace Routes

/-- near a point of phase space and time, on one day, the force law is a smooth function and can be evaluated -/
theorem force_day (p : RK4) (f : ℝ → Spec.Phase → Spec.Phase) (hf : Represents p f) (hoff : p.m_dot = 0) (s : ℝ)
    (r v : Vec3) (N : ℤ) (hhi : r.magnitude ≤ 350000)
    (hax : ∀ z, PositionConvert.gcrfToItrf r (p.state.epoch.plusDays (s / 86400)) ≠ .ok ⟨0, 0, z⟩) :
    ∃ g : ℝ × Spec.Phase → Spec.Phase, ContDiffAt ℝ ∞ g (s, Spec.phase r v) ∧
      ∀ᶠ u in 𝓝 ((s, Spec.phase r v) : ℝ × Spec.Phase), Spec.utcDay (p.state.epoch.plusDays (u.1 / 86400)) = N →
        Good p (fun u => f u.1 u.2) u ∧ f u.1 u.2 = g u := by
  obtain ⟨w, hw⟩ : ∃ w : ℝ × Spec.Phase, w = (s, Spec.phase r v) := ⟨_, rfl⟩
  have ew : p.state.epoch.plusDays (w.1 / 86400) = p.state.epoch.plusDays (s / 86400) := by rw [hw]
  have er : ofFun w.2.1 = r := by rw [hw]; rfl
  obtain ⟨A, hA, eA⟩ := smooth_derivative_day (n := ∞) (w := w)
    (t := fun u : ℝ × Spec.Phase => p.state.epoch.plusDays (u.1 / 86400))
    (R := fun u => ofFun u.2.1) (V := fun u => ofFun u.2.2) (T := fun _ => ⟨0, 0, 0⟩)
    (by simp only [Epoch.plusDays]; fun_prop)
    (smooth_ofFun (contDiffAt_fst.comp w contDiffAt_snd)) (smooth_ofFun (contDiffAt_snd.comp w contDiffAt_snd))
    (Smooth.const _) N (by rw [er]; exact hhi) (by rw [er, ew]; exact hax)
  rw [← hw]
  refine ⟨fun u => Spec.phase (ofFun u.2.2) (A u), ?_, ?_⟩
  · simp only [Spec.phase, toFun_ofFun]
    exact (contDiffAt_snd.comp w contDiffAt_snd).prodMk hA.toFun
  · filter_upwards [eA] with u h1 hday
    have h2 := h1 hday
    have h3 := C43_off p u.1 hoff
    have h4 := hf u.1 _ _ _ _ h3 h2
    have h5 : f u.1 u.2 = Spec.phase (ofFun u.2.2) (A u) := by
      rw [← h4, Spec.phase, toFun_ofFun, toFun_ofFun]
    exact ⟨⟨_, (ofFun u.2.2, A u), h3, h5, h2⟩, h5⟩

/-- what is known of a step that may pass a midnight -/
def FollowsDays (t0 : Epoch) (y : ℝ → Spec.Phase) (K : Set ℝ) (C r : ℝ) : Prop :=
  ∀ s ∈ K, ∀ h, |h| < r → ∀ q, At t0 s q → q.step_size = h →
    ‖Spec.phase q.state.position q.state.velocity - y s‖ < r → ∃ q', RK4.step q = (.ok (), q') ∧
      At t0 (s + h) q' ∧ ‖Spec.phase q'.state.position q'.state.velocity - y (s + h)‖ ≤
        (1 + C * |h|) * ‖Spec.phase q.state.position q.state.velocity - y s‖ + C * |h| ^ 5 +
          C * |h| * (|Spec.utcDay (t0.plusDays ((s + h) / 86400)) - Spec.utcDay (t0.plusDays (s / 86400))| : ℤ)

/-- a whole number that changes by at most one nearby does so from below -/
theorem floor_near (x : ℝ) (hx : (⌊x⌋ : ℝ) = x) : ∀ᶠ z in 𝓝 x, (z < x → ⌊z⌋ = ⌊x⌋ - 1) ∧ (x ≤ z → ⌊z⌋ = ⌊x⌋) := by
  filter_upwards [Ioo_mem_nhds (by linarith : x - 1 < x) (by linarith : x < x + 1)] with z hz
  constructor
  · intro h
    rw [Int.floor_eq_iff]
    push_cast
    constructor <;> linarith [hz.1]
  · intro h
    rw [Int.floor_eq_iff]
    constructor <;> linarith [hz.2]

/-- one step from near the motion -/
theorem step_days (p : RK4) (hoff : p.m_dot = 0) (y : ℝ → Spec.Phase) (a b lo hi : ℝ) (hy : p.Flight y a b)
    (hlo : a < lo) (hhi : hi < b)
    (hr : ∀ s ∈ Set.Icc lo hi, ∀ r v, y s = Spec.phase r v → r.magnitude ≤ 350000 ∧
      ∀ z, PositionConvert.gcrfToItrf r (p.state.epoch.plusDays (s / 86400)) ≠ .ok ⟨0, 0, z⟩) :
    ∃ C r : ℝ, 0 ≤ C ∧ 0 < r ∧ FollowsDays p.state.epoch y (Set.Icc lo hi) C r := by
  obtain ⟨f, hf⟩ := exists_represents p
  have hin : ∀ s ∈ Set.Icc lo hi, a < s ∧ s < b := fun s hs => ⟨by linarith [hs.1], by linarith [hs.2]⟩
  obtain ⟨D, hD⟩ : ∃ D : ℝ → ℤ, D = fun s => Spec.utcDay (p.state.epoch.plusDays (s / 86400)) := ⟨_, rfl⟩
  have eD : ∀ s, D s = ⌊p.state.epoch.value + s / 86400 - 69.184 / 86400⌋ := fun s => by rw [hD]; rfl
  have hline : Continuous fun s : ℝ => p.state.epoch.value + s / 86400 - 69.184 / 86400 := by fun_prop
  have ode : ∀ s, a < s → s < b → (∀ k : ℤ, p.state.epoch.value + s / 86400 - 69.184 / 86400 ≠ k) →
      HasDerivAt y (f s (y s)) s := by
    intro s h1 h2 h3
    obtain ⟨r, v, T, d, b1, b2, b3, b4⟩ := hy.motion s h1 h2 h3
    have := hf s r v T d b2 b3
    rw [b1, this]; exact b4
  obtain ⟨C, r, hC, hr0, hu⟩ := RKOrder.uniform_days (isCompact_Icc (a := lo) (b := hi)) (f := fun u => f u.1 u.2) (y := y)
    (D := D) (P := Good p fun u => f u.1 u.2) (by
      intro s hs
      obtain ⟨r0, v0, hrv⟩ : ∃ r0 v0, y s = Spec.phase r0 v0 :=
        ⟨ofFun (y s).1, ofFun (y s).2, by simp only [Spec.phase, toFun_ofFun]⟩
      obtain ⟨k1, k2⟩ := hr s hs r0 v0 hrv
      have fd := fun N => force_day p f hf hoff s r0 v0 N k1 k2
      rw [← hrv] at fd
      have fst : ContinuousAt (fun u : ℝ × Spec.Phase => u.1) (s, y s) := continuousAt_fst
      by_cases hmid : (⌊p.state.epoch.value + s / 86400 - 69.184 / 86400⌋ : ℝ) =
          p.state.epoch.value + s / 86400 - 69.184 / 86400
      · right
        have hnear : ∀ᶠ x in 𝓝 s, (x < s → D x = D s - 1) ∧ (s ≤ x → D x = D s) := by
          filter_upwards [hline.continuousAt.eventually (floor_near _ hmid)] with x hx
          rw [eD, eD]
          exact ⟨fun h => hx.1 (by linarith), fun h => hx.2 (by linarith)⟩
        refine ⟨hnear, hy.cont s (hin s hs).1 (hin s hs).2, ?_, ?_⟩
        · rw [eventually_nhdsWithin_iff]
          have hw : ∀ᶠ x in 𝓝 s, |x - s| < 86400 := by
            filter_upwards [Metric.ball_mem_nhds s (by norm_num : (0 : ℝ) < 86400)] with x hx
            rw [Metric.mem_ball, Real.dist_eq] at hx; exact hx
          filter_upwards [Ioo_mem_nhds (hin s hs).1 (hin s hs).2, hw] with x h1 h2 h3
          refine ode x h1.1 h1.2 fun k hk => h3 ?_
          have h4 : ((k - ⌊p.state.epoch.value + s / 86400 - 69.184 / 86400⌋ : ℤ) : ℝ) = (x - s) / 86400 := by
            push_cast; rw [hmid, ← hk]; ring
          have h5 : |((k - ⌊p.state.epoch.value + s / 86400 - 69.184 / 86400⌋ : ℤ) : ℝ)| < 1 := by
            rw [h4, abs_div, abs_of_pos (by norm_num : (0 : ℝ) < 86400), div_lt_one (by norm_num)]; exact h2
          have h6 : k - ⌊p.state.epoch.value + s / 86400 - 69.184 / 86400⌋ = 0 := by
            rw [← Int.cast_abs, ← Int.cast_one, Int.cast_lt] at h5
            exact Int.abs_lt_one_iff.mp h5
          rw [h6, Int.cast_zero] at h4
          show x = s
          linarith
        · obtain ⟨gL, sL, eL⟩ := fd (D s - 1)
          obtain ⟨gR, sR, eR⟩ := fd (D s)
          refine ⟨gL, gR, sL, sR, ?_⟩
          filter_upwards [eL, eR, fst.eventually hnear] with u h1 h2 h3
          have e : Spec.utcDay (p.state.epoch.plusDays (u.1 / 86400)) = D u.1 := by rw [hD]
          rw [e] at h1 h2
          refine ⟨?_, fun h => (h1 (h3.1 h)).2, fun h => (h2 (h3.2 h)).2⟩
          rcases lt_or_ge u.1 s with h | h
          · exact (h1 (h3.1 h)).1
          · exact (h2 (h3.2 h)).1
      · left
        have hne : ∀ᶠ x in 𝓝 s, (∀ k : ℤ, p.state.epoch.value + x / 86400 - 69.184 / 86400 ≠ k) ∧ D x = D s := by
          have h1 : (⌊p.state.epoch.value + s / 86400 - 69.184 / 86400⌋ : ℝ) <
              p.state.epoch.value + s / 86400 - 69.184 / 86400 := lt_of_le_of_ne (Int.floor_le _) hmid
          filter_upwards [hline.continuousAt.eventually (lt_mem_nhds h1),
            hline.continuousAt.eventually (gt_mem_nhds (Int.lt_floor_add_one _))] with x h2 h3
          refine ⟨fun k hk => ?_, ?_⟩
          · rw [hk] at h2 h3
            rw [Int.cast_lt] at h2
            have h3' : k < ⌊p.state.epoch.value + s / 86400 - 69.184 / 86400⌋ + 1 := by exact_mod_cast h3
            omega
          · rw [eD, eD]; exact Int.floor_eq_iff.mpr ⟨h2.le, h3⟩
        obtain ⟨g, sg, eg⟩ := fd (D s)
        have heq : ∀ᶠ u in 𝓝 ((s, y s) : ℝ × Spec.Phase), Good p (fun u => f u.1 u.2) u ∧ f u.1 u.2 = g u := by
          filter_upwards [eg, fst.eventually hne] with u h1 h2
          refine h1 ?_
          rw [← h2.2, hD]
        refine ⟨sg.congr_of_eventuallyEq (heq.mono fun u h => h.2), ?_, heq.mono fun u h => h.1⟩
        filter_upwards [Ioo_mem_nhds (hin s hs).1 (hin s hs).2, hne] with x h1 h2
        exact ode x h1.1 h1.2 h2.1)
  refine ⟨C, r, hC, hr0, fun s hs h hh q hq hqh hqn => ?_⟩
  obtain ⟨st, herr⟩ := hu s hs h hh _ hqn
  have st' : RKOrder.Stages (Good q fun u => f (s + u.1) u.2) (fun u => f (s + u.1) u.2) 0 q.step_size
      (Spec.phase q.state.position q.state.velocity) := by
    rw [hqh]
    obtain ⟨a1, a2, a3, a4⟩ := st
    refine ⟨(good_shift hoff hq.off hq.epoch f _ _).mpr ?_, (good_shift hoff hq.off hq.epoch f _ _).mpr ?_,
      (good_shift hoff hq.off hq.epoch f _ _).mpr ?_, (good_shift hoff hq.off hq.epoch f _ _).mpr ?_⟩ <;>
      simp only [zero_add, add_zero] <;> assumption
  obtain ⟨q', hq'⟩ := step_of_stages q _ hq.srp hq.pert st'
  obtain ⟨a1, a2, -, -, -, a6, a7, a8, -, -⟩ := RK4.step_frame hq'
  have rk := (C42_classical q q' _ (represents_shift hoff hq.off hq.epoch hf) hq.srp hq.pert hq').1
  refine ⟨q', hq', ⟨?_, a2.trans hq.off, a8, a7⟩, ?_⟩
  · ext
    rw [a6, hq.epoch, hqh]
    simp only [Epoch.plusDays, SECONDS_IN_DAY]
    ring
  · rw [rk, hqh]
    simp only [Spec.rk4, zero_add, add_zero, hD] at herr ⊢
    rw [Int.cast_abs]
    exact herr

/-- the error after a hop, seen from the end of the route -/
theorem growth_days {C η e e' h l j M : ℝ} (hC : 0 ≤ C) (he : 0 ≤ e) (hη : |h| ≤ η) (hl : 0 ≤ l) (hj : 0 ≤ j)
    (hM : 0 ≤ M) (hs : e' ≤ (1 + C * |h|) * e + C * |h| ^ 5 + C * |h| * j) :
    (e' + C * l * η ^ 4 + C * η * M) * exp (C * l) ≤
      (e + C * (|h| + l) * η ^ 4 + C * η * (j + M)) * exp (C * (|h| + l)) := by
  have hη0 : 0 ≤ η := (abs_nonneg h).trans hη
  have h1 : 1 + C * |h| ≤ exp (C * |h|) := by linarith [Real.add_one_le_exp (C * |h|)]
  have h2 : 1 ≤ exp (C * |h|) := Real.one_le_exp (by positivity)
  have h4 : C * |h| ^ 5 ≤ C * |h| * η ^ 4 := by
    calc C * |h| ^ 5 = C * |h| * |h| ^ 4 := by ring
      _ ≤ _ := by gcongr
  have h3 : C * |h| * j ≤ C * η * j := by gcongr
  have h6 : e' + C * l * η ^ 4 + C * η * M ≤
      (e + C * (|h| + l) * η ^ 4 + C * η * (j + M)) * exp (C * |h|) := by
    calc e' + C * l * η ^ 4 + C * η * M ≤
          exp (C * |h|) * e + (C * (|h| + l) * η ^ 4 + C * η * (j + M)) * 1 := by
          have := mul_le_mul_of_nonneg_right h1 he
          linarith
      _ ≤ exp (C * |h|) * e + (C * (|h| + l) * η ^ 4 + C * η * (j + M)) * exp (C * |h|) := by gcongr
      _ = _ := by ring
  rw [mul_add C (|h|), Real.exp_add]
  calc _ ≤ (e + C * (|h| + l) * η ^ 4 + C * η * (j + M)) * exp (C * |h|) * exp (C * l) := by
        exact mul_le_mul_of_nonneg_right h6 (Real.exp_pos _).le
    _ = _ := by ring

theorem less_than_days {C η e l M r : ℝ} (hC : 0 ≤ C) (hη : 0 ≤ η) (he : 0 ≤ e) (hl : 0 ≤ l) (hM : 0 ≤ M)
    (h : (e + C * l * η ^ 4 + C * η * M) * exp (C * l) < r) : e < r := by
  refine lt_of_le_of_lt ?_ h
  have h4 : 0 ≤ C * l * η ^ 4 := by positivity
  have h5 : 0 ≤ C * η * M := by positivity
  have h1 : 1 ≤ exp (C * l) := Real.one_le_exp (by positivity)
  nlinarith

theorem midnights_nonneg (t : Epoch) (ts : List Epoch) : 0 ≤ Spec.midnights t ts := by
  induction ts generalizing t with
  | nil => exact le_rfl
  | cons t' ts ih => exact add_nonneg (abs_nonneg _) (ih t')

/-- the epochs that belong to a list of times -/
noncomputable def epochs (t0 : Epoch) (ts : List ℝ) : List Epoch := ts.map fun t => t0.plusDays (t / 86400)

theorem visit_days {t0 : Epoch} {y : ℝ → Spec.Phase} {K : Set ℝ} {C r η : ℝ} (hC : 0 ≤ C) (h0 : 0 ≤ η) (h300 : η < 300)
    (hη : η < r) (hstep : FollowsDays t0 y K C r) {s l : ℝ} {ts : List ℝ} (hR : Spec.Route K η s ts l) (hs : s ∈ K)
    (q : RK4) (hq : At t0 s q) (hb : (‖Spec.phase q.state.position q.state.velocity - y s‖ + C * l * η ^ 4 +
      C * η * Spec.midnights (t0.plusDays (s / 86400)) (epochs t0 ts)) * exp (C * l) < r) :
    ∃ q', RK4.visit (epochs t0 ts) q = (.ok (), q') ∧ At t0 (ts.getLastD s) q' ∧
      q'.step_size = q.step_size ∧ ‖Spec.phase q'.state.position q'.state.velocity - y (ts.getLastD s)‖ ≤
        (‖Spec.phase q.state.position q.state.velocity - y s‖ + C * l * η ^ 4 +
          C * η * Spec.midnights (t0.plusDays (s / 86400)) (epochs t0 ts)) * exp (C * l) := by
  induction hR generalizing q with
  | stay s => exact ⟨q, rfl, hq, rfl, by simp [epochs, Spec.midnights]⟩
  | @hop s t l ts ht hle hR ih =>
    have hl := length_nonneg hR
    obtain ⟨j, hj⟩ : ∃ j : ℤ, j = |Spec.utcDay (t0.plusDays (t / 86400)) - Spec.utcDay (t0.plusDays (s / 86400))| :=
      ⟨_, rfl⟩
    have hj0 : (0 : ℝ) ≤ j := by rw [hj]; exact_mod_cast abs_nonneg _
    obtain ⟨M, hM⟩ : ∃ M, M = Spec.midnights (t0.plusDays (t / 86400)) (epochs t0 ts) := ⟨_, rfl⟩
    have hM0 : (0 : ℝ) ≤ M := by rw [hM]; exact_mod_cast midnights_nonneg _ _
    have em : ((Spec.midnights (t0.plusDays (s / 86400)) (epochs t0 (t :: ts)) : ℤ) : ℝ) = j + M := by
      rw [hj, hM, epochs, List.map_cons, Spec.midnights, epochs]; push_cast; rfl
    rw [em] at hb ⊢
    rw [← hM] at ih
    obtain ⟨q1, h1, h2, h3, h4⟩ : ∃ q1, RK4.stepToEpoch (t0.plusDays (t / 86400)) q = (.ok (), q1) ∧
        At t0 t q1 ∧ q1.step_size = q.step_size ∧ ‖Spec.phase q1.state.position q1.state.velocity - y t‖ ≤
          (1 + C * |t - s|) * ‖Spec.phase q.state.position q.state.velocity - y s‖ + C * |t - s| ^ 5 +
            C * |t - s| * j := by
      have e : ((t0.plusDays (t / 86400)).value - q.state.epoch.value) * 86400 = t - s := by
        rw [hq.epoch]; simp only [Epoch.plusDays]; ring
      rcases eq_or_ne t s with rfl | hne
      · rw [← hq.epoch]
        exact ⟨q, C41_zero_span q, hq, rfl, by simp⟩
      · obtain ⟨q', a1, a2, a3⟩ := hstep s hs (t - s) (hle.trans_lt hη) { q with step_size := t - s }
          ⟨hq.epoch, hq.off, hq.srp, hq.pert⟩ rfl
          (less_than_days hC h0 (norm_nonneg _) (by positivity) (by positivity) hb)
        rw [add_sub_cancel] at a2 a3
        refine ⟨{ q' with step_size := q.step_size }, stepToEpoch_once ?_ ?_ ?_, ⟨a2.epoch, a2.off, a2.srp, a2.pert⟩,
          rfl, by rw [hj]; exact a3⟩
        · rw [e]; linarith
        · rw [e]; exact a1
        · rw [e]; exact sub_ne_zero.mpr hne
    have hg := growth_days (l := l) (M := M) hC (norm_nonneg _) hle hl hj0 hM0 h4
    obtain ⟨q', b1, b2, b3, b4⟩ := ih ht q1 h2 (hg.trans_lt hb)
    rw [List.getLastD_cons]
    refine ⟨q', ?_, b2, b3.trans h3, b4.trans hg⟩
    rw [epochs, List.map_cons, RK4.visit, PyM.bind_eq_ok]
    exact ⟨(), q1, h1, b1⟩

theorem stride_days {t0 : Epoch} {y : ℝ → Spec.Phase} {K : Set ℝ} {C r η : ℝ} (hC : 0 ≤ C) (h0 : 0 ≤ η)
    (hη : η < r) (hstep : FollowsDays t0 y K C r) {s l : ℝ} (hs : List ℝ) (hR : Spec.Route K η s (Spec.stops s hs) l)
    (hsK : s ∈ K) (q : RK4) (hq : At t0 s q)
    (hb : (‖Spec.phase q.state.position q.state.velocity - y s‖ + C * l * η ^ 4 +
      C * η * Spec.midnights (t0.plusDays (s / 86400)) (epochs t0 (Spec.stops s hs))) * exp (C * l) < r) :
    ∃ q', RK4.stride hs q = (.ok (), q') ∧ At t0 (s + hs.sum) q' ∧
      ‖Spec.phase q'.state.position q'.state.velocity - y (s + hs.sum)‖ ≤
        (‖Spec.phase q.state.position q.state.velocity - y s‖ + C * l * η ^ 4 +
          C * η * Spec.midnights (t0.plusDays (s / 86400)) (epochs t0 (Spec.stops s hs))) * exp (C * l) := by
  induction hs generalizing q s l with
  | nil =>
    cases hR
    exact ⟨q, rfl, by simpa using hq, by simp [epochs, Spec.stops, Spec.midnights]⟩
  | cons h hs ih =>
    rw [Spec.stops] at hR
    cases hR with
    | @hop _ _ l _ ht hle hR =>
      have hl := length_nonneg hR
      obtain ⟨j, hj⟩ : ∃ j : ℤ, j =
          |Spec.utcDay (t0.plusDays ((s + h) / 86400)) - Spec.utcDay (t0.plusDays (s / 86400))| := ⟨_, rfl⟩
      have hj0 : (0 : ℝ) ≤ j := by rw [hj]; exact_mod_cast abs_nonneg _
      obtain ⟨M, hM⟩ : ∃ M, M = Spec.midnights (t0.plusDays ((s + h) / 86400)) (epochs t0 (Spec.stops (s + h) hs)) :=
        ⟨_, rfl⟩
      have hM0 : (0 : ℝ) ≤ M := by rw [hM]; exact_mod_cast midnights_nonneg _ _
      have em : ((Spec.midnights (t0.plusDays (s / 86400)) (epochs t0 (Spec.stops s (h :: hs))) : ℤ) : ℝ) = j + M := by
        rw [hj, hM, Spec.stops, epochs, List.map_cons, Spec.midnights, epochs]; push_cast; rfl
      rw [em] at hb ⊢
      rw [add_sub_cancel_left] at hle hb ⊢
      obtain ⟨q1, a1, a2, a3⟩ := hstep s hsK h (hle.trans_lt hη) { q with step_size := h }
          ⟨hq.epoch, hq.off, hq.srp, hq.pert⟩ rfl
          (less_than_days hC h0 (norm_nonneg _) (by positivity) (by positivity) hb)
      rw [← hj] at a3
      have hg := growth_days (l := l) (M := M) hC (norm_nonneg _) hle hl hj0 hM0 a3
      obtain ⟨q', b1, b2, b3⟩ := ih hR ht q1 a2 (by rw [← hM]; exact hg.trans_lt hb)
      rw [← hM] at b3
      rw [List.sum_cons, ← add_assoc]
      refine ⟨q', ?_, b2, b3.trans hg⟩
      rw [RK4.stride, PyM.modify_bind_apply, PyM.bind_eq_ok]
      exact ⟨(), q1, a1, b1⟩

end Routes

/-- For a coasting propagator `p` and a continuous motion `y` that, from `lo` to `hi` seconds after the epoch of `p`,
has the accelerations of the library except at midnights UTC, and does not meet the axis of the Earth or leave the sphere
of 350 000 km: there is a constant `C` such that whoever starts within `ε` of the motion at some time `s` and is sent
through times in this interval, in any order, with hops of at most `η` seconds that have at most the total length `L` and
pass at most `M` midnights, gets there without an error and ends within `C (ε + η⁴ + m η)` of the motion at the last
time, where `m` is the number of midnights passed, if `ε` and `η` are small enough.  This holds for calls of
`step_to_epoch` and for calls of `step` with any step sizes. -/
theorem C168_days (p : RK4) (hoff : p.m_dot = 0) (y : ℝ → Spec.Phase) (a b lo hi : ℝ) (hy : p.Flight y a b)
    (hlo : a < lo) (hhi : hi < b)
    (hr : ∀ s ∈ Set.Icc lo hi, ∀ r v, y s = Spec.phase r v → r.magnitude ≤ 350000 ∧
      ∀ z, PositionConvert.gcrfToItrf r (p.state.epoch.plusDays (s / 86400)) ≠ .ok ⟨0, 0, z⟩)
    (L M : ℝ) (hL : 0 ≤ L) (hM : 0 ≤ M) :
    ∃ C d : ℝ, 0 < d ∧ ∀ s ∈ Set.Icc lo hi, ∀ q : RK4, q.state.epoch = p.state.epoch.plusDays (s / 86400) →
      q.m_dot = 0 → q.state.srp_scalar = 0 → q.state.use_perturbations = true → ∀ ε < d,
      ‖Spec.phase q.state.position q.state.velocity - y s‖ ≤ ε → ∀ η, 0 ≤ η → η < d →
      -- a tour of epochs
      (∀ ts l, Spec.Route (Set.Icc lo hi) η s ts l → l ≤ L → ∀ m : ℤ,
        m = Spec.midnights q.state.epoch (ts.map fun t => p.state.epoch.plusDays (t / 86400)) → m ≤ M → ∃ q',
        RK4.visit (ts.map fun t => p.state.epoch.plusDays (t / 86400)) q = (.ok (), q') ∧
        q'.state.epoch = p.state.epoch.plusDays (ts.getLastD s / 86400) ∧ q'.step_size = q.step_size ∧
        ‖Spec.phase q'.state.position q'.state.velocity - y (ts.getLastD s)‖ ≤ C * (ε + η ^ 4 + m * η)) ∧
      -- a sequence of steps
      (∀ hs l, Spec.Route (Set.Icc lo hi) η s (Spec.stops s hs) l → l ≤ L → ∀ m : ℤ,
        m = Spec.midnights q.state.epoch ((Spec.stops s hs).map fun t => p.state.epoch.plusDays (t / 86400)) → m ≤ M →
        ∃ q', RK4.stride hs q = (.ok (), q') ∧
        q'.state.epoch = p.state.epoch.plusDays ((s + hs.sum) / 86400) ∧
        ‖Spec.phase q'.state.position q'.state.velocity - y (s + hs.sum)‖ ≤ C * (ε + η ^ 4 + m * η)) := by
  obtain ⟨C, r, hC, hr0, hstep⟩ := Routes.step_days p hoff y a b lo hi hy hlo hhi hr
  obtain ⟨B, hB⟩ : ∃ B, B = (1 + C * L + C) * exp (C * L) := ⟨_, rfl⟩
  have hB0 : 0 ≤ B := by rw [hB]; positivity
  obtain ⟨d, hd⟩ : ∃ d, d = min (min r 1) (r / ((2 + M) * B + 1)) := ⟨_, rfl⟩
  have hd0 : 0 < d := by rw [hd]; exact lt_min (lt_min hr0 one_pos) (by positivity)
  have d1 : d ≤ r := by rw [hd]; exact (min_le_left _ _).trans (min_le_left _ _)
  have d2 : d ≤ 1 := by rw [hd]; exact (min_le_left _ _).trans (min_le_right _ _)
  have d3 : d * ((2 + M) * B + 1) ≤ r := by
    rw [← le_div_iff₀ (by positivity), hd]; exact min_le_right _ _
  have fin : ∀ ε η l e m : ℝ, 0 ≤ e → e ≤ ε → 0 ≤ η → l ≤ L → 0 ≤ l → 0 ≤ m →
      (e + C * l * η ^ 4 + C * η * m) * exp (C * l) ≤ B * (ε + η ^ 4 + m * η) := by
    intro ε η l e m he hε hη hl hl0 hm
    have hε0 := he.trans hε
    calc (e + C * l * η ^ 4 + C * η * m) * exp (C * l) ≤ (ε + C * L * η ^ 4 + C * η * m) * exp (C * L) := by gcongr
      _ ≤ ((1 + C * L + C) * (ε + η ^ 4 + m * η)) * exp (C * L) := by
        refine mul_le_mul_of_nonneg_right ?_ (Real.exp_pos _).le
        have h1 : 0 ≤ (C * L + C) * ε + (1 + C) * η ^ 4 + (1 + C * L) * (m * η) := by positivity
        linarith
      _ = _ := by rw [hB]; ring
  have small : ∀ ε η m : ℝ, 0 ≤ ε → ε < d → 0 ≤ η → η < d → 0 ≤ m → m ≤ M → B * (ε + η ^ 4 + m * η) < r := by
    intro ε η m hε hε' hη hη' hm hm'
    have h1 : η ^ 4 ≤ η := by
      have := pow_le_pow_of_le_one hη (hη'.le.trans d2) (show 1 ≤ 4 by norm_num)
      simpa using this
    have h2 : m * η ≤ M * d := by gcongr
    have h3 : ε + η ^ 4 + m * η ≤ (2 + M) * d := by linarith
    have h4 := mul_le_mul_of_nonneg_left h3 hB0
    linarith
  refine ⟨B, d, hd0, fun s hs q q1 q2 q3 q4 ε hε hn η h0 hη => ⟨fun ts l hR hl m hm hmM => ?_,
    fun hs' l hR hl m hm hmM => ?_⟩⟩
  · rw [q1] at hm
    have hm0 : (0 : ℝ) ≤ m := by rw [hm]; exact_mod_cast Routes.midnights_nonneg _ _
    have hb := fin ε η l _ m (norm_nonneg _) hn h0 hl (Routes.length_nonneg hR) hm0
    have hlt := hb.trans_lt (small ε η m ((norm_nonneg _).trans hn) hε h0 hη hm0 hmM)
    rw [hm] at hb hlt
    obtain ⟨q', v1, v2, v3, v4⟩ := Routes.visit_days hC h0 (hη.trans_le (d2.trans (by norm_num))) (hη.trans_le d1) hstep
      hR hs q ⟨q1, q2, q3, q4⟩ hlt
    exact ⟨q', v1, v2.epoch, v3, by rw [hm]; exact v4.trans hb⟩
  · rw [q1] at hm
    have hm0 : (0 : ℝ) ≤ m := by rw [hm]; exact_mod_cast Routes.midnights_nonneg _ _
    have hb := fin ε η l _ m (norm_nonneg _) hn h0 hl (Routes.length_nonneg hR) hm0
    have hlt := hb.trans_lt (small ε η m ((norm_nonneg _).trans hn) hε h0 hη hm0 hmM)
    rw [hm] at hb hlt
    obtain ⟨q', v1, v2, v3⟩ := Routes.stride_days hC h0 (hη.trans_le d1) hstep hs' hR hs q
      ⟨q1, q2, q3, q4⟩ hlt
    exact ⟨q', v1, v2.epoch, by rw [hm]; exact v3.trans hb⟩

/-! ## steps of a fixed size -/

namespace Routes

theorem utcDay_mono (t0 : Epoch) : Monotone fun s : ℝ => Spec.utcDay (t0.plusDays (s / 86400)) := by
  intro s t h
  refine Int.floor_mono ?_
  simp only [Epoch.plusDays]
  linarith

/-- on the way in one direction every midnight is passed once -/
theorem midnights_replicate (t0 : Epoch) (h : ℝ) (n : ℕ) (s : ℝ) :
    Spec.midnights (t0.plusDays (s / 86400)) (epochs t0 (Spec.stops s (List.replicate n h))) =
      |Spec.utcDay (t0.plusDays ((s + n * h) / 86400)) - Spec.utcDay (t0.plusDays (s / 86400))| := by
  induction n generalizing s with
  | zero => simp [Spec.stops, epochs, Spec.midnights]
  | succ n ih =>
    rw [List.replicate_succ, Spec.stops, epochs, List.map_cons, Spec.midnights]
    have := ih (s + h)
    rw [epochs] at this
    rw [this, show s + h + n * h = s + (n + 1 : ℕ) * h by push_cast; ring]
    have m1 := utcDay_mono t0
    have hn : (0 : ℝ) ≤ n := Nat.cast_nonneg n
    rcases le_total 0 h with hh | hh
    · have a1 := m1 (show s ≤ s + h by linarith)
      have a2 := m1 (show s + h ≤ s + (n + 1 : ℕ) * h by push_cast; nlinarith)
      simp only at a1 a2
      rw [abs_of_nonneg (by omega), abs_of_nonneg (by omega), abs_of_nonneg (by omega)]
      omega
    · have a1 := m1 (show s + h ≤ s by linarith)
      have a2 := m1 (show s + (n + 1 : ℕ) * h ≤ s + h by push_cast; nlinarith)
      simp only at a1 a2
      rw [abs_of_nonpos (by omega), abs_of_nonpos (by omega), abs_of_nonpos (by omega)]
      omega

theorem route_replicate {K : Set ℝ} {h : ℝ} {n : ℕ} {s : ℝ} (hK : ∀ k ≤ n, s + (k : ℝ) * h ∈ K) :
    Spec.Route K |h| s (Spec.stops s (List.replicate n h)) (n * |h|) := by
  induction n generalizing s with
  | zero => simpa [Spec.stops] using Spec.Route.stay s
  | succ n ih =>
    rw [List.replicate_succ, Spec.stops]
    have h1 := ih (s := s + h) (fun k hk => by
      have := hK (k + 1) (by omega)
      push_cast at this
      rw [show s + h + k * h = s + (k + 1) * h by ring]; exact this)
    have h2 := hK 1 (by omega)
    rw [Nat.cast_one, one_mul] at h2
    have h3 := Spec.Route.hop (s := s) h2 (by rw [add_sub_cancel_left]) h1
    rw [add_sub_cancel_left, show |h| + n * |h| = (n + 1 : ℕ) * |h| by push_cast; ring] at h3
    exact h3

/-- calling `step` repeatedly is the same as setting the same step size before each call -/
theorem repeatN_of_stride {h : ℝ} {n : ℕ} {q q' : RK4} (hs : RK4.stride (List.replicate n h) q = (.ok (), q')) :
    ∃ q'', PyM.repeatN n RK4.step { q with step_size := h } = (.ok (), q'') ∧ q''.state = q'.state := by
  induction n generalizing q with
  | zero =>
    cases hs
    exact ⟨_, rfl, rfl⟩
  | succ n ih =>
    rw [List.replicate_succ, RK4.stride, PyM.modify_bind_apply, PyM.bind_eq_ok] at hs
    obtain ⟨⟨⟩, q1, h1, h2⟩ := hs
    obtain ⟨q'', h3, h4⟩ := ih h2
    have e : { q1 with step_size := h } = q1 := by
      have := (RK4.step_frame h1).1
      have h5 : q1.step_size = h := this
      rw [← h5]
    rw [e] at h3
    refine ⟨q'', ?_, h4⟩
    have e2 : PyM.repeatN (n + 1) RK4.step { q with step_size := h } =
      (RK4.step >>= fun _ => PyM.repeatN n RK4.step) { q with step_size := h } := rfl
    rw [e2, PyM.bind_eq_ok]
    exact ⟨(), q1, h1, h3⟩

end Routes

/-- in particular, when a span of any number of days is divided into enough equal steps, every call of `step()`
succeeds, and after each of them the state is within `C (h⁴ + m h)` of the motion, where `h` is the step size and `m` the
number of midnights passed -/
theorem C168_convergence (p : RK4) (hsrp : p.state.srp_scalar = 0) (hpert : p.state.use_perturbations = true)
    (hoff : p.m_dot = 0) (y : ℝ → Spec.Phase) (a b T : ℝ) (hy : p.Flight y a b) (hTa : a < T) (hTb : T < b)
    (hr : ∀ s ∈ Set.uIcc 0 T, ∀ r v, y s = Spec.phase r v → r.magnitude ≤ 350000 ∧
      ∀ z, PositionConvert.gcrfToItrf r (p.state.epoch.plusDays (s / 86400)) ≠ .ok ⟨0, 0, z⟩) :
    ∃ (C : ℝ) (N0 : ℕ), 0 < N0 ∧ ∀ N, N0 ≤ N → ∀ n ≤ N, ∃ q,
      PyM.repeatN n RK4.step { p with step_size := T / N } = (.ok (), q) ∧
      q.state.epoch = p.state.epoch.plusDays (n * (T / N) / 86400) ∧
      ‖Spec.phase q.state.position q.state.velocity - y (n * (T / N))‖ ≤
        C * (|T / N| ^ 4 + |Spec.utcDay q.state.epoch - Spec.utcDay p.state.epoch| * |T / N|) := by
  have hlo : a < min 0 T := lt_min hy.before hTa
  have hhi : max 0 T < b := max_lt hy.after hTb
  obtain ⟨C, d, hd, H⟩ := C168_days p hoff y a b (min 0 T) (max 0 T) hy hlo hhi hr |T|
    (|Spec.utcDay (p.state.epoch.plusDays (T / 86400)) - Spec.utcDay p.state.epoch| : ℤ) (abs_nonneg _)
    (by exact_mod_cast abs_nonneg _)
  obtain ⟨N1, hN1⟩ := exists_nat_gt (|T| / d)
  refine ⟨C, N1 + 1, by omega, fun N hN n hn => ?_⟩
  have hNpos : (0 : ℝ) < N := by exact_mod_cast (by omega : 0 < N)
  obtain ⟨h, hh⟩ : ∃ h, h = T / N := ⟨_, rfl⟩
  rw [← hh]
  have habs : N * |h| = |T| := by rw [hh, abs_div, abs_of_pos hNpos]; field_simp
  have hlt : |h| < d := by
    rw [div_lt_iff₀ hd] at hN1
    have h1 : (N1 : ℝ) ≤ N := by exact_mod_cast (by omega : N1 ≤ N)
    have h2 : |h| * N < d * N := by nlinarith
    exact lt_of_mul_lt_mul_right h2 hNpos.le
  have between : ∀ k ≤ N, (k : ℝ) * h ∈ Set.uIcc 0 T := by
    intro k hk
    have hk' : (k : ℝ) / N ≤ 1 := by rw [div_le_one hNpos]; exact_mod_cast hk
    have : (k : ℝ) * h = (k / N) * T := by rw [hh]; ring
    rw [this]
    have hk0 : 0 ≤ (k : ℝ) / N := by positivity
    rw [Set.mem_uIcc]
    rcases le_total 0 T with hT | hT
    · exact .inl ⟨by positivity, by nlinarith⟩
    · exact .inr ⟨by nlinarith, by nlinarith⟩
  have h0 : (0 : ℝ) ∈ Set.Icc (min 0 T) (max 0 T) := ⟨min_le_left _ _, le_max_left _ _⟩
  have hst : ‖Spec.phase p.state.position p.state.velocity - y 0‖ ≤ 0 := by rw [hy.start]; simp
  have V := (H 0 h0 p (plusDays_zero _).symm hoff hsrp hpert 0 hd hst |h| (abs_nonneg _) hlt).2
  have hmid := Routes.midnights_replicate p.state.epoch h n 0
  rw [plusDays_zero, zero_add] at hmid
  have hsum : (List.replicate n h).sum = n * h := by rw [List.sum_replicate, nsmul_eq_mul]
  have hnT : n * |h| ≤ |T| := by
    rw [← habs]
    have : (n : ℝ) ≤ N := by exact_mod_cast hn
    gcongr
  have hmono := Routes.utcDay_mono p.state.epoch
  have hle : |Spec.utcDay (p.state.epoch.plusDays (n * h / 86400)) - Spec.utcDay p.state.epoch| ≤
      |Spec.utcDay (p.state.epoch.plusDays (T / 86400)) - Spec.utcDay p.state.epoch| := by
    have hb := between n hn
    rw [Set.mem_uIcc] at hb
    have e0 : Spec.utcDay (p.state.epoch.plusDays (0 / 86400)) = Spec.utcDay p.state.epoch := by rw [plusDays_zero]
    rcases hb with ⟨b1, b2⟩ | ⟨b1, b2⟩
    · have m1 := hmono b1
      have m2 := hmono b2
      simp only [e0] at m1 m2
      rw [abs_of_nonneg (by omega), abs_of_nonneg (by omega)]; omega
    · have m1 := hmono b1
      have m2 := hmono b2
      simp only [e0] at m1 m2
      rw [abs_of_nonpos (by omega), abs_of_nonpos (by omega)]; omega
  obtain ⟨q', v1, v2, v3⟩ := V (List.replicate n h) _
    (Routes.route_replicate fun k hk => by rw [zero_add]; exact between k (hk.trans hn)) hnT _ hmid.symm
    (by exact_mod_cast hle)
  obtain ⟨q, w1, w2⟩ := Routes.repeatN_of_stride v1
  rw [zero_add, hsum] at v2 v3
  rw [zero_add] at v3
  refine ⟨q, w1, by rw [w2, v2], ?_⟩
  rw [w2, v2]
  refine v3.trans (le_of_eq ?_)
  push_cast
  rfl

/-- every coasting propagator off the axis of the Earth and within 350 000 km of it has such a motion, at whatever epoch
it is -/
theorem C168_exists (p : RK4) (hoff : p.m_dot = 0) (hhi : p.state.position.magnitude ≤ 350000)
    (hax : ∀ z, PositionConvert.gcrfToItrf p.state.position p.state.epoch ≠ .ok ⟨0, 0, z⟩) :
    ∃ y a b, p.Flight y a b := by
  by_cases hmid : ∀ k : ℤ, p.state.epoch.value - 69.184 / 86400 ≠ k
  · obtain ⟨⟨y, a, b, hy⟩, -⟩ := C95_order { p with state := GCRF.new p.state.epoch p.state.position p.state.velocity }
      rfl rfl (.inl hoff) hmid hhi hax
    have hf := RK4.Trajectory.flight hy
    exact ⟨y, a, b, hf.before, hf.after, hf.start, hf.cont, hf.motion⟩
  · push Not at hmid
    obtain ⟨k, hk⟩ := hmid
    obtain ⟨f, hf⟩ := exists_represents p
    obtain ⟨x0, hx0⟩ : ∃ x0, x0 = Spec.phase p.state.position p.state.velocity := ⟨_, rfl⟩
    have fd := fun N => Routes.force_day p f hf hoff 0 p.state.position p.state.velocity N hhi
      (by rw [plusDays_zero]; exact hax)
    rw [← hx0] at fd
    obtain ⟨gL, sL, eL⟩ := fd (k - 1)
    obtain ⟨gR, sR, eR⟩ := fd k
    obtain ⟨yL, L0, hL⟩ := RKOrder.solution_exists_at (sL.of_le (m := 1) (by exact_mod_cast le_top))
    obtain ⟨yR, R0, hR⟩ := RKOrder.solution_exists_at (sR.of_le (m := 1) (by exact_mod_cast le_top))
    have cL := hL.self_of_nhds.continuousAt
    have cR := hR.self_of_nhds.continuousAt
    have tL : Tendsto (fun s => (s, yL s)) (𝓝 0) (𝓝 ((0, x0) : ℝ × Spec.Phase)) := by
      have := (continuousAt_id (x := (0 : ℝ))).prodMk cL
      rw [ContinuousAt, L0] at this; exact this
    have tR : Tendsto (fun s => (s, yR s)) (𝓝 0) (𝓝 ((0, x0) : ℝ × Spec.Phase)) := by
      have := (continuousAt_id (x := (0 : ℝ))).prodMk cR
      rw [ContinuousAt, R0] at this; exact this
    have hline : ContinuousAt (fun s : ℝ => p.state.epoch.value + s / 86400 - 69.184 / 86400) 0 := by fun_prop
    have e0 : p.state.epoch.value + 0 / 86400 - 69.184 / 86400 = k := by rw [zero_div, add_zero]; exact hk
    have hnear : ∀ᶠ s in 𝓝 (0 : ℝ), (s < 0 → Spec.utcDay (p.state.epoch.plusDays (s / 86400)) = k - 1) ∧
        (0 ≤ s → Spec.utcDay (p.state.epoch.plusDays (s / 86400)) = k) := by
      have h1 := Routes.floor_near (p.state.epoch.value + 0 / 86400 - 69.184 / 86400) (by rw [e0, Int.floor_intCast])
      filter_upwards [hline.eventually h1] with s hs
      rw [e0, Int.floor_intCast] at hs
      exact ⟨fun h => hs.1 (by linarith), fun h => hs.2 (by linarith)⟩
    obtain ⟨e, he, hball⟩ := Metric.eventually_nhds_iff.mp
      ((hL.and hR).and ((hnear.and (tL.eventually eL)).and (tR.eventually eR)))
    obtain ⟨y, hy⟩ : ∃ y : ℝ → Spec.Phase, y = fun s => if s < 0 then yL s else yR s := ⟨_, rfl⟩
    have left : ∀ s < 0, y =ᶠ[𝓝 s] yL := fun s hs => by
      filter_upwards [gt_mem_nhds hs] with x hx
      rw [hy]; exact if_pos hx
    have right : ∀ s, 0 < s → y =ᶠ[𝓝 s] yR := fun s hs => by
      filter_upwards [lt_mem_nhds hs] with x hx
      rw [hy]; exact if_neg (not_lt.mpr hx.le)
    have y0 : y 0 = x0 := by rw [hy]; simp [R0]
    have hin : ∀ s, -e < s → s < e → dist s 0 < e := fun s h1 h2 => by
      rw [Real.dist_eq, sub_zero]; exact abs_lt.mpr ⟨h1, h2⟩
    refine ⟨y, -e, e, by linarith, he, by rw [y0, hx0], fun s h1 h2 => ?_, fun s h1 h2 h3 => ?_⟩
    · obtain ⟨⟨a1, a2⟩, -⟩ := hball (hin s h1 h2)
      rcases lt_trichotomy s 0 with h | rfl | h
      · exact a1.continuousAt.congr (left s h).symm
      · rw [ContinuousAt, y0, Metric.tendsto_nhds]
        intro δ hδ
        rw [ContinuousAt, L0, Metric.tendsto_nhds] at cL
        rw [ContinuousAt, R0, Metric.tendsto_nhds] at cR
        filter_upwards [cL δ hδ, cR δ hδ] with x b1 b2
        rw [hy]
        dsimp only
        split_ifs
        · exact b1
        · exact b2
      · exact a2.continuousAt.congr (right s h).symm
    · obtain ⟨⟨a1, a2⟩, ⟨a3, a4⟩, a5⟩ := hball (hin s h1 h2)
      rcases lt_trichotomy s 0 with h | rfl | h
      · obtain ⟨⟨T, d, b1, b2, b3⟩, b4⟩ := a4 (a3.1 h)
        have es : y s = yL s := (left s h).self_of_nhds
        refine ⟨ofFun (yL s).1, ofFun (yL s).2, T, d, by rw [es]; simp only [Spec.phase, toFun_ofFun], b1, b3, ?_⟩
        rw [← b2]
        simp only at b4 ⊢
        rw [b4]
        exact a1.congr_of_eventuallyEq (left s h)
      · exact absurd e0 (h3 k)
      · obtain ⟨⟨T, d, b1, b2, b3⟩, b4⟩ := a5 (a3.2 h.le)
        have es : y s = yR s := (right s h).self_of_nhds
        refine ⟨ofFun (yR s).1, ofFun (yR s).2, T, d, by rw [es]; simp only [Spec.phase, toFun_ofFun], b1, b3, ?_⟩
        rw [← b2]
        simp only at b4 ⊢
        rw [b4]
        exact a2.congr_of_eventuallyEq (right s h)

/-- the geosynchronous satellite, started at a midnight UTC -/
noncomputable def geoMidnight : RK4 := RK4.new (GCRF.new ⟨59932 + 69.184 / 86400⟩ ⟨42164, 0, 0⟩ ⟨0, 3.07, 0⟩)

theorem geoMidnight_centuries {s : ℝ} (hs : |s| ≤ 3600) :
    |(geoMidnight.state.epoch.plusDays (s / 86400)).julianCenturies| ≤ 5 := by
  rw [abs_le] at hs
  show |(Epoch.mk (59932 + 69.184 / 86400 + s / 86400)).julianCenturies| ≤ 5
  rw [abs_le]
  norm_num [Epoch.julianCenturies, Epoch.julianValue, Epoch.JULIAN_CENTURY, Epoch.MJD_ZERO, Epoch.J2000_JULIAN_DATE]
  constructor <;> linarith

theorem geoMidnight_day {s : ℝ} (h0 : 0 < s) (hs : s ≤ 3600) :
    Spec.utcDay (geoMidnight.state.epoch.plusDays (-s / 86400)) = 59931 ∧ Spec.utcDay geoMidnight.state.epoch = 59932 := by
  constructor
  · show ⌊(59932 + 69.184 / 86400 + -s / 86400 : ℝ) - 69.184 / 86400⌋ = 59931
    rw [Int.floor_eq_iff]
    constructor <;> push_cast <;> linarith
  · show ⌊(59932 + 69.184 / 86400 : ℝ) - 69.184 / 86400⌋ = 59932
    rw [Int.floor_eq_iff]
    constructor <;> push_cast <;> linarith

theorem geoMidnight_flight : ∃ (y : ℝ → Spec.Phase) (a b S : ℝ), 0 < S ∧ S ≤ 3600 ∧ geoMidnight.Flight y a b ∧
    a < -S ∧ S < b ∧ ∀ s ∈ Set.Icc (-S) S, ∀ r v, y s = Spec.phase r v → r.magnitude ≤ 350000 ∧
      ∀ z, PositionConvert.gcrfToItrf r (geoMidnight.state.epoch.plusDays (s / 86400)) ≠ .ok ⟨0, 0, z⟩ := by
  have hnear := geoNoon_near (r := geoMidnight.state.position) (t := geoMidnight.state.epoch)
    (by show |(42164 : ℝ) - 42164| < 100; norm_num) (by show |(0 : ℝ)| < 100; norm_num)
    (by show |(0 : ℝ)| < 100; norm_num) (by
      have := geoMidnight_centuries (s := 0) (by norm_num)
      rwa [plusDays_zero] at this)
  obtain ⟨y, l, u, hy⟩ := C168_exists geoMidnight rfl hnear.1 hnear.2
  obtain ⟨e, he, hball⟩ := Metric.continuousAt_iff.mp (hy.cont 0 hy.before hy.after) 100 (by norm_num)
  obtain ⟨S, hS⟩ : ∃ S, S = min (min (e / 2) (min (u / 2) (-l / 2))) 3600 := ⟨_, rfl⟩
  have hu := hy.after
  have hl := hy.before
  have S0 : 0 < S := by
    rw [hS]; exact lt_min (lt_min (by linarith) (lt_min (by linarith) (by linarith))) (by norm_num)
  have S1 : S ≤ e / 2 := by rw [hS]; exact (min_le_left _ _).trans (min_le_left _ _)
  have S2 : S ≤ u / 2 := by
    rw [hS]; exact (min_le_left _ _).trans ((min_le_right _ _).trans (min_le_left _ _))
  have S4 : S ≤ -l / 2 := by
    rw [hS]; exact (min_le_left _ _).trans ((min_le_right _ _).trans (min_le_right _ _))
  have S3 : S ≤ 3600 := by rw [hS]; exact min_le_right _ _
  have hseg : ∀ s ∈ Set.Icc (-S) S, |s| ≤ S := fun s hs => abs_le.mpr hs
  refine ⟨y, l, u, S, S0, S3, hy, by linarith, by linarith, fun s hs r v hrv => ?_⟩
  have hn := hball (x := s) (by rw [Real.dist_eq, sub_zero]; linarith [hseg s hs])
  rw [hrv, hy.start, Prod.dist_eq, max_lt_iff] at hn
  have h3 := fun i => (dist_le_pi_dist (Spec.phase r v).1
    (Spec.phase geoMidnight.state.position geoMidnight.state.velocity).1 i).trans_lt hn.1
  refine geoNoon_near ?_ ?_ ?_ (geoMidnight_centuries ((hseg s hs).trans S3))
  · exact h3 0
  · have := h3 1
    rw [Real.dist_eq] at this
    have e0 : (Spec.phase geoMidnight.state.position geoMidnight.state.velocity).1 1 = 0 := rfl
    rw [e0, sub_zero] at this
    exact this
  · have := h3 2
    rw [Real.dist_eq] at this
    have e0 : (Spec.phase geoMidnight.state.position geoMidnight.state.velocity).1 2 = 0 := rfl
    rw [e0, sub_zero] at this
    exact this

/-- the satellite is sent back into the day before, and returns: two midnights are passed -/
example : ∃ C d : ℝ, 0 < d ∧ ∀ η, 0 < η → η < d → ∃ q,
    RK4.visit ([-η, 0].map fun t => geoMidnight.state.epoch.plusDays (t / 86400)) geoMidnight = (.ok (), q) ∧
    q.state.epoch = geoMidnight.state.epoch ∧
    ‖Spec.phase q.state.position q.state.velocity -
      Spec.phase geoMidnight.state.position geoMidnight.state.velocity‖ ≤ C * (η ^ 4 + 2 * η) := by
  obtain ⟨y, a, b, S, hS, hS3, hy, h1, h2, h4⟩ := geoMidnight_flight
  obtain ⟨C, d, hd, H⟩ := C168_days geoMidnight rfl y a b (-S) S hy h1 h2 h4 4 2 (by norm_num) (by norm_num)
  refine ⟨C, min d (min S 1), lt_min hd (lt_min hS one_pos), fun η h0 hη => ?_⟩
  rw [lt_min_iff, lt_min_iff] at hη
  obtain ⟨g1, g2, g3⟩ := hη
  have R : Spec.Route (Set.Icc (-S) S) η 0 [-η, 0] _ :=
    .hop (l := _) ⟨by linarith, by linarith⟩ (by simp [abs_of_pos h0]) <|
    .hop ⟨by linarith, hS.le⟩ (by simp [abs_of_pos h0]) <| .stay _
  have hl : |-η - 0| + (|0 - -η| + 0) ≤ 4 := by
    simp only [sub_zero, zero_sub, abs_neg, neg_neg, abs_of_pos h0]; linarith
  obtain ⟨d1, d2⟩ := geoMidnight_day h0 (by linarith)
  have hm : Spec.midnights geoMidnight.state.epoch
      ([-η, 0].map fun t => geoMidnight.state.epoch.plusDays (t / 86400)) = 2 := by
    simp only [List.map_cons, List.map_nil, Spec.midnights, plusDays_zero, d1, d2]
    norm_num
  obtain ⟨q, c1, c2, -, c3⟩ := (H 0 ⟨by linarith, hS.le⟩ geoMidnight (plusDays_zero _).symm rfl rfl rfl 0 hd
    (by rw [hy.start]; simp) η h0.le g1).1 _ _ R hl 2 hm.symm (by norm_num)
  refine ⟨q, c1, c2.trans (plusDays_zero _), ?_⟩
  have c4 : ([-η, 0] : List ℝ).getLastD 0 = 0 := rfl
  rw [c4, hy.start, zero_add] at c3
  exact_mod_cast c3

/-- the satellite coasts back into the day before in equal steps -/
example : ∃ (y : ℝ → Spec.Phase) (T C : ℝ) (N0 : ℕ), T < 0 ∧ Spec.utcDay (geoMidnight.state.epoch.plusDays (T / 86400)) ≠
      Spec.utcDay geoMidnight.state.epoch ∧ ∀ N, N0 ≤ N → ∃ q,
    PyM.repeatN N RK4.step { geoMidnight with step_size := T / N } = (.ok (), q) ∧
    q.state.epoch = geoMidnight.state.epoch.plusDays (N * (T / N) / 86400) ∧
    ‖Spec.phase q.state.position q.state.velocity - y (N * (T / N))‖ ≤
      C * (|T / N| ^ 4 + |Spec.utcDay q.state.epoch - Spec.utcDay geoMidnight.state.epoch| * |T / N|) := by
  obtain ⟨y, a, b, S, hS, hS3, hy, h1, h2, h4⟩ := geoMidnight_flight
  obtain ⟨C, N0, -, h⟩ := C168_convergence geoMidnight rfl rfl rfl y a b (-S) hy h1 (by linarith)
    (fun s hs => h4 s (by
      rw [Set.uIcc_of_ge (by linarith)] at hs
      exact ⟨hs.1, hs.2.trans hS.le⟩))
  obtain ⟨d1, d2⟩ := geoMidnight_day hS hS3
  exact ⟨y, -S, C, N0, by linarith, by rw [d1, d2]; norm_num, fun N hN => h N hN N le_rfl⟩

end Openspace
