import Verif.Props.Order

/-!
# C167: where a propagator ends up depends on the epoch it is sent to, not on the way there

A client may send a propagator to any sequence of epochs, forwards and backwards, in hops of any sizes.  Up to the
fourth power of the longest hop, the state at the end is that of the motion at the last epoch of the sequence.
-/

namespace Openspace

open Real Filter Topology
open scoped ContDiff

/-- the times of `ts`, in seconds after some epoch, are visited one after the other from `s`: all of them are in `K`,
no hop is longer than `η`, and the hops have the total length `l` -/
inductive Spec.Route (K : Set ℝ) (η : ℝ) : ℝ → List ℝ → ℝ → Prop
  | stay (s : ℝ) : Route K η s [] 0
  | hop {s t l : ℝ} {ts : List ℝ} : t ∈ K → |t - s| ≤ η → Route K η t ts l → Route K η s (t :: ts) (|t - s| + l)

/-- a client that calls `step_to_epoch` for each of a list of epochs -/
noncomputable def RK4.visit : List Epoch → PyM RK4 Unit
  | [] => pure ()
  | t :: ts => do
    RK4.stepToEpoch t
    RK4.visit ts

/-- a client that calls `step` with one step size after the other -/
noncomputable def RK4.stride : List ℝ → PyM RK4 Unit
  | [] => pure ()
  | h :: hs => do
    PyM.modify fun p => { p with step_size := h }
    RK4.step
    RK4.stride hs

/-- the times at which a client stops that makes the steps `hs` from `s` -/
def Spec.stops (s : ℝ) : List ℝ → List ℝ
  | [] => []
  | h :: hs => (s + h) :: Spec.stops (s + h) hs

namespace Routes

theorem length_nonneg {K : Set ℝ} {η s l : ℝ} {ts : List ℝ} (h : Spec.Route K η s ts l) : 0 ≤ l := by
  induction h with
  | stay => exact le_rfl
  | hop _ _ _ ih => positivity

/-- the error after a hop, seen from the end of the route -/
theorem growth {C η e e' h l : ℝ} (hC : 0 ≤ C) (he : 0 ≤ e) (hη : |h| ≤ η) (hl : 0 ≤ l)
    (hs : e' ≤ (1 + C * |h|) * e + C * |h| ^ 5) :
    (e' + C * l * η ^ 4) * exp (C * l) ≤ (e + C * (|h| + l) * η ^ 4) * exp (C * (|h| + l)) := by
  have h1 : 1 + C * |h| ≤ exp (C * |h|) := by linarith [Real.add_one_le_exp (C * |h|)]
  have h2 : 1 ≤ exp (C * |h|) := Real.one_le_exp (by positivity)
  have h3 : |h| ^ 4 ≤ η ^ 4 := by gcongr
  have h4 : C * |h| ^ 5 ≤ C * |h| * η ^ 4 := by
    calc C * |h| ^ 5 = C * |h| * |h| ^ 4 := by ring
      _ ≤ _ := by gcongr
  have h5 : 0 ≤ η ^ 4 := by positivity
  have h6 : e' + C * l * η ^ 4 ≤ (e + C * (|h| + l) * η ^ 4) * exp (C * |h|) := by
    calc e' + C * l * η ^ 4 ≤ exp (C * |h|) * e + C * |h| * η ^ 4 + C * l * η ^ 4 := by
          have := mul_le_mul_of_nonneg_right h1 he
          linarith
      _ ≤ exp (C * |h|) * e + (C * (|h| + l) * η ^ 4) * exp (C * |h|) := by
          have h7 : 0 ≤ C * (|h| + l) * η ^ 4 := by positivity
          nlinarith
      _ = _ := by ring
  rw [mul_add C, Real.exp_add]
  calc _ ≤ (e + C * (|h| + l) * η ^ 4) * exp (C * |h|) * exp (C * l) := by gcongr
    _ = _ := by ring

/-- a propagator that coasts at `s` seconds after `t0` as the library leaves it -/
structure At (t0 : Epoch) (s : ℝ) (q : RK4) : Prop where
  epoch : q.state.epoch = t0.plusDays (s / 86400)
  off : q.m_dot = 0
  srp : q.state.srp_scalar = 0
  pert : q.state.use_perturbations = true

/-- one step from near the motion -/
theorem step_near (p : RK4) (hoff : p.m_dot = 0) (y : ℝ → Spec.Phase) (a b lo hi : ℝ) (hy : p.Trajectory y a b)
    (hlo : a < lo) (hhi : hi < b)
    (hm : ∀ s ∈ Set.Icc lo hi, ∀ k : ℤ, p.state.epoch.value + s / 86400 - 69.184 / 86400 ≠ k)
    (hr : ∀ s ∈ Set.Icc lo hi, ∀ r v, y s = Spec.phase r v → r.magnitude ≤ 350000 ∧
      ∀ z, PositionConvert.gcrfToItrf r (p.state.epoch.plusDays (s / 86400)) ≠ .ok ⟨0, 0, z⟩) :
    ∃ C r : ℝ, 0 ≤ C ∧ 0 < r ∧ ∀ s ∈ Set.Icc lo hi, ∀ h, |h| < r → ∀ q, At p.state.epoch s q → q.step_size = h →
      ‖Spec.phase q.state.position q.state.velocity - y s‖ < r → ∃ q', RK4.step q = (.ok (), q') ∧
        At p.state.epoch (s + h) q' ∧ ‖Spec.phase q'.state.position q'.state.velocity - y (s + h)‖ ≤
          (1 + C * |h|) * ‖Spec.phase q.state.position q.state.velocity - y s‖ + C * |h| ^ 5 := by
  obtain ⟨f, hf⟩ := exists_represents p
  have hin : ∀ s ∈ Set.Icc lo hi, a < s ∧ s < b := fun s hs => ⟨by linarith [hs.1], by linarith [hs.2]⟩
  have local_law : ∀ s ∈ Set.Icc lo hi, ContDiffAt ℝ ∞ (fun u : ℝ × Spec.Phase => f u.1 u.2) (s, y s) ∧
      ∀ᶠ u in 𝓝 ((s, y s) : ℝ × Spec.Phase), Good p (fun u => f u.1 u.2) u := by
    intro s hs
    obtain ⟨r, v, -, -, hrv, -⟩ := hy.motion s (hin s hs).1 (hin s hs).2
    obtain ⟨h1, h2⟩ := hr s hs r v hrv
    obtain ⟨q, hq⟩ : ∃ q : RK4, q = { p with state := GCRF.new (p.state.epoch.plusDays (s / 86400)) r v } := ⟨_, rfl⟩
    have he : q.state.epoch = p.state.epoch.plusDays (s / 86400) := by rw [hq]; rfl
    have hqo : q.m_dot = 0 := by rw [hq]; exact hoff
    have hqp : q.state.position = r := by rw [hq]; rfl
    have hqv : q.state.velocity = v := by rw [hq]; rfl
    obtain ⟨c, g⟩ := force_law q (fun x y => f (s + x) y) (represents_shift hoff hqo he hf) (.inl hqo)
      (by rw [he]; exact hm s hs) (by rw [hqp]; exact h1) (by rw [hqp, he]; exact h2)
    rw [hqp, hqv, ← hrv] at c g
    have back : Tendsto (fun u : ℝ × Spec.Phase => (u.1 - s, u.2)) (𝓝 (s, y s)) (𝓝 (0, y s)) := by
      have : Continuous fun u : ℝ × Spec.Phase => (u.1 - s, u.2) := by fun_prop
      simpa using this.tendsto (s, y s)
    constructor
    · have hsub : ContDiffAt ℝ ∞ (fun u : ℝ × Spec.Phase => (u.1 - s, u.2)) (s, y s) := by fun_prop
      have := ContDiffAt.comp (g := fun u : ℝ × Spec.Phase => f (s + u.1) u.2) (s, y s)
        (by rw [sub_self]; exact c) hsub
      refine this.congr_of_eventuallyEq (Eventually.of_forall fun u => ?_)
      simp
    · filter_upwards [back.eventually g] with u hu
      rw [good_shift hoff hqo he, add_sub_cancel] at hu
      exact hu
  obtain ⟨C, r, hC, hr0, hu⟩ := RKOrder.uniform (isCompact_Icc (a := lo) (b := hi)) (f := fun u => f u.1 u.2) (y := y)
    (P := Good p fun u => f u.1 u.2) (fun s hs => (local_law s hs).1)
    (fun s hs => hy.ode hf (hin s hs).1 (hin s hs).2) (fun s hs => (local_law s hs).2)
  refine ⟨C, r, hC, hr0, fun s hs h hh q hq hqh hqn => ?_⟩
  obtain ⟨st, herr⟩ := hu s hs h hh _ hqn
  have st' : RKOrder.Stages (Good q fun u => f (s + u.1) u.2) (fun u => f (s + u.1) u.2) 0 q.step_size
      (Spec.phase q.state.position q.state.velocity) := by
    rw [hqh]
    obtain ⟨a1, a2, a3, a4⟩ := st
    refine ⟨(good_shift hoff hq.off hq.epoch f _ _).mpr ?_, (good_shift hoff hq.off hq.epoch f _ _).mpr ?_,
      (good_shift hoff hq.off hq.epoch f _ _).mpr ?_, (good_shift hoff hq.off hq.epoch f _ _).mpr ?_⟩ <;>
      simp only [zero_add, add_zero] <;> assumption
  obtain ⟨q', hq'⟩ := step_of_stages q _ hq.srp hq.pert st'
  obtain ⟨a1, a2, -, -, -, a6, a7, a8, -, -⟩ := RK4.step_frame hq'
  have rk := (C42_classical q q' _ (represents_shift hoff hq.off hq.epoch hf) hq.srp hq.pert hq').1
  refine ⟨q', hq', ⟨?_, a2.trans hq.off, a8, a7⟩, ?_⟩
  · ext
    rw [a6, hq.epoch, hqh]
    simp only [Epoch.plusDays, SECONDS_IN_DAY]
    ring
  · rw [rk, hqh]
    simp only [Spec.rk4, zero_add, add_zero] at herr ⊢
    exact herr

/-- one call of `step_to_epoch` over at most 300 s is one step, or nothing -/
theorem stepToEpoch_once {q : RK4} {t : Epoch} (h : |(t.value - q.state.epoch.value) * 86400| ≤ 300) {q' : RK4}
    (hs : RK4.step { q with step_size := (t.value - q.state.epoch.value) * 86400 } = (.ok (), q'))
    (h0 : (t.value - q.state.epoch.value) * 86400 ≠ 0) :
    RK4.stepToEpoch t q = (.ok (), { q' with step_size := q.step_size }) := by
  have hsec : SECONDS_IN_DAY = 86400 := by norm_num [SECONDS_IN_DAY]
  have hn : ⌈|(t.value - q.state.epoch.value) * 86400 / 300|⌉₊ = 1 := by
    have e : |(t.value - q.state.epoch.value) * 86400 / 300| = |(t.value - q.state.epoch.value) * 86400| / 300 := by
      rw [abs_div]; norm_num
    rw [Nat.ceil_eq_iff one_ne_zero, e]
    have := abs_pos.mpr h0
    constructor
    · rw [Nat.sub_self, Nat.cast_zero]; positivity
    · rw [Nat.cast_one]; linarith
  rw [RK4.stepToEpoch_ok_iff]
  refine ⟨q', ?_, rfl⟩
  rw [hsec, hn]
  simp only [zero_lt_one, if_true, Nat.cast_one, div_one]
  exact .succ hs (.zero _)

/-- what `step_near` says of a step -/
def Follows (t0 : Epoch) (y : ℝ → Spec.Phase) (K : Set ℝ) (C r : ℝ) : Prop :=
  ∀ s ∈ K, ∀ h, |h| < r → ∀ q, At t0 s q → q.step_size = h →
    ‖Spec.phase q.state.position q.state.velocity - y s‖ < r → ∃ q', RK4.step q = (.ok (), q') ∧
      At t0 (s + h) q' ∧ ‖Spec.phase q'.state.position q'.state.velocity - y (s + h)‖ ≤
        (1 + C * |h|) * ‖Spec.phase q.state.position q.state.velocity - y s‖ + C * |h| ^ 5

theorem less_than {C η e l r : ℝ} (hC : 0 ≤ C) (he : 0 ≤ e) (hl : 0 ≤ l)
    (h : (e + C * l * η ^ 4) * exp (C * l) < r) : e < r := by
  refine lt_of_le_of_lt ?_ h
  have h4 : 0 ≤ C * l * η ^ 4 := by positivity
  have h1 : 1 ≤ exp (C * l) := Real.one_le_exp (by positivity)
  nlinarith

theorem visit_near {t0 : Epoch} {y : ℝ → Spec.Phase} {K : Set ℝ} {C r η : ℝ} (hC : 0 ≤ C) (h300 : η < 300)
    (hη : η < r) (hstep : Follows t0 y K C r) {s l : ℝ} {ts : List ℝ} (hR : Spec.Route K η s ts l) (hs : s ∈ K)
    (q : RK4) (hq : At t0 s q)
    (hb : (‖Spec.phase q.state.position q.state.velocity - y s‖ + C * l * η ^ 4) * exp (C * l) < r) :
    ∃ q', RK4.visit (ts.map fun t => t0.plusDays (t / 86400)) q = (.ok (), q') ∧ At t0 (ts.getLastD s) q' ∧
      q'.step_size = q.step_size ∧ ‖Spec.phase q'.state.position q'.state.velocity - y (ts.getLastD s)‖ ≤
        (‖Spec.phase q.state.position q.state.velocity - y s‖ + C * l * η ^ 4) * exp (C * l) := by
  induction hR generalizing q with
  | stay s => exact ⟨q, rfl, hq, rfl, by simp⟩
  | @hop s t l ts ht hle hR ih =>
    have hl := length_nonneg hR
    obtain ⟨q1, h1, h2, h3, h4⟩ : ∃ q1, RK4.stepToEpoch (t0.plusDays (t / 86400)) q = (.ok (), q1) ∧
        At t0 t q1 ∧ q1.step_size = q.step_size ∧ ‖Spec.phase q1.state.position q1.state.velocity - y t‖ ≤
          (1 + C * |t - s|) * ‖Spec.phase q.state.position q.state.velocity - y s‖ + C * |t - s| ^ 5 := by
      have e : ((t0.plusDays (t / 86400)).value - q.state.epoch.value) * 86400 = t - s := by
        rw [hq.epoch]; simp only [Epoch.plusDays]; ring
      rcases eq_or_ne t s with rfl | hne
      · rw [← hq.epoch]
        exact ⟨q, C41_zero_span q, hq, rfl, by simp⟩
      · obtain ⟨q', a1, a2, a3⟩ := hstep s hs (t - s) (hle.trans_lt hη) { q with step_size := t - s }
          ⟨hq.epoch, hq.off, hq.srp, hq.pert⟩ rfl (less_than hC (norm_nonneg _) (by positivity) hb)
        rw [add_sub_cancel] at a2 a3
        refine ⟨{ q' with step_size := q.step_size }, stepToEpoch_once ?_ ?_ ?_, ⟨a2.epoch, a2.off, a2.srp, a2.pert⟩,
          rfl, a3⟩
        · rw [e]; linarith
        · rw [e]; exact a1
        · rw [e]; exact sub_ne_zero.mpr hne
    have hg := growth (l := l) hC (norm_nonneg _) hle hl h4
    obtain ⟨q', b1, b2, b3, b4⟩ := ih ht q1 h2 (hg.trans_lt hb)
    rw [List.getLastD_cons]
    refine ⟨q', ?_, b2, b3.trans h3, b4.trans hg⟩
    rw [List.map_cons, RK4.visit, PyM.bind_eq_ok]
    exact ⟨(), q1, h1, b1⟩

theorem stride_near {t0 : Epoch} {y : ℝ → Spec.Phase} {K : Set ℝ} {C r η : ℝ} (hC : 0 ≤ C)
    (hη : η < r) (hstep : Follows t0 y K C r) {s l : ℝ} (hs : List ℝ) (hR : Spec.Route K η s (Spec.stops s hs) l)
    (hsK : s ∈ K) (q : RK4) (hq : At t0 s q)
    (hb : (‖Spec.phase q.state.position q.state.velocity - y s‖ + C * l * η ^ 4) * exp (C * l) < r) :
    ∃ q', RK4.stride hs q = (.ok (), q') ∧ At t0 (s + hs.sum) q' ∧
      ‖Spec.phase q'.state.position q'.state.velocity - y (s + hs.sum)‖ ≤
        (‖Spec.phase q.state.position q.state.velocity - y s‖ + C * l * η ^ 4) * exp (C * l) := by
  induction hs generalizing q s l with
  | nil =>
    cases hR
    exact ⟨q, rfl, by simpa using hq, by simp⟩
  | cons h hs ih =>
    rw [Spec.stops] at hR
    cases hR with
    | @hop _ _ l _ ht hle hR =>
      have hl := length_nonneg hR
      rw [add_sub_cancel_left] at hle hb ⊢
      obtain ⟨q1, a1, a2, a3⟩ := hstep s hsK h (hle.trans_lt hη) { q with step_size := h }
          ⟨hq.epoch, hq.off, hq.srp, hq.pert⟩ rfl (less_than hC (norm_nonneg _) (by positivity) hb)
      have hg := growth (l := l) hC (norm_nonneg _) hle hl a3
      obtain ⟨q', b1, b2, b3⟩ := ih hR ht q1 a2 (hg.trans_lt hb)
      rw [List.sum_cons, ← add_assoc]
      refine ⟨q', ?_, b2, b3.trans hg⟩
      rw [RK4.stride, PyM.modify_bind_apply, PyM.bind_eq_ok]
      exact ⟨(), q1, a1, b1⟩

end Routes

/-- For a coasting propagator `p` and a solution `y` of its equations of motion that, from `lo` to `hi` seconds after
the epoch of `p`, does not meet the axis of the Earth, leave the sphere of 350 000 km or cross midnight UTC: there is
a constant `C` such that whoever starts within `ε` of the motion at some time `s` and is sent through times in this
interval, in any order, with hops of at most `η` seconds that have at most the total length `L`, gets there without
an error and ends within `C (ε + η⁴)` of the motion at the last time, if `ε` and `η` are small enough.  This holds for
calls of `step_to_epoch` and for calls of `step` with any step sizes. -/
theorem C167_routes (p : RK4) (hoff : p.m_dot = 0) (y : ℝ → Spec.Phase) (a b lo hi : ℝ) (hy : p.Trajectory y a b)
    (hlo : a < lo) (hhi : hi < b)
    (hm : ∀ s ∈ Set.Icc lo hi, ∀ k : ℤ, p.state.epoch.value + s / 86400 - 69.184 / 86400 ≠ k)
    (hr : ∀ s ∈ Set.Icc lo hi, ∀ r v, y s = Spec.phase r v → r.magnitude ≤ 350000 ∧
      ∀ z, PositionConvert.gcrfToItrf r (p.state.epoch.plusDays (s / 86400)) ≠ .ok ⟨0, 0, z⟩) (L : ℝ) (hL : 0 ≤ L) :
    ∃ C d : ℝ, 0 < d ∧ ∀ s ∈ Set.Icc lo hi, ∀ q : RK4, q.state.epoch = p.state.epoch.plusDays (s / 86400) →
      q.m_dot = 0 → q.state.srp_scalar = 0 → q.state.use_perturbations = true → ∀ ε < d,
      ‖Spec.phase q.state.position q.state.velocity - y s‖ ≤ ε → ∀ η, 0 ≤ η → η < d →
      -- a tour of epochs
      (∀ ts l, Spec.Route (Set.Icc lo hi) η s ts l → l ≤ L → ∃ q',
        RK4.visit (ts.map fun t => p.state.epoch.plusDays (t / 86400)) q = (.ok (), q') ∧
        q'.state.epoch = p.state.epoch.plusDays (ts.getLastD s / 86400) ∧ q'.step_size = q.step_size ∧
        ‖Spec.phase q'.state.position q'.state.velocity - y (ts.getLastD s)‖ ≤ C * (ε + η ^ 4)) ∧
      -- a sequence of steps
      (∀ hs l, Spec.Route (Set.Icc lo hi) η s (Spec.stops s hs) l → l ≤ L → ∃ q', RK4.stride hs q = (.ok (), q') ∧
        q'.state.epoch = p.state.epoch.plusDays ((s + hs.sum) / 86400) ∧
        ‖Spec.phase q'.state.position q'.state.velocity - y (s + hs.sum)‖ ≤ C * (ε + η ^ 4)) := by
  obtain ⟨C, r, hC, hr0, hstep⟩ := Routes.step_near p hoff y a b lo hi hy hlo hhi hm hr
  obtain ⟨B, hB⟩ : ∃ B, B = (1 + C * L) * exp (C * L) := ⟨_, rfl⟩
  have hB0 : 0 ≤ B := by rw [hB]; positivity
  obtain ⟨d, hd⟩ : ∃ d, d = min (min r 1) (r / (2 * B + 1)) := ⟨_, rfl⟩
  have hd0 : 0 < d := by rw [hd]; exact lt_min (lt_min hr0 one_pos) (by positivity)
  have d1 : d ≤ r := by rw [hd]; exact (min_le_left _ _).trans (min_le_left _ _)
  have d2 : d ≤ 1 := by rw [hd]; exact (min_le_left _ _).trans (min_le_right _ _)
  have d3 : d * (2 * B + 1) ≤ r := by
    rw [← le_div_iff₀ (by positivity), hd]; exact min_le_right _ _
  have fin : ∀ ε η l e : ℝ, 0 ≤ e → e ≤ ε → 0 ≤ η → l ≤ L → 0 ≤ l →
      (e + C * l * η ^ 4) * exp (C * l) ≤ B * (ε + η ^ 4) := by
    intro ε η l e he hε hη hl hl0
    have h4 : 0 ≤ η ^ 4 := by positivity
    have hε0 := he.trans hε
    calc (e + C * l * η ^ 4) * exp (C * l) ≤ (ε + C * L * η ^ 4) * exp (C * L) := by gcongr
      _ ≤ ((1 + C * L) * (ε + η ^ 4)) * exp (C * L) := by
        refine mul_le_mul_of_nonneg_right ?_ (Real.exp_pos _).le
        have : 0 ≤ C * L * ε := by positivity
        linarith
      _ = _ := by rw [hB]; ring
  have small : ∀ ε η : ℝ, 0 ≤ ε → ε < d → 0 ≤ η → η < d → B * (ε + η ^ 4) < r := by
    intro ε η hε hε' hη hη'
    have : η ^ 4 ≤ η := by
      have := pow_le_pow_of_le_one hη (hη'.le.trans d2) (show 1 ≤ 4 by norm_num)
      simpa using this
    nlinarith
  refine ⟨B, d, hd0, fun s hs q q1 q2 q3 q4 ε hε hn η h0 hη => ⟨fun ts l hR hl => ?_, fun hs' l hR hl => ?_⟩⟩
  · have hb := fin ε η l _ (norm_nonneg _) hn h0 hl (Routes.length_nonneg hR)
    obtain ⟨q', v1, v2, v3, v4⟩ := Routes.visit_near hC (hη.trans_le (d2.trans (by norm_num))) (hη.trans_le d1) hstep hR hs q
      ⟨q1, q2, q3, q4⟩ (hb.trans_lt (small ε η ((norm_nonneg _).trans hn) hε h0 hη))
    exact ⟨q', v1, v2.epoch, v3, v4.trans hb⟩
  · have hb := fin ε η l _ (norm_nonneg _) hn h0 hl (Routes.length_nonneg hR)
    obtain ⟨q', v1, v2, v3⟩ := Routes.stride_near hC (hη.trans_le d1) hstep hs' hR hs q
      ⟨q1, q2, q3, q4⟩ (hb.trans_lt (small ε η ((norm_nonneg _).trans hn) hε h0 hη))
    exact ⟨q', v1, v2.epoch, v3.trans hb⟩

theorem plusDays_zero (t : Epoch) : t.plusDays (0 / 86400) = t := by ext; simp [Epoch.plusDays]

/-- two clients that start together and are sent to the same epoch, through whatever epochs in between, end together
up to the fourth power of the longest hop; in particular, one that is sent back to where it started returns to its
first state -/
theorem C167_agree (p : RK4) (hsrp : p.state.srp_scalar = 0) (hpert : p.state.use_perturbations = true)
    (hoff : p.m_dot = 0) (y : ℝ → Spec.Phase) (a b lo hi : ℝ) (hy : p.Trajectory y a b)
    (hlo : a < lo) (h0 : 0 ∈ Set.Icc lo hi) (hhi : hi < b)
    (hm : ∀ s ∈ Set.Icc lo hi, ∀ k : ℤ, p.state.epoch.value + s / 86400 - 69.184 / 86400 ≠ k)
    (hr : ∀ s ∈ Set.Icc lo hi, ∀ r v, y s = Spec.phase r v → r.magnitude ≤ 350000 ∧
      ∀ z, PositionConvert.gcrfToItrf r (p.state.epoch.plusDays (s / 86400)) ≠ .ok ⟨0, 0, z⟩) (L : ℝ) (hL : 0 ≤ L) :
    ∃ C d : ℝ, 0 < d ∧ ∀ η, 0 ≤ η → η < d → ∀ t ts ts' l l',
      Spec.Route (Set.Icc lo hi) η 0 (ts ++ [t]) l → l ≤ L → Spec.Route (Set.Icc lo hi) η 0 (ts' ++ [t]) l' → l' ≤ L →
      ∃ q q', RK4.visit ((ts ++ [t]).map fun t => p.state.epoch.plusDays (t / 86400)) p = (.ok (), q) ∧
        RK4.visit ((ts' ++ [t]).map fun t => p.state.epoch.plusDays (t / 86400)) p = (.ok (), q') ∧
        q.state.epoch = p.state.epoch.plusDays (t / 86400) ∧ q'.state.epoch = q.state.epoch ∧
        ‖Spec.phase q.state.position q.state.velocity - Spec.phase q'.state.position q'.state.velocity‖ ≤ C * η ^ 4 ∧
        (t = 0 → q.state.epoch = p.state.epoch ∧
          ‖Spec.phase q.state.position q.state.velocity - Spec.phase p.state.position p.state.velocity‖ ≤
            C * η ^ 4) := by
  obtain ⟨C, d, hd, H⟩ := C167_routes p hoff y a b lo hi hy hlo hhi hm hr L hL
  refine ⟨2 * |C|, d, hd, fun η e0 hη t ts ts' l l' h1 h2 h3 h4 => ?_⟩
  have hst : ‖Spec.phase p.state.position p.state.velocity - y 0‖ ≤ 0 := by rw [hy.start]; simp
  have V := (H 0 h0 p (plusDays_zero _).symm hoff hsrp hpert 0 hd hst η e0 hη).1
  obtain ⟨q, a1, a2, -, a4⟩ := V _ _ h1 h2
  obtain ⟨q', b1, b2, -, b4⟩ := V _ _ h3 h4
  rw [zero_add, List.getLastD_concat] at a4 b4
  rw [List.getLastD_concat] at a2 b2
  have hC : C * η ^ 4 ≤ |C| * η ^ 4 := by gcongr; exact le_abs_self C
  have hp : 0 ≤ |C| * η ^ 4 := by positivity
  refine ⟨q, q', a1, b1, a2, b2.trans a2.symm, ?_, fun ht => ⟨?_, ?_⟩⟩
  · have := norm_sub_le_norm_sub_add_norm_sub (Spec.phase q.state.position q.state.velocity) (y t)
      (Spec.phase q'.state.position q'.state.velocity)
    rw [norm_sub_rev (y t)] at this
    linarith
  · rw [a2, ht, plusDays_zero]
  · rw [ht, hy.start] at a4
    linarith

/-! ## the hypotheses are met -/

/-- some of the flight of the geosynchronous satellite, before and after its epoch, is in the scope of the theorems -/
theorem geoNoon_flight : ∃ (y : ℝ → Spec.Phase) (a b S : ℝ), 0 < S ∧ geoNoon.Trajectory y a b ∧ a < -S ∧ S < b ∧
    (∀ s ∈ Set.Icc (-S) S, ∀ k : ℤ, geoNoon.state.epoch.value + s / 86400 - 69.184 / 86400 ≠ k) ∧
    ∀ s ∈ Set.Icc (-S) S, ∀ r v, y s = Spec.phase r v → r.magnitude ≤ 350000 ∧
      ∀ z, PositionConvert.gcrfToItrf r (geoNoon.state.epoch.plusDays (s / 86400)) ≠ .ok ⟨0, 0, z⟩ := by
  obtain ⟨a, b, c⟩ := geoNoon_meets
  obtain ⟨⟨y, l, u, hy⟩, -⟩ := C95_order geoNoon rfl rfl (.inl rfl) a b c
  obtain ⟨r, v, T, d, -, -, -, hd⟩ := hy.motion 0 hy.before hy.after
  obtain ⟨e, he, hball⟩ := Metric.continuousAt_iff.mp hd.continuousAt 100 (by norm_num)
  obtain ⟨S, hS⟩ : ∃ S, S = min (min (e / 2) (min (u / 2) (-l / 2))) 3600 := ⟨_, rfl⟩
  have hu := hy.after
  have hl := hy.before
  have S0 : 0 < S := by
    rw [hS]; exact lt_min (lt_min (by linarith) (lt_min (by linarith) (by linarith))) (by norm_num)
  have S1 : S ≤ e / 2 := by rw [hS]; exact (min_le_left _ _).trans (min_le_left _ _)
  have S2 : S ≤ u / 2 := by
    rw [hS]; exact (min_le_left _ _).trans ((min_le_right _ _).trans (min_le_left _ _))
  have S4 : S ≤ -l / 2 := by
    rw [hS]; exact (min_le_left _ _).trans ((min_le_right _ _).trans (min_le_right _ _))
  have S3 : S ≤ 3600 := by rw [hS]; exact min_le_right _ _
  have hseg : ∀ s ∈ Set.Icc (-S) S, |s| ≤ S := fun s hs => abs_le.mpr hs
  refine ⟨y, l, u, S, S0, hy, by linarith, by linarith, fun s hs => (geoNoon_day ((hseg s hs).trans S3)).1,
    fun s hs r v hrv => ?_⟩
  have hn := hball (x := s) (by rw [Real.dist_eq, sub_zero]; linarith [hseg s hs])
  rw [hrv, hy.start, Prod.dist_eq, max_lt_iff] at hn
  have h3 := fun i => (dist_le_pi_dist (Spec.phase r v).1
    (Spec.phase geoNoon.state.position geoNoon.state.velocity).1 i).trans_lt hn.1
  refine geoNoon_near ?_ ?_ ?_ (geoNoon_day ((hseg s hs).trans S3)).2
  · exact h3 0
  · have := h3 1
    rw [Real.dist_eq] at this
    have e0 : (Spec.phase geoNoon.state.position geoNoon.state.velocity).1 1 = 0 := rfl
    rw [e0, sub_zero] at this
    exact this
  · have := h3 2
    rw [Real.dist_eq] at this
    have e0 : (Spec.phase geoNoon.state.position geoNoon.state.velocity).1 2 = 0 := rfl
    rw [e0, sub_zero] at this
    exact this

/-- the satellite is sent ahead, past its start to an earlier time, and back -/
example : ∃ C d : ℝ, 0 < d ∧ ∀ η, 0 < η → η < d → ∃ q,
    RK4.visit ([η, 0, -η, 0].map fun t => geoNoon.state.epoch.plusDays (t / 86400)) geoNoon = (.ok (), q) ∧
    q.state.epoch = geoNoon.state.epoch ∧
    ‖Spec.phase q.state.position q.state.velocity -
      Spec.phase geoNoon.state.position geoNoon.state.velocity‖ ≤ C * η ^ 4 := by
  obtain ⟨y, a, b, S, hS, hy, h1, h2, h3, h4⟩ := geoNoon_flight
  obtain ⟨C, d, hd, H⟩ := C167_agree geoNoon rfl rfl rfl y a b (-S) S hy h1 ⟨by linarith, hS.le⟩ h2 h3 h4 4 (by norm_num)
  refine ⟨C, min d (min S 1), lt_min hd (lt_min hS one_pos), fun η h0 hη => ?_⟩
  rw [lt_min_iff, lt_min_iff] at hη
  obtain ⟨g1, g2, g3⟩ := hη
  have R : Spec.Route (Set.Icc (-S) S) η 0 ([η, 0, -η] ++ [0]) _ :=
    .hop (l := _) ⟨by linarith, g2.le⟩ (by simp [abs_of_pos h0]) <|
    .hop ⟨by linarith, hS.le⟩ (by simp [abs_of_pos h0]) <|
    .hop ⟨by linarith, by linarith⟩ (by simp [abs_of_pos h0]) <|
    .hop ⟨by linarith, hS.le⟩ (by simp [abs_of_pos h0]) <| .stay _
  have hl : |η - 0| + (|0 - η| + (|-η - 0| + (|0 - -η| + 0))) ≤ 4 := by
    simp only [sub_zero, zero_sub, abs_neg, neg_neg, abs_of_pos h0]; linarith
  obtain ⟨q, q', c1, -, -, -, -, c6⟩ := H η h0.le g1 0 _ _ _ _ R hl R hl
  exact ⟨q, c1, (c6 rfl).1, (c6 rfl).2⟩

end Openspace
