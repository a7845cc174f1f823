import Verif.Lemmas.Continuation
import Verif.Props.Perturbed

/-!
# C171: the perturbed motion exists, and stays near the two-body motion, for an explicit time
-/

namespace Openspace

open Real Filter Topology
open scoped ContDiff

namespace Existence

/-- a piece of a motion from `s` on -/
structure Leg (p : RK4) (f : ℝ → Spec.Phase → Spec.Phase) (z : ℝ → Spec.Phase) (s t : ℝ) : Prop where
  cont : ContinuousOn z (Set.Ico s t)
  start : (∀ k : ℤ, p.state.epoch.value + s / 86400 - 69.184 / 86400 ≠ k) → HasDerivWithinAt z (f s (z s)) (Set.Ici s) s
  motion : ∀ u ∈ Set.Ioo s t, (∀ k : ℤ, p.state.epoch.value + u / 86400 - 69.184 / 86400 ≠ k) →
    Good p (fun u => f u.1 u.2) (u, z u) ∧ HasDerivAt z (f u (z u)) u

/-- from all points near a given one there are pieces of the same length -/
theorem legs (p : RK4) (f : ℝ → Spec.Phase → Spec.Phase) (hf : Represents p f) (hoff : p.m_dot = 0) (s0 : ℝ)
    (x0 : Spec.Phase) (hhi : (ofFun x0.1).magnitude ≤ 350000)
    (hax : ∀ z, PositionConvert.gcrfToItrf (ofFun x0.1) (p.state.epoch.plusDays (s0 / 86400)) ≠ .ok ⟨0, 0, z⟩) :
    ∃ δ > 0, ∀ᶠ u : ℝ × Spec.Phase in 𝓝 (s0, x0), ∃ z : ℝ → Spec.Phase, z u.1 = u.2 ∧ Leg p f z u.1 (u.1 + δ) := by
  have ex : Spec.phase (ofFun x0.1) (ofFun x0.2) = x0 := by simp only [Spec.phase, toFun_ofFun]
  have fd := fun N => Routes.force_day p f hf hoff s0 (ofFun x0.1) (ofFun x0.2) N hhi hax
  rw [ex] at fd
  have hline : Continuous (fun u : ℝ × Spec.Phase => p.state.epoch.value + u.1 / 86400 - 69.184 / 86400) := by fun_prop
  by_cases hmid : ∀ k : ℤ, p.state.epoch.value + s0 / 86400 - 69.184 / 86400 ≠ k
  · obtain ⟨N, hN⟩ : ∃ N : ℤ, N = ⌊p.state.epoch.value + s0 / 86400 - 69.184 / 86400⌋ := ⟨_, rfl⟩
    obtain ⟨g, sg, eg⟩ := fd N
    have hday : ∀ᶠ u : ℝ × Spec.Phase in 𝓝 (s0, x0), Spec.utcDay (p.state.epoch.plusDays (u.1 / 86400)) = N := by
      have h1 : (N : ℝ) < p.state.epoch.value + s0 / 86400 - 69.184 / 86400 :=
        lt_of_le_of_ne (by rw [hN]; exact Int.floor_le _) (fun h => hmid N h.symm)
      have h2 : p.state.epoch.value + s0 / 86400 - 69.184 / 86400 < N + 1 := by rw [hN]; exact Int.lt_floor_add_one _
      filter_upwards [hline.continuousAt.eventually (Ioo_mem_nhds h1 h2)] with u hu
      rw [Spec.utcDay, Int.floor_eq_iff]
      exact ⟨hu.1.le, hu.2⟩
    obtain ⟨δ, δ0, hδ⟩ := solve_near (sg.of_le (m := 1) (by exact_mod_cast le_top)) (hday.and eg)
    refine ⟨δ, δ0, ?_⟩
    filter_upwards [hδ] with u hu
    obtain ⟨z, z0, hz⟩ := hu
    have all : ∀ t ∈ Set.Ioo (u.1 - δ) (u.1 + δ), Good p (fun u => f u.1 u.2) (t, z t) ∧ HasDerivAt z (f t (z t)) t := by
      intro t ht
      obtain ⟨⟨h1, h2⟩, h3⟩ := hz t ht
      obtain ⟨h4, h5⟩ := h2 h1
      refine ⟨h4, ?_⟩
      have h5' : f t (z t) = g (t, z t) := h5
      rw [h5']; exact h3
    exact ⟨z, z0, fun t ht => (all t ⟨by linarith [ht.1], ht.2⟩).2.continuousAt.continuousWithinAt,
      fun _ => (all u.1 ⟨by linarith, by linarith⟩).2.hasDerivWithinAt,
      fun t ht _ => all t ⟨by linarith [ht.1], ht.2⟩⟩
  · push Not at hmid
    obtain ⟨k, hk⟩ := hmid
    obtain ⟨gL, sL, eL⟩ := fd (k - 1)
    obtain ⟨gR, sR, eR⟩ := fd k
    have hday : ∀ u : ℝ, s0 - 86400 < u → u < s0 + 86400 →
        (u < s0 → Spec.utcDay (p.state.epoch.plusDays (u / 86400)) = k - 1) ∧
        (s0 ≤ u → Spec.utcDay (p.state.epoch.plusDays (u / 86400)) = k) := by
      intro u h1 h2
      simp only [Spec.utcDay, Epoch.plusDays, Int.floor_eq_iff]
      push_cast
      rw [← hk]
      exact ⟨fun h => ⟨by linarith, by linarith⟩, fun h => ⟨by linarith, by linarith⟩⟩
    obtain ⟨δR, δR0, hR⟩ := solve_near (sR.of_le (m := 1) (by exact_mod_cast le_top)) eR
    obtain ⟨δL, δL0, hL⟩ := solve_near (sL.of_le (m := 1) (by exact_mod_cast le_top)) (eL.and hR)
    obtain ⟨δ, hδ⟩ : ∃ δ, δ = min (min δL δR) 80000 := ⟨_, rfl⟩
    have δ0 : 0 < δ := by rw [hδ]; exact lt_min (lt_min δL0 δR0) (by norm_num)
    have δ1 : δ ≤ δL := by rw [hδ]; exact (min_le_left _ _).trans (min_le_left _ _)
    have δ2 : δ ≤ δR := by rw [hδ]; exact (min_le_left _ _).trans (min_le_right _ _)
    have δ3 : δ ≤ 80000 := by rw [hδ]; exact min_le_right _ _
    have near : ∀ᶠ u : ℝ × Spec.Phase in 𝓝 (s0, x0), u.1 ∈ Set.Ioo (s0 - min δ 1) (s0 + min δ 1) :=
      continuous_fst.continuousAt.eventually (Ioo_mem_nhds (by linarith [lt_min δ0 one_pos])
        (by linarith [lt_min δ0 one_pos]))
    refine ⟨δ, δ0, ?_⟩
    -- the motion on the day that begins at `s0`
    have right : ∀ u : ℝ × Spec.Phase, s0 ≤ u.1 → u.1 < s0 + 1 → (∃ z : ℝ → Spec.Phase, z u.1 = u.2 ∧
        ∀ t ∈ Set.Ioo (u.1 - δR) (u.1 + δR), ((t, z t) : ℝ × Spec.Phase) ∈
          {u | Spec.utcDay (p.state.epoch.plusDays (u.1 / 86400)) = k → Good p (fun u => f u.1 u.2) u ∧ f u.1 u.2 = gR u} ∧
          HasDerivAt z (gR (t, z t)) t) →
        ∃ z : ℝ → Spec.Phase, z u.1 = u.2 ∧ ContinuousAt z u.1 ∧ HasDerivWithinAt z (f u.1 (z u.1)) (Set.Ici u.1) u.1 ∧
          ∀ t ∈ Set.Ioo u.1 (u.1 + δ), Good p (fun u => f u.1 u.2) (t, z t) ∧ HasDerivAt z (f t (z t)) t := by
      intro u hu hu1 h
      obtain ⟨z, z0, hz⟩ := h
      have all : ∀ t ∈ Set.Ico u.1 (u.1 + δ), Good p (fun u => f u.1 u.2) (t, z t) ∧ HasDerivAt z (f t (z t)) t := by
        intro t ht
        obtain ⟨h1, h2⟩ := hz t ⟨by linarith [ht.1], by linarith [ht.2]⟩
        obtain ⟨h3, h4⟩ := h1 ((hday t (by linarith [ht.1]) (by linarith [ht.2])).2 (hu.trans ht.1))
        refine ⟨h3, ?_⟩
        have h4' : f t (z t) = gR (t, z t) := h4
        rw [h4']; exact h2
      have h0 := all u.1 ⟨le_rfl, by linarith⟩
      exact ⟨z, z0, h0.2.continuousAt, h0.2.hasDerivWithinAt, fun t ht => all t ⟨ht.1.le, ht.2⟩⟩
    filter_upwards [hR, hL, near] with u uR uL un
    have un1 : s0 - δ < u.1 := by linarith [un.1, min_le_left δ 1]
    have un2 : u.1 < s0 + 1 := by linarith [un.2, min_le_right δ 1]
    rcases lt_or_ge u.1 s0 with h | h
    · obtain ⟨zL, zL0, hzL⟩ := uL
      have at0 := hzL s0 ⟨by linarith, by linarith⟩
      obtain ⟨zR, zR0, zRc, -, hzR⟩ := right (s0, zL s0) le_rfl (by linarith) at0.1.2
      simp only at zR0 zRc hzR
      obtain ⟨z, hz⟩ : ∃ z : ℝ → Spec.Phase, z = fun t => if t ≤ s0 then zL t else zR t := ⟨_, rfl⟩
      have z1 : ∀ t ≤ s0, z t = zL t := fun t ht => by rw [hz]; exact if_pos ht
      have z2 : ∀ t, s0 ≤ t → z t = zR t := fun t ht => by
        rcases ht.eq_or_lt with rfl | h'
        · rw [z1 _ le_rfl, zR0]
        · rw [hz]; exact if_neg (not_le.mpr h')
      have before : ∀ t ∈ Set.Ico u.1 s0, Good p (fun u => f u.1 u.2) (t, z t) ∧ HasDerivAt z (f t (z t)) t := by
        intro t ht
        obtain ⟨⟨h1, -⟩, h2⟩ := hzL t ⟨by linarith [ht.1], by linarith [ht.2]⟩
        obtain ⟨h3, h4⟩ := h1 ((hday t (by linarith [ht.1]) (by linarith [ht.2])).1 ht.2)
        rw [z1 t ht.2.le]
        refine ⟨h3, ?_⟩
        have h4' : f t (zL t) = gL (t, zL t) := h4
        rw [h4']
        refine h2.congr_of_eventuallyEq ?_
        filter_upwards [gt_mem_nhds ht.2] with x hx
        exact z1 x (le_of_lt hx)
      have after : ∀ t ∈ Set.Ioo s0 (u.1 + δ), Good p (fun u => f u.1 u.2) (t, z t) ∧ HasDerivAt z (f t (z t)) t := by
        intro t ht
        obtain ⟨h1, h2⟩ := hzR t ⟨ht.1, by linarith [ht.2]⟩
        rw [z2 t ht.1.le]
        refine ⟨h1, h2.congr_of_eventuallyEq ?_⟩
        filter_upwards [lt_mem_nhds ht.1] with x hx
        exact z2 x (le_of_lt hx)
      refine ⟨z, by rw [z1 _ h.le, zL0], fun t ht => ?_, fun _ => (before u.1 ⟨le_rfl, h⟩).2.hasDerivWithinAt,
        fun t ht hm => ?_⟩
      · rcases lt_trichotomy t s0 with h' | h' | h'
        · exact (before t ⟨ht.1, h'⟩).2.continuousAt.continuousWithinAt
        · rw [h']
          refine ContinuousAt.continuousWithinAt ?_
          rw [continuousAt_iff_continuous_left_right]
          exact ⟨at0.2.continuousAt.continuousWithinAt.congr (fun x hx => z1 x hx) (z1 _ le_rfl),
            zRc.continuousWithinAt.congr (fun x hx => z2 x hx) (z2 _ le_rfl)⟩
        · exact (after t ⟨h', ht.2⟩).2.continuousAt.continuousWithinAt
      · rcases lt_trichotomy t s0 with h' | h' | h'
        · exact before t ⟨ht.1.le, h'⟩
        · exact absurd (by rw [h']; exact hk) (hm k)
        · exact after t ⟨h', ht.2⟩
    · obtain ⟨z, z0, zc, zd, hz⟩ := right u h un2 uR
      refine ⟨z, z0, fun t ht => ?_, fun _ => zd, fun t ht _ => hz t ht⟩
      rcases ht.1.eq_or_lt with h' | h'
      · rw [← h']; exact zc.continuousWithinAt
      · exact (hz t ⟨h', ht.2⟩).2.continuousAt.continuousWithinAt

/-- the same length will do for all points of a compact set -/
theorem legs_compact (p : RK4) (f : ℝ → Spec.Phase → Spec.Phase) (hf : Represents p f) (hoff : p.m_dot = 0)
    {K : Set (ℝ × Spec.Phase)} (hK : IsCompact K) (hgood : ∀ u ∈ K, (ofFun u.2.1).magnitude ≤ 350000 ∧
      ∀ z, PositionConvert.gcrfToItrf (ofFun u.2.1) (p.state.epoch.plusDays (u.1 / 86400)) ≠ .ok ⟨0, 0, z⟩) :
    ∃ δ > 0, ∀ u ∈ K, ∃ z : ℝ → Spec.Phase, z u.1 = u.2 ∧ Leg p f z u.1 (u.1 + δ) := by
  refine hK.induction_on (p := fun S => ∃ δ > 0, ∀ u ∈ S, ∃ z : ℝ → Spec.Phase, z u.1 = u.2 ∧ Leg p f z u.1 (u.1 + δ))
    ⟨1, one_pos, fun u hu => absurd hu (Set.notMem_empty u)⟩ ?_ ?_ ?_
  · rintro S S' hS ⟨δ, h0, h⟩
    exact ⟨δ, h0, fun u hu => h u (hS hu)⟩
  · rintro S S' ⟨δ, h0, h⟩ ⟨δ', h0', h'⟩
    have short : ∀ {z : ℝ → Spec.Phase} {s t t' : ℝ}, t' ≤ t → Leg p f z s t → Leg p f z s t' := fun hle hl =>
      ⟨hl.cont.mono (Set.Ico_subset_Ico_right hle), hl.start, fun u hu => hl.motion u ⟨hu.1, by linarith [hu.2]⟩⟩
    refine ⟨min δ δ', lt_min h0 h0', fun u hu => ?_⟩
    rcases hu with hu | hu
    · obtain ⟨z, z0, hz⟩ := h u hu
      exact ⟨z, z0, short (by linarith [min_le_left δ δ']) hz⟩
    · obtain ⟨z, z0, hz⟩ := h' u hu
      exact ⟨z, z0, short (by linarith [min_le_right δ δ']) hz⟩
  · intro u hu
    obtain ⟨g1, g2⟩ := hgood u hu
    obtain ⟨δ, h0, h⟩ := legs p f hf hoff u.1 u.2 g1 g2
    exact ⟨_, mem_nhdsWithin_of_mem_nhds h, δ, h0, fun v hv => hv⟩

/-- a motion that, wherever it exists, stays in a compact set of points at which the force law can be evaluated, exists for
all the time -/
theorem flight_extends (p : RK4) (hoff : p.m_dot = 0) {K : Set (ℝ × Spec.Phase)} (hK : IsCompact K)
    (hgood : ∀ u ∈ K, (ofFun u.2.1).magnitude ≤ 350000 ∧
      ∀ z, PositionConvert.gcrfToItrf (ofFun u.2.1) (p.state.epoch.plusDays (u.1 / 86400)) ≠ .ok ⟨0, 0, z⟩) {T : ℝ}
    (h0 : ∃ y a b, p.Flight y a b)
    (hstay : ∀ y a b, p.Flight y a b → ∀ s ∈ Set.Icc 0 T, s < b → (s, y s) ∈ K) :
    ∃ y a b, p.Flight y a b ∧ T < b := by
  obtain ⟨f, hf⟩ := exists_represents p
  obtain ⟨δ, δ0, hδ⟩ := legs_compact p f hf hoff hK hgood
  have grow : ∀ n : ℕ, ∃ y a b, p.Flight y a b ∧ (T < b ∨ n * (δ / 2) < b) := by
    intro n
    induction n with
    | zero =>
      obtain ⟨y, a, b, hy⟩ := h0
      exact ⟨y, a, b, hy, .inr (by simpa using hy.after)⟩
    | succ n ih =>
      obtain ⟨y, a, b, hy, hb⟩ := ih
      rcases hb with hb | hb
      · exact ⟨y, a, b, hy, .inl hb⟩
      by_cases hT : T < b
      · exact ⟨y, a, b, hy, .inl hT⟩
      rw [not_lt] at hT
      obtain ⟨s, hs⟩ : ∃ s, s = max (b - δ / 2) (b / 2) := ⟨_, rfl⟩
      have hb0 := hy.after
      have s1 : b - δ / 2 ≤ s := by rw [hs]; exact le_max_left _ _
      have s2 : b / 2 ≤ s := by rw [hs]; exact le_max_right _ _
      have s3 : s < b := by rw [hs]; exact max_lt (by linarith) (by linarith)
      obtain ⟨x, x0, hx⟩ := hδ (s, y s) (hstay y a b hy s ⟨by linarith, by linarith⟩ s3)
      simp only at x0 hx
      obtain ⟨z, hz⟩ : ∃ z : ℝ → Spec.Phase, z = fun t => if t ≤ s then y t else x t := ⟨_, rfl⟩
      have z1 : ∀ t ≤ s, z t = y t := fun t ht => by rw [hz]; exact if_pos ht
      have z2 : ∀ t, s ≤ t → z t = x t := fun t ht => by
        rcases ht.eq_or_lt with rfl | h'
        · rw [z1 _ le_rfl, x0]
        · rw [hz]; exact if_neg (not_le.mpr h')
      have as : a < s := by linarith [hy.before]
      refine ⟨z, a, s + δ, ⟨hy.before, by linarith, by rw [z1 0 (by linarith)]; exact hy.start, ?_, ?_⟩, .inr (by
        push_cast; linarith)⟩
      · intro t ht1 ht2
        rcases lt_trichotomy t s with h' | h' | h'
        · refine (hy.cont t ht1 (by linarith)).congr_of_eventuallyEq ?_
          filter_upwards [gt_mem_nhds h'] with u hu
          exact z1 u (le_of_lt hu)
        · rw [h', continuousAt_iff_continuous_left_right]
          refine ⟨(hy.cont s as s3).continuousWithinAt.congr (fun u hu => z1 u hu) (z1 _ le_rfl), ?_⟩
          have hc : ContinuousWithinAt x (Set.Ici s) s := (hx.cont s ⟨le_rfl, by linarith⟩).mono_of_mem_nhdsWithin
            (Ico_mem_nhdsGE (by linarith))
          exact hc.congr (fun u hu => z2 u hu) (z2 _ le_rfl)
        · have hc : ContinuousAt x t := (hx.cont t ⟨h'.le, ht2⟩).continuousAt (Ico_mem_nhds h' ht2)
          refine hc.congr_of_eventuallyEq ?_
          filter_upwards [lt_mem_nhds h'] with u hu
          exact z2 u (le_of_lt hu)
      · intro t ht1 ht2 hm
        rcases lt_trichotomy t s with h' | h' | h'
        · obtain ⟨r, v, T', d, c1, c2, c3, c4⟩ := hy.motion t ht1 (by linarith) hm
          refine ⟨r, v, T', d, by rw [z1 t h'.le]; exact c1, c2, c3, c4.congr_of_eventuallyEq ?_⟩
          filter_upwards [gt_mem_nhds h'] with u hu
          exact z1 u (le_of_lt hu)
        · rw [h'] at hm ⊢
          obtain ⟨r, v, T', d, c1, c2, c3, c4⟩ := hy.motion s as s3 hm
          refine ⟨r, v, T', d, by rw [z1 s le_rfl]; exact c1, c2, c3, ?_⟩
          have hl : HasDerivWithinAt z (Spec.phase d.1 d.2) (Set.Iic s) s :=
            c4.hasDerivWithinAt.congr (fun u hu => z1 u hu) (z1 _ le_rfl)
          have hr : HasDerivWithinAt z (Spec.phase d.1 d.2) (Set.Ici s) s := by
            have := hx.start hm
            rw [x0, c1, hf s r v T' d c2 c3] at this
            exact this.congr (fun u hu => z2 u hu) (z2 _ le_rfl)
          have := hl.union hr
          rwa [Set.Iic_union_Ici, hasDerivWithinAt_univ] at this
        · obtain ⟨⟨T', d, c1, c2, c3⟩, c4⟩ := hx.motion t ⟨h', ht2⟩ hm
          simp only at c1 c2 c3
          refine ⟨ofFun (x t).1, ofFun (x t).2, T', d, by rw [z2 t h'.le]; simp only [Spec.phase, toFun_ofFun], c1, c3, ?_⟩
          rw [c2] at c4
          refine c4.congr_of_eventuallyEq ?_
          filter_upwards [lt_mem_nhds h'] with u hu
          exact z2 u (le_of_lt hu)
  obtain ⟨n, hn⟩ := exists_nat_gt (T / (δ / 2))
  rw [div_lt_iff₀ (by linarith)] at hn
  obtain ⟨y, a, b, hy, hb⟩ := grow n
  exact ⟨y, a, b, hy, hb.elim id (fun h => hn.trans h)⟩

/-- how far the bound of the drift grows -/
theorem drift_mono {w ε s T : ℝ} (hw : 0 < w) (hε : 0 ≤ ε) (h0 : 0 ≤ s) (h : s ≤ T) :
    ε / w ^ 2 * (exp (w * s) - 1 - w * s) ≤ ε / w ^ 2 * (exp (w * T) - 1 - w * T) ∧
    ε / w * (exp (w * s) - 1) ≤ ε / w * (exp (w * T) - 1) := by
  have h1 : w * s ≤ w * T := mul_le_mul_of_nonneg_left h hw.le
  have h2 : 0 ≤ w * s := mul_nonneg hw.le h0
  have h3 : exp (w * T) = exp (w * s) * exp (w * T - w * s) := by rw [← Real.exp_add]; ring_nf
  have h4 := Real.add_one_le_exp (w * T - w * s)
  have h5 := Real.one_le_exp h2
  refine ⟨mul_le_mul_of_nonneg_left ?_ (by positivity), mul_le_mul_of_nonneg_left ?_ (by positivity)⟩
  · nlinarith
  · have := Real.exp_le_exp.mpr h1
    linarith

/-- as long as it exists, the perturbed motion stays within the bound of the drift -/
theorem stays (p : RK4) (hoff : p.m_dot = 0) (T lo hi m : ℝ) (hlo : 5000 ≤ lo) (hhi : hi ≤ 300000)
    (k : ℝ → State) (hk : Spec.TwoBody Earth.MU Set.univ (fun t => (k t).position.toE) (fun t => (k t).velocity.toE))
    (hk1 : (k 0).position = p.state.position) (hk2 : (k 0).velocity = p.state.velocity)
    (htube : ∀ s ∈ Set.Icc 0 T, ∀ r : Vec3, (r.minus (k s).position).magnitude ≤ m → lo ≤ r.magnitude ∧
      r.magnitude ≤ hi ∧ ∀ z, PositionConvert.gcrfToItrf r (p.state.epoch.plusDays (s / 86400)) ≠ .ok ⟨0, 0, z⟩)
    (w ε : ℝ) (hw : w = √(2 * Earth.MU / lo ^ 3)) (hε : ε = Spec.perturbation lo hi)
    (hm : ε / w ^ 2 * (exp (w * T) - 1 - w * T) < m) (hε0 : 0 ≤ ε) {y : ℝ → Spec.Phase} {a b : ℝ} (hy : p.Flight y a b) :
    ∀ s ∈ Set.Icc 0 T, s < b → ∀ r v, y s = Spec.phase r v →
      (v.minus (k s).velocity).magnitude ≤ ε / w * (exp (w * s) - 1) ∧
      (r.minus (k s).position).magnitude ≤ ε / w ^ 2 * (exp (w * s) - 1 - w * s) := by
  have hM : 0 < Earth.MU := by norm_num [Earth.MU]
  have hw0 : 0 < w := by rw [hw]; have : 0 < lo := by linarith
                         positivity
  have zero : (⟨0, 0, 0⟩ : Vec3).magnitude = 0 := by simp [Vec3.magnitude, sqrtNN]
  obtain ⟨φ, hφ⟩ : ∃ φ : ℝ → ℝ, φ = fun t => ((ofFun (y t).1).minus (k t).position).magnitude := ⟨_, rfl⟩
  have of : ∀ {t : ℝ} {r v : Vec3}, y t = Spec.phase r v → φ t = (r.minus (k t).position).magnitude := fun h => by
    rw [hφ]; simp only [h, Spec.phase, ofFun_toFun]
  have split : ∀ s, ∃ r v, y s = Spec.phase r v := fun s =>
    ⟨ofFun (y s).1, ofFun (y s).2, by simp only [Spec.phase, toFun_ofFun]⟩
  have cφ : ∀ t, a < t → t < b → ContinuousAt φ t := fun t h1 h2 => by
    have e : φ = fun t => ‖Perturbed.pos (y t) - (k t).position.toE‖ := by
      funext t
      obtain ⟨r, v, hrv⟩ := split t
      rw [of hrv, hrv, Perturbed.pos_phase, ← toE_minus, Vec3.norm_toE]
    rw [e]
    exact ((Perturbed.pos_cont.continuousAt.comp (hy.cont t h1 h2)).sub (hk.velocity t trivial).continuousAt).norm
  -- the drift, while the motion is in the tube
  have dr : ∀ S ≤ T, S < b → (∀ t ∈ Set.Icc 0 S, φ t ≤ m) → ∀ s ∈ Set.Icc 0 S, ∀ r v, y s = Spec.phase r v →
      (v.minus (k s).velocity).magnitude ≤ ε / w * (exp (w * s) - 1) ∧
      (r.minus (k s).position).magnitude ≤ ε / w ^ 2 * (exp (w * s) - 1 - w * s) := by
    intro S hST hSb h
    refine perturbed_drift p hoff y a b S lo hi hy hSb hlo hhi (fun s hs r v hrv => ?_) k hk hk1 hk2 (fun s hs => ?_) w ε hw hε
    · have := h s hs
      rw [of hrv] at this
      exact htube s ⟨hs.1, hs.2.trans hST⟩ r this
    · refine (htube s ⟨hs.1, hs.2.trans hST⟩ (k s).position ?_).1
      rw [show (k s).position.minus (k s).position = ⟨0, 0, 0⟩ by ext <;> simp [Vec3.minus], zero]
      have h0 : 0 ≤ φ s := by rw [hφ]; exact Vec3.magnitude_nonneg _
      exact h0.trans (h s hs)
  intro S hS hSb
  suffices hin : ∀ t ∈ Set.Icc 0 S, φ t ≤ m from dr S hS.2 hSb hin S ⟨hS.1, le_rfl⟩
  by_contra hout
  push Not at hout
  obtain ⟨t0, ht0, hgt⟩ := hout
  have cS : ContinuousOn φ (Set.Icc 0 S) := fun t ht =>
    (cφ t (by linarith [hy.before, ht.1]) (by linarith [ht.2])).continuousWithinAt
  have hcomp : IsCompact (Set.Icc 0 S ∩ φ ⁻¹' Set.Ici m) :=
    isCompact_Icc.of_isClosed_subset (cS.preimage_isClosed_of_isClosed isClosed_Icc isClosed_Ici) Set.inter_subset_left
  obtain ⟨s1, ⟨hs1, hms1⟩, hleast⟩ := hcomp.exists_isLeast ⟨t0, ht0, hgt.le⟩
  have hms1' : m ≤ φ s1 := hms1
  have before : ∀ t ∈ Set.Icc 0 s1, t < s1 → φ t < m := by
    intro t ht hlt
    by_contra hge
    rw [not_lt] at hge
    exact absurd (hleast ⟨⟨ht.1, ht.2.trans hs1.2⟩, hge⟩) (not_le.mpr hlt)
  have hφ0 : φ 0 = 0 := by
    rw [of hy.start, hk1, show p.state.position.minus p.state.position = ⟨0, 0, 0⟩ by ext <;> simp [Vec3.minus], zero]
  have hm0 : 0 < m := by
    refine lt_of_le_of_lt ?_ hm
    have := (drift_mono hw0 hε0 le_rfl (hs1.1.trans (hs1.2.trans hS.2))).1
    simpa using this
  have s1pos : 0 < s1 := by
    rcases hs1.1.eq_or_lt with h | h
    · rw [← h, hφ0] at hms1'
      linarith
    · exact h
  have bound : ∀ t ∈ Set.Ioo 0 s1, φ t ≤ ε / w ^ 2 * (exp (w * T) - 1 - w * T) := by
    intro t ht
    obtain ⟨r, v, hrv⟩ := split t
    rw [of hrv]
    refine ((dr t (by linarith [ht.2, hs1.2, hS.2]) (by linarith [ht.2, hs1.2]) (fun t' ht' =>
      (before t' ⟨ht'.1, ht'.2.trans ht.2.le⟩ (lt_of_le_of_lt ht'.2 ht.2)).le) t ⟨ht.1.le, le_rfl⟩ r v hrv).2).trans ?_
    exact (drift_mono hw0 hε0 ht.1.le (by linarith [ht.2, hs1.2, hS.2])).1
  have lim : Tendsto φ (𝓝[<] s1) (𝓝 (φ s1)) :=
    (cφ s1 (by linarith [hy.before]) (by linarith [hs1.2])).tendsto.mono_left nhdsWithin_le_nhds
  have := le_of_tendsto lim (by filter_upwards [Ioo_mem_nhdsLT s1pos] with t ht using bound t ht)
  linarith

/-- the points of an orbit keep their distance from the axis -/
theorem orbit_axial (el : ClassicalElements) (E : ℝ) :
    (orbitPos el E).magnitude * |cos el.inclination| ≤ (orbitPos el E).axial := by
  obtain ⟨v, hv⟩ : ∃ v, v = orbitPos el E := ⟨_, rfl⟩
  have hW : v.dot el.dirW = 0 := by
    rw [hv, orbitPos, ← el.dirP_cross_dirQ]
    simp only [Vec3.dot, Vec3.plus, Vec3.scaled, Vec3.cross]
    ring
  rw [← hv]
  simp only [Vec3.dot, ClassicalElements.dirW] at hW
  refine abs_le_of_sq_le_sq' (a := v.magnitude * |cos el.inclination|) ?_ v.axial_nonneg |>.2
  rw [mul_pow, sq_abs, v.magnitude_sq_axial, v.axial_sq]
  have h1 := sin_sq_add_cos_sq el.raan
  have h2 := sin_sq_add_cos_sq el.inclination
  have h3 : (v.y * cos el.raan - v.x * sin el.raan) ^ 2 ≤ v.x ^ 2 + v.y ^ 2 := by
    have : (v.y * cos el.raan - v.x * sin el.raan) ^ 2 + (v.x * cos el.raan + v.y * sin el.raan) ^ 2 =
      v.x ^ 2 + v.y ^ 2 := by linear_combination (v.x ^ 2 + v.y ^ 2) * h1
    nlinarith [sq_nonneg (v.x * cos el.raan + v.y * sin el.raan)]
  have h4 : v.z * cos el.inclination = sin el.inclination * (v.y * cos el.raan - v.x * sin el.raan) := by
    linear_combination hW
  have h5 : v.z ^ 2 * cos el.inclination ^ 2 ≤ sin el.inclination ^ 2 * (v.x ^ 2 + v.y ^ 2) := by
    rw [← mul_pow, h4, mul_pow]
    exact mul_le_mul_of_nonneg_left h3 (sq_nonneg _)
  nlinarith

theorem axial_near (r k : Vec3) : k.axial ≤ r.axial + (r.minus k).magnitude := by
  have e : ∀ v : Vec3, v.axial = (⟨v.x, v.y, 0⟩ : Vec3).magnitude := fun v => by
    simp only [Vec3.axial, Vec3.magnitude, sqrtNN]
    congr 1; ring
  have h1 := Vec3.magnitude_plus_le ⟨r.x, r.y, 0⟩ ⟨k.x - r.x, k.y - r.y, 0⟩
  rw [show (⟨r.x, r.y, 0⟩ : Vec3).plus ⟨k.x - r.x, k.y - r.y, 0⟩ = ⟨k.x, k.y, 0⟩ by ext <;> simp [Vec3.plus]] at h1
  rw [e k, e r]
  have h2 : (⟨k.x - r.x, k.y - r.y, 0⟩ : Vec3).magnitude ≤ (r.minus k).magnitude := by
    refine Real.sqrt_le_sqrt ?_
    simp only [Vec3.minus]
    nlinarith [sq_nonneg (r.z - k.z)]
  linarith

/-- points near an orbit that is not too steep are off the axis of the Earth -/
theorem tube {el : ClassicalElements} {E lo hi m : ℝ} (ha : 0 < el.semimajor_axis) (he : 0 ≤ el.eccentricity)
    (he' : el.eccentricity < 1) (hlo : 5000 ≤ lo) (hm : 0 < m) (hper : lo + m ≤ el.semimajor_axis * (1 - el.eccentricity))
    (hapo : el.semimajor_axis * (1 + el.eccentricity) + m ≤ hi) (hinc : 9 * m ≤ (8 * |cos el.inclination| - 1) * lo)
    {r : Vec3} (hr : (r.minus (orbitPos el E)).magnitude ≤ m) {t : Epoch} (ht : |t.julianCenturies| ≤ 5) :
    lo ≤ r.magnitude ∧ r.magnitude ≤ hi ∧ ∀ z, PositionConvert.gcrfToItrf r t ≠ .ok ⟨0, 0, z⟩ := by
  obtain ⟨k, hk⟩ : ∃ k, k = orbitPos el E := ⟨_, rfl⟩
  have hmag : k.magnitude = el.semimajor_axis * (1 - el.eccentricity * cos E) := by
    rw [hk, Gauss.orbitPos_mag ha he he']
  have hax := orbit_axial el E
  rw [← hk] at hr hax
  have c1 : lo + m ≤ k.magnitude := by
    rw [hmag]
    refine hper.trans (mul_le_mul_of_nonneg_left ?_ ha.le)
    nlinarith [Real.cos_le_one E]
  have c2 : k.magnitude + m ≤ hi := by
    have : k.magnitude ≤ el.semimajor_axis * (1 + el.eccentricity) := by
      rw [hmag]
      refine mul_le_mul_of_nonneg_left ?_ ha.le
      nlinarith [Real.neg_one_le_cos E]
    linarith
  have t1 := Vec3.magnitude_plus_le k (r.minus k)
  rw [show k.plus (r.minus k) = r by ext <;> simp [Vec3.plus, Vec3.minus]] at t1
  have t2 := Vec3.magnitude_plus_le r (k.minus r)
  rw [show r.plus (k.minus r) = k by ext <;> simp [Vec3.plus, Vec3.minus], Perturbed.minus_swap] at t2
  have t3 := axial_near r k
  have t4 : |r.z| ≤ |k.z| + m := by
    have h1 := (r.minus k).abs_z_le
    have h2 : r.z = k.z + (r.minus k).z := by simp [Vec3.minus]
    rw [h2]
    exact (abs_add_le _ _).trans (by linarith)
  have t5 := k.abs_z_le
  have hc : 0 < 8 * |cos el.inclination| - 1 := by
    by_contra h
    rw [not_lt] at h
    nlinarith
  have t6 : 9 * m ≤ (8 * |cos el.inclination| - 1) * k.magnitude := by
    refine hinc.trans (mul_le_mul_of_nonneg_left ?_ hc.le)
    linarith
  have t7 : k.magnitude + m ≤ 8 * r.axial := by nlinarith
  exact ⟨by linarith, by linarith, off_axis ht (by linarith) (by linarith)⟩

end Existence

/-- **C171**: a spacecraft without thrust, within five centuries of the year 2000, on an ellipse that is not too steep for
its size (`9 m ≤ (8 |cos i| - 1) lo`), with perigee at least `lo + m ≥ 5000` km and apogee at most `hi - m ≤ 300000` km
from the centre of the Earth, where `m` is above the drift `ε/w² (e^(wT) - 1 - wT)` in `T` seconds: its motion under the
full force law of the library exists for these `T` seconds, and stays between `lo` and `hi` and off the axis. -/
theorem C171_existence (p : RK4) (hoff : p.m_dot = 0) (T lo hi m : ℝ) (hT : 0 ≤ T) (hlo : 5000 ≤ lo)
    (hhi : hi ≤ 300000) (hepoch : ∀ s ∈ Set.Icc 0 T, |(p.state.epoch.plusDays (s / 86400)).julianCenturies| ≤ 5)
    (hb : p.state.velocity.magnitude ^ 2 / 2 < Earth.MU / p.state.position.magnitude)
    (hp : (p.state.position.cross p.state.velocity).x ≠ 0 ∨ (p.state.position.cross p.state.velocity).y ≠ 0)
    (el : ClassicalElements) (hel : ClassicalElements.fromIjk p.state.toState = .ok el)
    (hper : lo + m ≤ el.semimajor_axis * (1 - el.eccentricity))
    (hapo : el.semimajor_axis * (1 + el.eccentricity) + m ≤ hi)
    (hinc : 9 * m ≤ (8 * |cos el.inclination| - 1) * lo)
    (w ε : ℝ) (hw : w = √(2 * Earth.MU / lo ^ 3)) (hε : ε = Spec.perturbation lo hi) (hm0 : 0 < m)
    (hm : ε / w ^ 2 * (exp (w * T) - 1 - w * T) < m) :
    ∃ y a b, p.Flight y a b ∧ T < b ∧ ∀ s ∈ Set.Icc 0 T, ∀ r v, y s = Spec.phase r v → lo ≤ r.magnitude ∧
      r.magnitude ≤ hi ∧ ∀ z, PositionConvert.gcrfToItrf r (p.state.epoch.plusDays (s / 86400)) ≠ .ok ⟨0, 0, z⟩ := by
  have hM : 0 < Earth.MU := by norm_num [Earth.MU]
  have hlo0 : 0 < lo := by linarith
  have hw0 : 0 < w := by rw [hw]; positivity
  have hh : p.state.position.cross p.state.velocity ≠ ⟨0, 0, 0⟩ := by
    intro h; rw [h] at hp; simp at hp
  obtain ⟨k0, hk0, e1, e2⟩ := exists_motion p.state.toState hh hb 0
  obtain ⟨k, hk⟩ : ∃ k : ℝ → State, k = fun t =>
    { p.state.toState with position := (k0 t).position, velocity := (k0 t).velocity } := ⟨_, rfl⟩
  have hkm : Spec.TwoBody Earth.MU Set.univ (fun t => (k t).position.toE) (fun t => (k t).velocity.toE) := by
    rw [hk]; exact hk0
  have hk00 : k 0 = p.state.toState := by rw [hk]; simp only [e1, e2]
  have hpos : ∀ t, ∃ E, (k t).position = orbitPos el E ∧ 0 < el.semimajor_axis ∧ 0 ≤ el.eccentricity ∧
      el.eccentricity < 1 := fun t => by
    obtain ⟨ha, he, he', E, _, _, h, _⟩ := motion_of_elements Set.ordConnected_univ hkm (t := t) trivial
      (t0 := 0) trivial (by rw [hk00]; exact hp) (by rw [hk00]; exact hb) (by rw [hk00]; exact hel)
    exact ⟨E, h, ha, he, he'⟩
  have htube : ∀ s ∈ Set.Icc 0 T, ∀ r : Vec3, (r.minus (k s).position).magnitude ≤ m → lo ≤ r.magnitude ∧
      r.magnitude ≤ hi ∧ ∀ z, PositionConvert.gcrfToItrf r (p.state.epoch.plusDays (s / 86400)) ≠ .ok ⟨0, 0, z⟩ := by
    intro s hs r hr
    obtain ⟨E, h, ha, he, he'⟩ := hpos s
    rw [h] at hr
    exact Existence.tube ha he he' hlo hm0 hper hapo hinc hr (hepoch s hs)
  have hε0 : 0 ≤ ε := by
    obtain ⟨E, h, ha, he, he'⟩ := hpos 0
    have h1 : 0 < hi := by nlinarith
    have h2 : 0 < 356000 - hi := by linarith
    have h3 : 0 < Moon.MU := by norm_num [Moon.MU]
    rw [hε, Spec.perturbation]
    positivity
  have zero : ∀ v : Vec3, (v.minus v).magnitude = 0 := fun v => by
    simp [Vec3.magnitude, sqrtNN, Vec3.minus]
  have hstay := fun (y : ℝ → Spec.Phase) (a b : ℝ) (hy : p.Flight y a b) => Existence.stays p hoff T lo hi m hlo hhi k hkm
    (by rw [hk00]) (by rw [hk00]) htube w ε hw hε hm hε0 hy
  have start := htube 0 ⟨le_rfl, hT⟩ p.state.position (by rw [hk00, zero]; exact hm0.le)
  rw [plusDays_zero] at start
  have ex := C168_exists p hoff (by linarith [start.2.1]) start.2.2
  -- the tube
  obtain ⟨κ, hκ⟩ : ∃ κ : ℝ → Spec.Phase, κ = fun s => Spec.phase (k s).position (k s).velocity := ⟨_, rfl⟩
  have cκ : Continuous κ := by
    rw [hκ, continuous_iff_continuousAt]
    intro s
    have c1 := (PiLp.continuous_ofLp 2 (fun _ : Fin 3 => ℝ)).continuousAt.comp (hkm.velocity s trivial).continuousAt
    have c2 := (PiLp.continuous_ofLp 2 (fun _ : Fin 3 => ℝ)).continuousAt.comp (hkm.attraction s trivial).continuousAt
    exact c1.prodMk c2
  obtain ⟨M, hMd⟩ : ∃ M, M = max m (ε / w * (exp (w * T) - 1)) := ⟨_, rfl⟩
  obtain ⟨K, hK⟩ : ∃ K : Set (ℝ × Spec.Phase), K = {u | u.1 ∈ Set.Icc 0 T ∧ ‖u.2 - κ u.1‖ ≤ M ∧
    ‖Perturbed.pos u.2 - Perturbed.pos (κ u.1)‖ ≤ m} := ⟨_, rfl⟩
  have Kc : IsCompact K := by
    have him : IsCompact ((fun u : ℝ × Spec.Phase => (u.1, κ u.1 + u.2)) '' (Set.Icc 0 T ×ˢ Metric.closedBall 0 M)) :=
      (isCompact_Icc.prod (isCompact_closedBall _ _)).image
        (continuous_fst.prodMk ((cκ.comp continuous_fst).add continuous_snd))
    refine him.of_isClosed_subset ?_ ?_
    · have cp := Perturbed.pos_cont
      have c1 : IsClosed {u : ℝ × Spec.Phase | u.1 ∈ Set.Icc 0 T} := isClosed_Icc.preimage continuous_fst
      have c2 : IsClosed {u : ℝ × Spec.Phase | ‖u.2 - κ u.1‖ ≤ M} :=
        isClosed_le (continuous_snd.sub (cκ.comp continuous_fst)).norm continuous_const
      have c3 : IsClosed {u : ℝ × Spec.Phase | ‖Perturbed.pos u.2 - Perturbed.pos (κ u.1)‖ ≤ m} :=
        isClosed_le ((cp.comp continuous_snd).sub (cp.comp (cκ.comp continuous_fst))).norm continuous_const
      rw [hK]
      exact c1.inter (c2.inter c3)
    · rw [hK]
      rintro u ⟨h1, h2, -⟩
      refine ⟨(u.1, u.2 - κ u.1), ⟨h1, by simpa using h2⟩, ?_⟩
      simp
  have point : ∀ (x : Spec.Phase) (s : ℝ), ‖Perturbed.pos x - Perturbed.pos (κ s)‖ =
      ((ofFun x.1).minus (k s).position).magnitude := fun x s => by
    rw [hκ]
    have : Perturbed.pos x = (ofFun x.1).toE := by simp only [Perturbed.pos, Vec3.toE, toFun_ofFun]
    rw [this, Perturbed.pos_phase, ← toE_minus, Vec3.norm_toE]
  have good : ∀ u ∈ K, (ofFun u.2.1).magnitude ≤ 350000 ∧
      ∀ z, PositionConvert.gcrfToItrf (ofFun u.2.1) (p.state.epoch.plusDays (u.1 / 86400)) ≠ .ok ⟨0, 0, z⟩ := by
    intro u hu
    rw [hK] at hu
    obtain ⟨h1, -, h2⟩ := hu
    rw [point] at h2
    obtain ⟨g1, g2, g3⟩ := htube u.1 h1 _ h2
    exact ⟨by linarith, g3⟩
  have inK : ∀ y a b, p.Flight y a b → ∀ s ∈ Set.Icc 0 T, s < b → (s, y s) ∈ K := by
    intro y a b hy s hs hsb
    have hrv : y s = Spec.phase (ofFun (y s).1) (ofFun (y s).2) := by simp only [Spec.phase, toFun_ofFun]
    obtain ⟨d1, d2⟩ := hstay y a b hy s hs hsb _ _ hrv
    obtain ⟨b1, b2⟩ := Existence.drift_mono hw0 hε0 hs.1 hs.2
    have d3 : ((ofFun (y s).1).minus (k s).position).magnitude ≤ m := by linarith
    have comp : ∀ (v : Vec3) (c : ℝ), v.magnitude ≤ c → ‖v.toFun‖ ≤ c := fun v c h => by
      rw [pi_norm_le_iff_of_nonneg (v.magnitude_nonneg.trans h)]
      intro i
      have := PiLp.norm_apply_le v.toE i
      rw [Vec3.norm_toE] at this
      exact this.trans h
    rw [hK]
    refine ⟨hs, ?_, by rw [point]; exact d3⟩
    rw [hκ, Prod.norm_def]
    refine max_le ?_ ?_
    · refine le_trans (comp ((ofFun (y s).1).minus (k s).position) m d3) (by rw [hMd]; exact le_max_left _ _) |> le_trans (le_of_eq ?_)
      congr 1
      ext i; fin_cases i <;> rfl
    · refine le_trans (comp ((ofFun (y s).2).minus (k s).velocity) _ (d1.trans b2)) (by rw [hMd]; exact le_max_right _ _) |> le_trans (le_of_eq ?_)
      congr 1
      ext i; fin_cases i <;> rfl
  obtain ⟨y, a, b, hy, hTb⟩ := Existence.flight_extends p hoff Kc good ex inK
  refine ⟨y, a, b, hy, hTb, fun s hs r v hrv => htube s hs r ?_⟩
  have d := (hstay y a b hy s hs (by linarith [hs.2]) r v hrv).2
  have := (Existence.drift_mono hw0 hε0 hs.1 hs.2).1
  linarith

/-- **C171**: under the same conditions on the start only, for a propagator without solar radiation pressure and with
perturbations on: `N` equal steps of propagation over these `T` seconds, for all large enough `N`, end within the drift of
the state that `to_ijk` returns for the advanced mean anomaly. -/
theorem C171_propagation (p : RK4) (hsrp : p.state.srp_scalar = 0) (hpert : p.state.use_perturbations = true)
    (hoff : p.m_dot = 0) (T lo hi m : ℝ) (hT : 0 ≤ T) (hlo : 5000 ≤ lo)
    (hhi : hi ≤ 300000) (hepoch : ∀ s ∈ Set.Icc 0 T, |(p.state.epoch.plusDays (s / 86400)).julianCenturies| ≤ 5)
    (hb : p.state.velocity.magnitude ^ 2 / 2 < Earth.MU / p.state.position.magnitude)
    (hp : (p.state.position.cross p.state.velocity).x ≠ 0 ∨ (p.state.position.cross p.state.velocity).y ≠ 0)
    (el : ClassicalElements) (hel : ClassicalElements.fromIjk p.state.toState = .ok el)
    (hper : lo + m ≤ el.semimajor_axis * (1 - el.eccentricity))
    (hapo : el.semimajor_axis * (1 + el.eccentricity) + m ≤ hi)
    (hinc : 9 * m ≤ (8 * |cos el.inclination| - 1) * lo)
    (w ε : ℝ) (hw : w = √(2 * Earth.MU / lo ^ 3)) (hε : ε = Spec.perturbation lo hi) (hm0 : 0 < m)
    (hm : ε / w ^ 2 * (exp (w * T) - 1 - w * T) < m) (k : ℤ) (ma : ℝ)
    (hma : ma = el.mean_anomaly + √(Earth.MU / el.semimajor_axis ^ 3) * T + 2 * π * k)
    (ma1 : -(2 * π) ≤ ma) (ma2 : ma ≤ 2 * π) :
    ∃ s' F, (∀ fuel, F ≤ fuel → ({el with mean_anomaly := ma} : ClassicalElements).toIjk fuel = .ok s') ∧
      ∀ η > 0, ∃ N0, 0 < N0 ∧ ∀ N : ℕ, N0 ≤ N → ∃ q,
        PyM.repeatN N RK4.step { p with step_size := T / N } = (.ok (), q) ∧
        q.state.epoch = p.state.epoch.plusDays (T / 86400) ∧
        (s'.position.minus q.state.position).magnitude ≤ ε / w ^ 2 * (exp (w * T) - 1 - w * T) +
          el.semimajor_axis * (5e-25 / (1 - el.eccentricity)) + η ∧
        (s'.velocity.minus q.state.velocity).magnitude ≤ ε / w * (exp (w * T) - 1) +
          √(Earth.MU / el.semimajor_axis) * (5e-25 / (1 - el.eccentricity) ^ 3) + η := by
  obtain ⟨y, a, b, hy, hTb, hr⟩ := C171_existence p hoff T lo hi m hT hlo hhi hepoch hb hp el hel hper hapo hinc w ε hw
    hε hm0 hm
  obtain ⟨el0, h0, h⟩ := C170_propagation p hsrp hpert hoff y a b T lo hi hy hT hTb hlo hhi hr hb hp w ε hw hε
  cases hel.symm.trans h0
  exact h (by linarith) k ma hma ma1 ma2

/-! ## one hour of the inclined geosynchronous orbit -/

theorem geoTilted_flat {el : ClassicalElements} (h : ClassicalElements.fromIjk geoTilted.state.toState = .ok el) :
    0.98 ≤ |cos el.inclination| := by
  have hr : geoTilted.state.position.magnitude = 42164 := by
    apply Vec3.magnitude_of_dot (by norm_num)
    show (42164 : ℝ) * 42164 + 0 * 0 + 0 * 0 = 42164 ^ 2
    norm_num
  have hv : geoTilted.state.velocity.magnitude ^ 2 = 9.36 := by
    rw [Vec3.magnitude_sq]
    show (0 : ℝ) * 0 + 3 * 3 + 0.6 * 0.6 = 9.36
    norm_num
  obtain ⟨el', E, -, w, h', -, a0, e0, e1, -, -, -, -, -, -, -, hw, hc, hi, -⟩ := fromIjk_bound geoTilted.state.toState
    (fun h => by
      have : (42164 : ℝ) = 0 := congrArg Vec3.x h
      norm_num at this)
    (fun h => by
      have : (0 : ℝ) * 0 - 42164 * 0.6 = 0 := congrArg Vec3.y h
      norm_num at this)
    (by rw [hr, hv]; norm_num [Earth.MU])
  cases h.symm.trans h'
  obtain ⟨c, hcd⟩ : ∃ c, c = √(Earth.MU * (el.semimajor_axis * (1 - el.eccentricity ^ 2))) := ⟨_, rfl⟩
  rw [← hcd] at hc
  have x0 : (0 : ℝ) * 0.6 - 0 * 3 = w.x * c := congrArg Vec3.x hc
  have y0 : (0 : ℝ) * 0 - 42164 * 0.6 = w.y * c := congrArg Vec3.y hc
  have z0 : (42164 : ℝ) * 3 - 0 * 0 = w.z * c := congrArg Vec3.z hc
  have c0 : c ≠ 0 := by rintro rfl; norm_num at z0
  have hx : w.x = 0 := by
    have : w.x * c = 0 := by rw [← x0]; norm_num
    exact (mul_eq_zero.mp this).resolve_right c0
  have hy : w.y = -0.2 * w.z := by
    apply mul_right_cancel₀ c0
    linear_combination -y0 - 0.2 * z0
  have hz : w.z ^ 2 * 1.04 = 1 := by
    simp only [Vec3.dot, hx, hy] at hw
    linarith
  rw [hi, (frame_of_normal hw).2.1]
  refine abs_le_of_sq_le_sq' (a := 0.98) (b := |w.z|) ?_ (abs_nonneg _) |>.2
  rw [sq_abs]; norm_num at hz ⊢; linarith

theorem geoTilted_inclination {el : ClassicalElements} (h : ClassicalElements.fromIjk geoTilted.state.toState = .ok el) :
    1 / 2 ≤ |cos el.inclination| := by
  have := geoTilted_flat h
  norm_num at this ⊢
  linarith

theorem geoTilted_drift {w ε : ℝ} (hw : w = √(2 * Earth.MU / 40000 ^ 3)) (hε : ε = Spec.perturbation 40000 43000) :
    ε / w ^ 2 * (exp (w * 3600) - 1 - w * 3600) < 0.95 := by
  have hw0 : 0 < w := by rw [hw]; exact Real.sqrt_pos.mpr (by norm_num [Earth.MU])
  have hw1 : w ≤ 2e-4 := by
    rw [hw]; exact Real.sqrt_le_iff.mpr ⟨by norm_num, by norm_num [Earth.MU]⟩
  have hε0 : 0 ≤ ε := by rw [hε]; norm_num [Spec.perturbation, Earth.MU, Earth.RADIUS, Moon.MU]
  have hε1 : ε ≤ 7e-8 := by rw [hε]; norm_num [Spec.perturbation, Earth.MU, Earth.RADIUS, Moon.MU]
  have hs0 : 0 ≤ w * 3600 := by positivity
  have hexp := Real.abs_exp_sub_one_sub_id_le (x := w * 3600) (by rw [abs_of_nonneg hs0]; linarith)
  have t1 : ε / w ^ 2 * (exp (w * 3600) - 1 - w * 3600) ≤ ε / w ^ 2 * (w * 3600) ^ 2 :=
    mul_le_mul_of_nonneg_left ((le_abs_self _).trans hexp) (by positivity)
  have t2 : ε / w ^ 2 * (w * 3600) ^ 2 = ε * 3600 ^ 2 := by field_simp
  linarith

/-- its perturbed motion exists for an hour -/
example : ∃ y a b, geoTilted.Flight y a b ∧ 3600 < b := by
  obtain ⟨hb, hp⟩ := geoTilted_bound
  obtain ⟨el, -, -, -, hel, -⟩ := fromIjk_bound geoTilted.state.toState
    (fun h => by
      have : (42164 : ℝ) = 0 := congrArg Vec3.x h
      norm_num at this)
    (fun h => hp (congrArg Vec3.y h)) hb
  obtain ⟨g1, g2, g3, g4⟩ := geoTilted_elements hel
  have gi := geoTilted_inclination hel
  obtain ⟨y, a, b, hy, hT, -⟩ := C171_existence geoTilted rfl 3600 40000 43000 0.95 (by norm_num) (by norm_num)
    (by norm_num) (fun s hs => geoMidnight_centuries (by rw [abs_of_nonneg hs.1]; exact hs.2)) hb (.inr hp) el hel
    (by linarith) (by linarith) (by linarith) _ _ rfl rfl (by norm_num) (geoTilted_drift rfl rfl)
  exact ⟨y, a, b, hy, hT⟩

/-- and an hour of propagation in small steps ends within one kilometre of the state that `to_ijk` returns -/
example : ∃ (s' : State) (N0 : ℕ), 0 < N0 ∧ ∀ N : ℕ, N0 ≤ N → ∃ q,
    PyM.repeatN N RK4.step { geoTilted with step_size := 3600 / N } = (.ok (), q) ∧
    (s'.position.minus q.state.position).magnitude ≤ 1 := by
  obtain ⟨hb, hp⟩ := geoTilted_bound
  obtain ⟨el, -, -, -, hel, -⟩ := fromIjk_bound geoTilted.state.toState
    (fun h => by
      have : (42164 : ℝ) = 0 := congrArg Vec3.x h
      norm_num at this)
    (fun h => hp (congrArg Vec3.y h)) hb
  obtain ⟨g1, g2, g3, g4⟩ := geoTilted_elements hel
  have gi := geoTilted_inclination hel
  obtain ⟨x, hx⟩ : ∃ x, x = el.mean_anomaly + √(Earth.MU / el.semimajor_axis ^ 3) * 3600 := ⟨_, rfl⟩
  have hpi := Real.two_pi_pos
  have f1 := Int.floor_le (x / (2 * π))
  have f2 := Int.lt_floor_add_one (x / (2 * π))
  rw [le_div_iff₀ hpi] at f1
  rw [div_lt_iff₀ hpi] at f2
  have hdrift := geoTilted_drift rfl rfl
  obtain ⟨s', F, -, hs⟩ := C171_propagation geoTilted rfl rfl rfl 3600 40000 43000 0.95 (by norm_num) (by norm_num)
    (by norm_num) (fun s hs => geoMidnight_centuries (by rw [abs_of_nonneg hs.1]; exact hs.2)) hb (.inr hp) el hel
    (by linarith) (by linarith) (by linarith) _ _ rfl rfl (by norm_num) hdrift (-⌊x / (2 * π)⌋) _ rfl
    (by rw [← hx]; push_cast; nlinarith) (by rw [← hx]; push_cast; nlinarith)
  obtain ⟨N0, hN0, hq⟩ := hs 0.01 (by norm_num)
  refine ⟨s', N0, hN0, fun N hN => ?_⟩
  obtain ⟨q, q1, -, q2, -⟩ := hq N hN
  refine ⟨q, q1, q2.trans ?_⟩
  have t4 : (5e-25 / (1 - el.eccentricity)) ≤ 1e-24 := by
    rw [div_le_iff₀ (by linarith)]; linarith
  have t5 : el.semimajor_axis * (5e-25 / (1 - el.eccentricity)) ≤ 41800 * 1e-24 :=
    mul_le_mul g2 t4 (div_nonneg (by norm_num) (by linarith)) (by norm_num)
  linarith

end Openspace
