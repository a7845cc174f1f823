import Verif.Lemmas.DoubleRatio
import Verif.Props.DoubleGravity

/-!
# C151: the iteration of Gauss's method in double precision
-/

namespace Openspace

open Real

/-- **C151**, first part.  `solve_nu` in double precision.  For auxiliary numbers with `0 < m ≤ 1/10` and `0 ≤ l ≤ 3/5 m`, from any
two different start values, the second between 1 and 1.13, the loop ends within sixty passes.  The equation has exactly one root
between 0.9 and 1.25 and the result is within `1.7e-12` of it. -/
theorem C151_solve {lib : F64.Libm} (hlib : Spec.UlpAccurate lib) {m l : ℝ} (hm0 : 0 < m) (hm : m ≤ 1 / 10) (hl : 0 ≤ l)
    (hlm : l ≤ 3 / 5 * m) {n0 n1 : ℝ} (h0 : 0.91 ≤ n0 ∧ n0 ≤ 5 / 4) (h1 : 1 ≤ n1 ∧ n1 ≤ 113 / 100) (hn : 1e-12 ≤ |n1 - n0|)
    {fuel : ℕ} (hf : 60 ≤ fuel) :
    ∃ r n, (1 ≤ r ∧ r ≤ 113 / 100) ∧ Gauss.fOfNu r m l = .ok 0 ∧
      (∀ x, 9 / 10 ≤ x → x ≤ 5 / 4 → Gauss.fOfNu x m l = .ok 0 → x = r) ∧
      F64.solveNu lib m l fuel n0 n1 = .ok n ∧ |n - r| ≤ 1.7e-12 := by
  have hu := F64.u_pos
  have hlm' : 25 * l < 16 * m := by linarith
  obtain ⟨r, r0, r1, hr⟩ := Gauss.F_root hm hl hlm'
  have hnr : |n1 - r| ≤ 14 / 100 := by rw [abs_le]; constructor <;> linarith
  obtain ⟨n, e, hn⟩ := F64.solveNu_near hlib hm0 hm hl (by linarith) ⟨r0, r1⟩ hr 56 (a := n0) (b := n1) (fuel := fuel) (by omega) h0
    ⟨by linarith, by linarith⟩ hnr (le_trans (by norm_num) hn) (by
      calc (|n1 - r| - 150 * F64.u) * 0.621 ^ 56 ≤ 14 / 100 * 0.621 ^ 56 := by gcongr; linarith
        _ ≤ 5e-13 := by norm_num)
  refine ⟨r, n, ⟨r0, r1⟩, by rw [Gauss.fOfNu_eq hm hl hlm' (by linarith) (by linarith), hr], ?_, e, hn⟩
  intro x x0 x1 hx
  rw [Gauss.fOfNu_eq hm hl hlm' x0 x1, Except.ok.injEq] at hx
  rcases le_total x r with h | h
  · have := (Gauss.F_slope hm hl hlm' x0 h (by linarith)).1
    linarith
  · have := (Gauss.F_slope hm hl hlm' (by linarith) h x1).1
    linarith

/-- **C151**, second part.  The ratio of sector to triangle that the method computes in double precision from two positions, with
all the roundings of the lengths, the scalar product, the power and the start values.  For positions seen `dt` seconds apart with
auxiliary numbers `m ≤ 0.0999` and `1e-13 ≤ l ≤ 0.58 m` no exception is raised, the loop ends within sixty passes, and the ratio is
within `1.75e-12` of the exact root for the exact positions. -/
theorem C151_ratio {lib : F64.Libm} (hlib : Spec.UlpAccurate lib) (hpow : Spec.PowAccurate lib) {ra rb : Vec3} {t1 t2 dt : ℝ}
    (hdt : dt = (t2 - t1) * 86400) (ha : ra ≠ ⟨0, 0, 0⟩) (hb : rb ≠ ⟨0, 0, 0⟩) (hm : Spec.gaussM ra rb dt ≤ 0.0999)
    (hl0 : 1e-13 ≤ Spec.gaussL ra rb) (hl : Spec.gaussL ra rb ≤ 0.58 * Spec.gaussM ra rb dt) {fuel : ℕ} (hf : 60 ≤ fuel) :
    ∃ r n, (1 ≤ r ∧ r ≤ 113 / 100) ∧ Gauss.fOfNu r (Spec.gaussM ra rb dt) (Spec.gaussL ra rb) = .ok 0 ∧
      (∀ x, 9 / 10 ≤ x → x ≤ 5 / 4 → Gauss.fOfNu x (Spec.gaussM ra rb dt) (Spec.gaussL ra rb) = .ok 0 → x = r) ∧
      F64.gaussRatio lib fuel ra rb (F64.magnitude ra) (F64.magnitude rb) (F64.gaussTau t1 t2) = .ok n ∧ |n - r| ≤ 1.75e-12 := by
  have hu := F64.u_pos
  have hu' := F64.u_tiny
  have us : F64.u ≤ 0.00001 := hu'.trans (by norm_num)
  have hl1 : Spec.gaussL ra rb ≤ 0.06 := by norm_num at hm hl ⊢; linarith
  have hk : 0 < Spec.gaussK ra rb := by
    refine lt_of_le_of_ne (sqrt_nonneg _) fun h => ?_
    rw [Spec.gaussL, ← h] at hl0
    norm_num at hl0
  obtain ⟨m', l', e1, nm, nl⟩ := F64.numbers_near (t1 := t1) (t2 := t2) hpow hdt hk ha hb hl1
  obtain ⟨m, hm'⟩ : ∃ m, m = Spec.gaussM ra rb dt := ⟨_, rfl⟩
  obtain ⟨l, hl'⟩ : ∃ l, l = Spec.gaussL ra rb := ⟨_, rfl⟩
  rw [← hm'] at hm nm hl ⊢
  rw [← hl'] at hl hl0 nl ⊢
  have m0 : 1.7e-13 ≤ m := by norm_num at hl hl0 ⊢; linarith
  have mp : 0 < m := lt_of_lt_of_le (by norm_num) m0
  have lp : 0 < l := lt_of_lt_of_le (by norm_num) hl0
  unfold F64.Near at nm
  rw [abs_of_pos mp] at nm
  have d1 : 45 * F64.u * m ≤ 45 * F64.u * 0.0999 := by gcongr
  have u1 : 60 * F64.u ≤ 1e-14 := by
    calc 60 * F64.u ≤ 60 * (12 / 10 ^ 17) := by gcongr
      _ ≤ 1e-14 := by norm_num
  have d2 : |m' - m| ≤ 4.6 * F64.u := by linarith
  obtain ⟨m1, m2⟩ := abs_le.mp d2
  obtain ⟨l1, l2⟩ := abs_le.mp nl
  have mp' : 0 < m' := by norm_num at u1 m0; linarith
  have mle' : m' ≤ 1 / 10 := by norm_num at hm; linarith
  have lp' : 0 ≤ l' := by norm_num at u1 hl0; linarith
  have lm' : 5 * l' ≤ 3 * m' := by norm_num at u1 hl m0; linarith
  obtain ⟨n0, e2, -⟩ := F64.start_near mp' lp'
  obtain ⟨r', n, hr', hF', e3, hn⟩ := F64.solve_from_start hlib mp' mle' lp' lm' e2 hf
  have hlm : 25 * l < 16 * m := by norm_num at hl; linarith
  have hm9 : m ≤ 1 / 10 := by norm_num at hm; linarith
  obtain ⟨r, r0, r1, hr⟩ := Gauss.F_root hm9 lp.le hlm
  have sh := F64.root_shift hm9 lp.le hlm mle' lp' (by linarith) d2 nl ⟨by linarith, by linarith⟩ hr' hr hF'
  refine ⟨r, n, ⟨r0, r1⟩, by rw [Gauss.fOfNu_eq hm9 lp.le hlm (by linarith) (by linarith), hr], ?_, ?_, ?_⟩
  · intro x x0 x1 hx
    rw [Gauss.fOfNu_eq hm9 lp.le hlm x0 x1, Except.ok.injEq] at hx
    rcases le_total x r with h | h
    · have := (Gauss.F_slope hm9 lp.le hlm x0 h (by linarith)).1
      linarith
    · have := (Gauss.F_slope hm9 lp.le hlm (by linarith) h x1).1
      linarith
  · simp only [F64.gaussRatio, e1, ok_bind, e2]
    exact e3
  · have := abs_sub_le n r' r
    norm_num at u1 hn ⊢; linarith

/-- a library all of whose functions are correctly rounded meets the assumption -/
theorem F64.rounded_ulp : Spec.UlpAccurate F64.rounded :=
  ⟨fun x => (F64.rnd_near (sin x)).trans (by gcongr; norm_num), fun x _ => (F64.rnd_near (arcsin x)).trans (by gcongr; norm_num)⟩

/-- two positions 45 degrees apart at 7000 km, seen 700 s apart -/
example : ∃ ra rb : Vec3, ∃ r n, (1 ≤ r ∧ r ≤ 113 / 100) ∧
    F64.gaussRatio F64.rounded 60 ra rb (F64.magnitude ra) (F64.magnitude rb) (F64.gaussTau 0 (700 / 86400)) = .ok n ∧
    |n - r| ≤ 1.75e-12 := by
  have ha : (⟨7000, 0, 0⟩ : Vec3).magnitude = 7000 := Vec3.magnitude_of_dot (by norm_num) (by simp only [Vec3.dot]; norm_num)
  have hb : (⟨7000 * (119 / 169), 0, 7000 * (120 / 169)⟩ : Vec3).magnitude = 7000 :=
    Vec3.magnitude_of_dot (by norm_num) (by simp only [Vec3.dot]; norm_num)
  have hk : Spec.gaussK ⟨7000, 0, 0⟩ ⟨7000 * (119 / 169), 0, 7000 * (120 / 169)⟩ = 7000 * (24 / 13) := by
    unfold Spec.gaussK
    rw [ha, hb]
    rw [show 2 * (7000 * 7000 + (⟨7000, 0, 0⟩ : Vec3).dot ⟨7000 * (119 / 169), 0, 7000 * (120 / 169)⟩) = (7000 * (24 / 13)) ^ 2 by
      simp only [Vec3.dot]; norm_num]
    exact sqrt_sq (by norm_num)
  obtain ⟨r, n, h1, -, -, h2, h3⟩ := C151_ratio (ra := ⟨7000, 0, 0⟩) (rb := ⟨7000 * (119 / 169), 0, 7000 * (120 / 169)⟩)
    (t1 := 0) (t2 := 700 / 86400) (dt := 700) F64.rounded_ulp F64.rounded_pow (by norm_num) (by norm_num) (by norm_num)
    (by unfold Spec.gaussM; rw [hk]; norm_num [Earth.MU]) (by unfold Spec.gaussL; rw [hk, ha, hb]; norm_num)
    (by unfold Spec.gaussM Spec.gaussL; rw [hk, ha, hb]; norm_num [Earth.MU]) (fuel := 60) le_rfl
  exact ⟨_, _, r, n, h1, h2, h3⟩

end Openspace
