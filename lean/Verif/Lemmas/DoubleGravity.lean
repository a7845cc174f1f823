import Verif.Lemmas.DoubleAngles

/-! # The sums of the geopotential in double precision -/

namespace Openspace.F64

open Real Spec

/-- errors of the table of Legendre functions -/
noncomputable def legErr : ℕ → ℕ → ℝ
  | 2, 0 => 6.2 | 2, 1 => 12.3 | 2, 2 => 12.3
  | 3, 0 => 18.5 | 3, 1 => 49 | 3, 2 => 92 | 3, 3 => 92
  | 4, 0 => 52 | 4, 1 => 175 | 4, 2 => 460 | 4, 3 => 860 | 4, 4 => 860
  | _, _ => 0

section

variable {η c' s' φ : ℝ} (hη : ErrUnit η) (hc : Ts η 1 c' (cos φ) 2.02 1) (hs : Ts η 1 s' (sin φ) 2.02 1)

include hη

theorem Ts.numb (c b : ℝ) (h : |c| ≤ b) : Ts η 1 c c 0 b :=
  Ts.exact (by rw [mul_one]; exact h) ((abs_nonneg _).trans h) zero_le_one

include hc hs

theorem legendre_ts (n m : ℕ) (h2 : 2 ≤ n) (h4 : n ≤ 4) (hmn : m ≤ n + 1) :
    ∃ v, pyIndex2 (legendreTable c' s') n m = .ok v ∧ Ts η 1 v (assocLegendre n m φ) (legErr n m) (legBound n m) := by
  have t0 := hη.pos.le
  have hs2 := (hs.mul1 hη hs).mono t0 (show _ ≤ (4.05 : ℝ) by norm_num) (show _ ≤ (1 : ℝ) by norm_num)
  have hc2 := (hc.mul1 hη hc).mono t0 (show _ ≤ (4.05 : ℝ) by norm_num) (show _ ≤ (1 : ℝ) by norm_num)
  have hb : |assocLegendre n m φ| ≤ legBound n m * 1 := by
    have h1 := abs_legendreDeriv_le n m h2 h4 (by omega) (Real.abs_sin_le_one φ)
    have h5 : |Real.cos φ ^ m| ≤ 1 := by
      rw [abs_pow]; exact pow_le_one₀ (abs_nonneg _) (Real.abs_cos_le_one φ)
    rw [assocLegendre, abs_mul, mul_one]
    calc _ ≤ 1 * legBound n m := mul_le_mul h5 h1 (abs_nonneg _) zero_le_one
      _ = _ := one_mul _
  have fin : ∀ {v x E b : ℝ}, Ts η 1 v x E b → x = assocLegendre n m φ → E ≤ legErr n m →
      Ts η 1 v (assocLegendre n m φ) (legErr n m) (legBound n m) := by
    intro v x E b h e hE
    subst e
    exact (h.mono t0 hE le_rfl).bound hb (legBound_nonneg _ _)
  have C := fun (c b : ℝ) (h : |c| ≤ b) => Ts.numb hη c b h
  have hsc := sin_sq_add_cos_sq φ
  by_cases he : m = n + 1
  · subst he
    refine ⟨0, by interval_cases n <;> rfl, ?_⟩
    rw [assocLegendre, legendreDeriv_eq_zero, mul_zero]
    refine (C 0 0 (by simp)).mono t0 ?_ (legBound_nonneg _ _)
    interval_cases n <;> norm_num [legErr]
  have hmn' : m ≤ n := by omega
  interval_cases n <;> interval_cases m <;> refine ⟨_, rfl, ?_⟩
  · refine fin ((((C 3 3 (by norm_num)).mul1 hη hs2).sub hη (C 1 1 (by norm_num))).mul1 hη (C 0.5 0.5 (by norm_num))) ?_ ?_
    · rw [assocLegendre, ld20]; ring
    · norm_num [legErr]
  · refine fin (((C 3 3 (by norm_num)).mul1 hη hs).mul1 hη hc) ?_ ?_
    · rw [assocLegendre, ld21]; ring
    · norm_num [legErr]
  · refine fin ((C 3 3 (by norm_num)).mul1 hη hc2) ?_ ?_
    · rw [assocLegendre, ld22]; ring
    · norm_num [legErr]
  · refine fin ((hs.mul1 hη (((C 5 5 (by norm_num)).mul1 hη hs2).sub hη (C 3 3 (by norm_num)))).mul1 hη
      (C 0.5 0.5 (by norm_num))) ?_ ?_
    · rw [assocLegendre, ld30]; ring
    · norm_num [legErr]
  · refine fin (((((C 15 15 (by norm_num)).mul1 hη hs2).sub hη (C 3 3 (by norm_num))).mul1 hη hc).mul1 hη
      (C 0.5 0.5 (by norm_num))) ?_ ?_
    · rw [assocLegendre, ld31]; ring
    · norm_num [legErr]
  · refine fin (((C 15 15 (by norm_num)).mul1 hη hs).mul1 hη hc2) ?_ ?_
    · rw [assocLegendre, ld32]; ring
    · norm_num [legErr]
  · refine fin (((C 15 15 (by norm_num)).mul1 hη hc2).mul1 hη hc) ?_ ?_
    · rw [assocLegendre, ld33]; ring
    · norm_num [legErr]
  · refine fin ((C 0.125 0.125 (by norm_num)).mul1 hη (((((C 35 35 (by norm_num)).mul1 hη hs2).mul1 hη hs2).sub hη
      ((C 30 30 (by norm_num)).mul1 hη hs2)).add hη (C 3 3 (by norm_num)))) ?_ ?_
    · rw [assocLegendre, ld40]; ring
    · norm_num [legErr]
  · refine fin (((C 2.5 2.5 (by norm_num)).mul1 hη ((((C 7 7 (by norm_num)).mul1 hη hs2).mul1 hη hs).sub hη
      ((C 3 3 (by norm_num)).mul1 hη hs))).mul1 hη hc) ?_ ?_
    · rw [assocLegendre, ld41]; ring
    · norm_num [legErr]
  · refine fin (((((C 7 7 (by norm_num)).mul1 hη hs2).sub hη (C 1 1 (by norm_num))).mul1 hη hc2).mul1 hη
      (C 7.5 7.5 (by norm_num))) ?_ ?_
    · rw [assocLegendre, ld42]; ring
    · norm_num [legErr]
  · refine fin ((((C 105 105 (by norm_num)).mul1 hη hc).mul1 hη hc2).mul1 hη hs) ?_ ?_
    · rw [assocLegendre, ld43]; ring
    · norm_num [legErr]
  · refine fin (((C 105 105 (by norm_num)).mul1 hη hc2).mul1 hη hc2) ?_ ?_
    · rw [assocLegendre, ld44]; ring
    · norm_num [legErr]

end

/-! ## the coefficients -/

theorem coef_near (c : ℝ) {q : ℝ} (hq : 0 < q) : Near (coef c q) (c / sqrtNN q) 4.1 := by
  have h1 := near_sqrt (near_rnd q) hq.le (rnd_nonneg hq.le)
  have h2 := h1.round' (by norm_num) (by norm_num)
  have h3 := (near_rnd c).div' h2 (Real.sqrt_pos.mpr hq).ne' (by norm_num) (by norm_num) (by norm_num) (by norm_num)
  exact (h3.2.round' (by norm_num) (by norm_num)).mono (by norm_num)

theorem earth_near (n m : ℕ) (h2 : 2 ≤ n) (h4 : n ≤ 4) (hmn : m ≤ n) :
    ∃ c s, pyIndex2 earthC n m = .ok c ∧ pyIndex2 earthS n m = .ok s ∧ Near c (cf n m) 4.1 ∧ Near s (sf n m) 4.1 := by
  obtain ⟨hc, hs⟩ := C12_coefficients n m h2 h4 hmn
  have z : Near 0 0 4.1 := by simp [Near]
  have key : ∀ {x y z w : ℝ} {p q : ℝ}, (.ok x : Py ℝ) = .ok y → (.ok z : Py ℝ) = .ok w → Near p x 4.1 → Near q z 4.1 →
      Near p y 4.1 ∧ Near q w 4.1 := by
    intro x y z w p q h h' a b
    cases h; cases h'; exact ⟨a, b⟩
  interval_cases n <;> interval_cases m <;> refine ⟨_, _, rfl, rfl, ?_⟩ <;> refine key hc hs ?_ ?_ <;>
    first
    | exact z
    | exact coef_near _ (by norm_num)

/-! ## one term -/

/-- the entry of a table, if there is one -/
noncomputable def val (l : List (List ℝ)) (n m : ℕ) : ℝ := match pyIndex2 l n m with | .ok v => v | .error _ => 0

theorem val_eq {l : List (List ℝ)} {n m : ℕ} {v : ℝ} (h : pyIndex2 l n m = .ok v) : val l n m = v := by
  simp [val, h]

theorem index_val {l : List (List ℝ)} {n m : ℕ} {v : ℝ} (h : pyIndex2 l n m = .ok v) : pyIndex2 l n m = .ok (val l n m) := by
  rw [val_eq h, h]

noncomputable def evenPart (lib : Libm) (ra : ℝ) (n m : ℕ) : ℝ :=
  rnd (rnd (val earthC n m * lib.cos (rnd (ofNat m * ra))) + rnd (val earthS n m * lib.sin (rnd (ofNat m * ra))))

noncomputable def oddPart (lib : Libm) (ra : ℝ) (n m : ℕ) : ℝ :=
  rnd (rnd (val earthS n m * lib.cos (rnd (ofNat m * ra))) - rnd (val earthC n m * lib.sin (rnd (ofNat m * ra))))

/-- what one turn of the inner loop adds -/
noncomputable def fterm (lib : Libm) (tand : ℝ) (p : List (List ℝ)) (ra ρn : ℝ) (n m : ℕ) : Partials :=
  ⟨rnd (rnd (rnd (ρn * (ofNat n + 1)) * val p n m) * evenPart lib ra n m),
   rnd (rnd (ρn * rnd (val p n (m + 1) - rnd (rnd (ofNat m * tand) * val p n m))) * evenPart lib ra n m),
   rnd (rnd (rnd (ρn * ofNat m) * val p n m) * oddPart lib ra n m)⟩

noncomputable def radd (a b : Partials) : Partials := ⟨rnd (a.r + b.r), rnd (a.phi + b.phi), rnd (a.lamb + b.lamb)⟩

theorem gravityTerm_ok {lib : Libm} {tan : ℝ → ℝ} {c' s' ra dec ρn : ℝ} {n m : ℕ} (h2 : 2 ≤ n) (h4 : n ≤ 4) (hm : m ≤ n)
    (acc : Partials) : gravityTerm lib tan (legendreTable c' s') ra dec ρn n acc m =
      .ok (radd acc (fterm lib (tan dec) (legendreTable c' s') ra ρn n m)) := by
  have h1 : pyIndex2 (legendreTable c' s') n m = .ok (val (legendreTable c' s') n m) := by
    interval_cases n <;> interval_cases m <;> rfl
  have h3 : pyIndex2 (legendreTable c' s') n (m + 1) = .ok (val (legendreTable c' s') n (m + 1)) := by
    interval_cases n <;> interval_cases m <;> rfl
  have h5 : pyIndex2 earthC n m = .ok (val earthC n m) := by
    interval_cases n <;> interval_cases m <;> rfl
  have h6 : pyIndex2 earthS n m = .ok (val earthS n m) := by
    interval_cases n <;> interval_cases m <;> rfl
  simp only [gravityTerm, h1, h3, h5, h6, ok_bind, pure_eq_ok, radd, fterm, evenPart, oddPart]

theorem gravitySums_ok {lib : Libm} {tan : ℝ → ℝ} {c' s' ra dec q : ℝ} :
    gravitySums lib tan (legendreTable c' s') ra dec q =
      .ok ([(2, 0), (2, 1), (2, 2), (3, 0), (3, 1), (3, 2), (3, 3), (4, 0), (4, 1), (4, 2), (4, 3), (4, 4)].foldl
        (fun acc (nm : ℕ × ℕ) => radd acc (fterm lib (tan dec) (legendreTable c' s') ra (lib.pow q nm.1) nm.1 nm.2))
        ⟨0, 0, 0⟩) := by
  have hr : List.range' 2 (earthS.length - 2) = [2, 3, 4] := rfl
  have r3 : List.range 3 = [0, 1, 2] := rfl
  have r4 : List.range 4 = [0, 1, 2, 3] := rfl
  have r5 : List.range 5 = [0, 1, 2, 3, 4] := rfl
  rw [gravitySums, hr]
  simp only [List.foldlM_cons, List.foldlM_nil, Nat.reduceAdd, r3, r4, r5, ok_bind, pure_eq_ok, List.foldl_cons, List.foldl_nil]
  simp only [gravityTerm_ok (n := 2) (by omega) (by omega) (by omega : 0 ≤ 2),
    gravityTerm_ok (n := 2) (by omega) (by omega) (by omega : 1 ≤ 2),
    gravityTerm_ok (n := 2) (by omega) (by omega) (by omega : 2 ≤ 2),
    gravityTerm_ok (n := 3) (by omega) (by omega) (by omega : 0 ≤ 3),
    gravityTerm_ok (n := 3) (by omega) (by omega) (by omega : 1 ≤ 3),
    gravityTerm_ok (n := 3) (by omega) (by omega) (by omega : 2 ≤ 3),
    gravityTerm_ok (n := 3) (by omega) (by omega) (by omega : 3 ≤ 3),
    gravityTerm_ok (n := 4) (by omega) (by omega) (by omega : 0 ≤ 4),
    gravityTerm_ok (n := 4) (by omega) (by omega) (by omega : 1 ≤ 4),
    gravityTerm_ok (n := 4) (by omega) (by omega) (by omega : 2 ≤ 4),
    gravityTerm_ok (n := 4) (by omega) (by omega) (by omega : 3 ≤ 4),
    gravityTerm_ok (n := 4) (by omega) (by omega) (by omega : 4 ≤ 4), ok_bind, ofNat]

/-- errors and bounds of the powers of the ratio of the radii -/
noncomputable def powErr : ℕ → ℝ
  | 2 => 3.4 | 3 => 6.5 | 4 => 11.2 | _ => 0

noncomputable def powBound : ℕ → ℝ
  | 2 => 1.64 | 3 => 2.1 | 4 => 2.69 | _ => 0

noncomputable def rErr (n m : ℕ) : ℝ :=
  1.001 * ((n + 1) * coefBound n m * (powErr n * legBound n m + powBound n * (legErr n m + (2.86 * m + 0.07) * legBound n m)))

noncomputable def rBound (n m : ℕ) : ℝ := powBound n * (n + 1) * legBound n m * coefBound n m

noncomputable def pErr (n m : ℕ) : ℝ :=
  1.001 * (coefBound n m * (powErr n * (legBound n (m + 1) + m * legBound n m) +
    powBound n * (legErr n (m + 1) + (2.87 * m + 0.08) * legBound n (m + 1) + m * (legErr n m + (2.87 * m + 4.2) * legBound n m))))

noncomputable def pBound (n m : ℕ) : ℝ := powBound n * (legBound n (m + 1) + m * legBound n m) * coefBound n m

noncomputable def lErr (n m : ℕ) : ℝ :=
  1.001 * (m * coefBound n m * (powErr n * legBound n m + powBound n * (legErr n m + (2.86 * m + 0.07) * legBound n m)))

noncomputable def lBound (n m : ℕ) : ℝ := powBound n * m * legBound n m * coefBound n m

theorem trig_ts {θ c' c s' s C' C S' S B : ℝ} (m : ℕ) (hθ : ErrUnit θ) (hc : Ts θ 1 c' c (2.85 * m + 0.06) 1)
    (hs : Ts θ 1 s' s (2.85 * m + 0.06) 1)
    (hC : Near C' C 4.1) (hS : Near S' S 4.1) (hB : |C| + |S| ≤ B) :
    Ts θ 1 (rnd (rnd (C' * c') + rnd (S' * s'))) (C * c + S * s) ((2.855 * m + 0.065) * B) B ∧
    Ts θ 1 (rnd (rnd (S' * c') - rnd (C' * s'))) (S * c - C * s) ((2.855 * m + 0.065) * B) B := by
  have h1 := Ts.of_near hθ (σ := 1) (b := |C|) hC (by simp) (by norm_num) (abs_nonneg _) zero_le_one
  have h2 := Ts.of_near hθ (σ := 1) (b := |S|) hS (by simp) (by norm_num) (abs_nonneg _) zero_le_one
  have aC := abs_nonneg C
  have aS := abs_nonneg S
  have m0 : (0 : ℝ) ≤ m := m.cast_nonneg
  have hB' : |C| * 1 + |S| * 1 ≤ B := by linarith
  have hB2 : |S| * 1 + |C| * 1 ≤ B := by linarith
  constructor
  · refine ((h1.mul1 hθ hc).add hθ (h2.mul1 hθ hs)).mono hθ.pos.le ?_ hB'
    have g1 := mul_nonneg m0 aC
    have g2 := mul_nonneg m0 aS
    have g3 := mul_le_mul_of_nonneg_left hB m0
    norm_num only
    linarith
  · refine ((h2.mul1 hθ hc).sub hθ (h1.mul1 hθ hs)).mono hθ.pos.le ?_ hB2
    have g1 := mul_nonneg m0 aC
    have g2 := mul_nonneg m0 aS
    have g3 := mul_le_mul_of_nonneg_left hB m0
    norm_num only
    linarith

theorem Ts.zero {t σ y x : ℝ} (hs : 0 ≤ σ) (hy : y = 0) (hx : x = 0) : Ts t σ y x 0 0 := by
  subst hy; subst hx; exact Ts.exact (by simp) le_rfl hs

theorem rnd_zero' {x : ℝ} (h : x = 0) : rnd x = 0 := by rw [h, rnd_zero]

section

variable {lib : Libm} {η θ φ α q c' s' tand α' : ℝ} (hη : ErrUnit η) (hθ : ErrUnit θ) (hcos : 0 < cos φ)
  (hθc : θ * cos φ = η) (hc : Ts η 1 c' (cos φ) 2.02 1) (hs : Ts η 1 s' (sin φ) 2.02 1)
  (ht : Ts θ (1 / cos φ) tand (Real.tan φ) 4.1 1)
  (ha : ∀ m : ℕ, m ≤ 4 → Ts θ 1 (lib.cos (rnd (ofNat m * α'))) (cos (m * α)) (2.85 * m + 0.06) 1 ∧
    Ts θ 1 (lib.sin (rnd (ofNat m * α'))) (sin (m * α)) (2.85 * m + 0.06) 1)

include hη hθ hcos hθc hc hs

/-- the Legendre functions in units of `θ`, also relative to the cosine of the latitude -/
theorem table_ts (n m : ℕ) (h2 : 2 ≤ n) (h4 : n ≤ 4) (hmn : m ≤ n + 1) :
    Ts θ 1 (val (legendreTable c' s') n m) (assocLegendre n m φ) (legErr n m) (legBound n m) ∧
    (1 ≤ m → Ts θ (cos φ) (val (legendreTable c' s') n m) (assocLegendre n m φ) (legErr n m) (legBound n m)) := by
  obtain ⟨v, hv, h⟩ := legendre_ts hη hc hs n m h2 h4 hmn
  rw [val_eq hv]
  have hc1 := cos_le_one φ
  have hle : η ≤ θ := by
    rw [← hθc]; exact mul_le_of_le_one_right hθ.pos.le hc1
  constructor
  · refine ⟨h.err.trans ?_, h.le, h.e0, h.b0, h.s0⟩
    have := h.e0
    gcongr
  · intro h1
    refine ⟨h.err.trans (le_of_eq ?_), ?_, h.e0, h.b0, hcos.le⟩
    · rw [← hθc]; ring
    · obtain ⟨k, rfl⟩ : ∃ k, m = k + 1 := ⟨m - 1, by omega⟩
      have g1 := abs_legendreDeriv_le n (k + 1) h2 h4 (by omega) (Real.abs_sin_le_one φ)
      have h5 : |Real.cos φ ^ k| ≤ 1 := by
        rw [abs_pow]; exact pow_le_one₀ (abs_nonneg _) (Real.abs_cos_le_one φ)
      rw [assocLegendre, pow_succ', abs_mul, abs_mul, abs_of_pos hcos, mul_assoc, mul_comm]
      refine mul_le_mul_of_nonneg_right ?_ hcos.le
      calc _ ≤ 1 * legBound n (k + 1) := mul_le_mul h5 g1 (abs_nonneg _) zero_le_one
        _ = _ := one_mul _

include ha

theorem parts_ts (n m : ℕ) (h2 : 2 ≤ n) (h4 : n ≤ 4) (hmn : m ≤ n) :
    Ts θ 1 (evenPart lib α' n m) (cf n m * cos (m * α) + sf n m * sin (m * α)) ((2.855 * m + 0.065) * coefBound n m) (coefBound n m) ∧
    Ts θ 1 (oddPart lib α' n m) (sf n m * cos (m * α) - cf n m * sin (m * α)) ((2.855 * m + 0.065) * coefBound n m) (coefBound n m) := by
  obtain ⟨c, s, e1, e2, n1, n2⟩ := earth_near n m h2 h4 hmn
  obtain ⟨a1, a2⟩ := ha m (by omega)
  have := trig_ts m hθ a1 a2 n1 n2 (abs_coef_le n m h2 h4 hmn)
  simp only [evenPart, oddPart, val_eq e1, val_eq e2]
  exact this

theorem term_r_ts {ρn : ℝ} (n m : ℕ) (h2 : 2 ≤ n) (h4 : n ≤ 4) (hmn : m ≤ n) (hr : Ts θ 1 ρn (q ^ n) (powErr n) (powBound n)) :
    Ts θ 1 (fterm lib tand (legendreTable c' s') α' ρn n m).r (gterm α φ q n m).r (rErr n m) (rBound n m) := by
  obtain ⟨p1, -⟩ := table_ts hη hθ hcos hθc hc hs n m h2 h4 (by omega)
  obtain ⟨t1, -⟩ := parts_ts hη hθ hcos hθc hc hs ha n m h2 h4 hmn
  have hn : Ts θ 1 (ofNat n + 1) ((n : ℝ) + 1) 0 (n + 1) :=
    Ts.numb hθ _ _ (by rw [ofNat, abs_of_nonneg (by positivity)])
  refine (((hr.mul1 hθ hn).mul1 hθ p1).mul1 hθ t1).mono hθ.pos.le ?_ le_rfl
  interval_cases n <;> interval_cases m <;>
    norm_num [rErr, powErr, powBound, legErr, legBound, coefBound]

theorem term_lamb_ts {ρn : ℝ} (n m : ℕ) (h2 : 2 ≤ n) (h4 : n ≤ 4) (hmn : m ≤ n) (hr : Ts θ 1 ρn (q ^ n) (powErr n) (powBound n)) :
    Ts θ (cos φ) (fterm lib tand (legendreTable c' s') α' ρn n m).lamb (gterm α φ q n m).lamb (lErr n m) (lBound n m) := by
  obtain ⟨-, p1⟩ := table_ts hη hθ hcos hθc hc hs n m h2 h4 (by omega)
  obtain ⟨-, t1⟩ := parts_ts hη hθ hcos hθc hc hs ha n m h2 h4 hmn
  rcases Nat.eq_zero_or_pos m with rfl | hm
  · refine (Ts.zero hcos.le ?_ (by simp [gterm])).mono hθ.pos.le ?_ ?_
    · simp [fterm, ofNat, rnd_zero]
    · simp [lErr]
    · simp [lBound]
  have hn : Ts θ 1 (ofNat m) (m : ℝ) 0 m :=
    Ts.numb hθ _ _ (by rw [ofNat, abs_of_nonneg (by positivity)])
  have := (((hr.mul1 hθ hn).mul hθ (p1 hm)).mul hθ t1)
  rw [one_mul, mul_one] at this
  refine this.mono hθ.pos.le ?_ le_rfl
  interval_cases n <;> interval_cases m <;>
    norm_num [lErr, powErr, powBound, legErr, legBound, coefBound]

include ht

theorem term_phi_ts {ρn : ℝ} (n m : ℕ) (h2 : 2 ≤ n) (h4 : n ≤ 4) (hmn : m ≤ n) (hr : Ts θ 1 ρn (q ^ n) (powErr n) (powBound n)) :
    Ts θ 1 (fterm lib tand (legendreTable c' s') α' ρn n m).phi (gterm α φ q n m).phi (pErr n m) (pBound n m) := by
  obtain ⟨-, p1⟩ := table_ts hη hθ hcos hθc hc hs n m h2 h4 (by omega)
  obtain ⟨p2, -⟩ := table_ts hη hθ hcos hθc hc hs n (m + 1) h2 h4 (by omega)
  obtain ⟨t1, -⟩ := parts_ts hη hθ hcos hθc hc hs ha n m h2 h4 hmn
  have key : Ts θ 1 (rnd (rnd (ofNat m * tand) * val (legendreTable c' s') n m)) (m * Real.tan φ * assocLegendre n m φ)
      (1.0003 * (m * (4.11 * legBound n m + legErr n m))) (m * legBound n m) := by
    rcases Nat.eq_zero_or_pos m with rfl | hm
    · refine (Ts.zero zero_le_one ?_ (by simp)).mono hθ.pos.le ?_ ?_
      · simp [ofNat, rnd_zero]
      · simp
      · simp
    have hn : Ts θ 1 (ofNat m) (m : ℝ) 0 m :=
      Ts.numb hθ _ _ (by rw [ofNat, abs_of_nonneg (by positivity)])
    have := (hn.mul hθ ht).mul hθ (p1 hm)
    rw [one_mul, one_div_mul_cancel hcos.ne'] at this
    refine this.mono hθ.pos.le ?_ (by rw [mul_one])
    interval_cases n <;> interval_cases m <;> norm_num [legErr, legBound]
  refine ((hr.mul1 hθ (p2.sub hθ key)).mul1 hθ t1).mono hθ.pos.le ?_ le_rfl
  interval_cases n <;> interval_cases m <;>
    norm_num [pErr, powErr, powBound, legErr, legBound, coefBound]

omit hη hcos hθc hc hs ha ht in
theorem fold_ts {ι : Type*} {σ : ℝ} (f' f E b : ι → ℝ) (L : List ι) (h : ∀ x ∈ L, Ts θ σ (f' x) (f x) (E x) (b x))
    {a' a E0 b0 : ℝ} (h0 : Ts θ σ a' a E0 b0) :
    Ts θ σ (L.foldl (fun a x => rnd (a + f' x)) a') (a + (L.map f).sum)
      (L.foldl (fun (w : ℝ × ℝ) x => (1.00001 * (w.1 + E x) + 1.2e-4 * (w.2 + b x), w.2 + b x)) (E0, b0)).1
      (L.foldl (fun (w : ℝ × ℝ) x => (1.00001 * (w.1 + E x) + 1.2e-4 * (w.2 + b x), w.2 + b x)) (E0, b0)).2 := by
  induction L generalizing a' a E0 b0 with
  | nil => simpa using h0
  | cons x L ih =>
    have h1 := h0.add hθ (h x (by simp))
    have := ih (fun y hy => h y (by simp [hy])) h1
    simpa [List.foldl_cons, add_assoc] using this

end

theorem fold_proj {ι : Type*} (g : ι → Partials) (L : List ι) (a : Partials) :
    (L.foldl (fun acc x => radd acc (g x)) a).r = L.foldl (fun acc x => rnd (acc + (g x).r)) a.r ∧
    (L.foldl (fun acc x => radd acc (g x)) a).phi = L.foldl (fun acc x => rnd (acc + (g x).phi)) a.phi ∧
    (L.foldl (fun acc x => radd acc (g x)) a).lamb = L.foldl (fun acc x => rnd (acc + (g x).lamb)) a.lamb := by
  induction L generalizing a with
  | nil => simp
  | cons x L ih => simpa [radd] using ih (radd a (g x))

/-- the degrees and orders of the sums -/
def degrees : List (ℕ × ℕ) :=
  [(2, 0), (2, 1), (2, 2), (3, 0), (3, 1), (3, 2), (3, 3), (4, 0), (4, 1), (4, 2), (4, 3), (4, 4)]

theorem gsum_degrees (f : ℕ → ℕ → ℝ) : gsum f = 0 + (degrees.map fun nm => f nm.1 nm.2).sum := by
  rw [gsum_eq]
  simp only [degrees, List.map_cons, List.map_nil, List.sum_cons, List.sum_nil, Finset.sum_range_succ,
    Finset.sum_range_zero]
  ring

theorem degrees_range {nm : ℕ × ℕ} (h : nm ∈ degrees) : 2 ≤ nm.1 ∧ nm.1 ≤ 4 ∧ nm.2 ≤ nm.1 := by
  simp only [degrees, List.mem_cons, List.not_mem_nil, or_false] at h
  rcases h with rfl | rfl | rfl | rfl | rfl | rfl | rfl | rfl | rfl | rfl | rfl | rfl <;> simp

section

variable {lib : Libm} {tan : ℝ → ℝ} {η θ φ α q c' s' α' dec' q' : ℝ} (hη : ErrUnit η) (hθ : ErrUnit θ) (hcos : 0 < cos φ)
  (hθc : θ * cos φ = η) (hc : Ts η 1 c' (cos φ) 2.02 1) (hs : Ts η 1 s' (sin φ) 2.02 1)
  (ht : Ts θ (1 / cos φ) (tan dec') (Real.tan φ) 4.1 1)
  (ha : ∀ m : ℕ, m ≤ 4 → Ts θ 1 (lib.cos (rnd (ofNat m * α'))) (cos (m * α)) (2.85 * m + 0.06) 1 ∧
    Ts θ 1 (lib.sin (rnd (ofNat m * α'))) (sin (m * α)) (2.85 * m + 0.06) 1)
  (hr : ∀ n : ℕ, 2 ≤ n → n ≤ 4 → Ts θ 1 (lib.pow q' n) (q ^ n) (powErr n) (powBound n))

include hη hθ hcos hθc hc hs ht ha hr

theorem sums_ts (hq : 0 ≤ q) (hq' : q ≤ 1.28) : ∃ w, gravitySums lib tan (legendreTable c' s') α' dec' q' = .ok w ∧
    Ts θ 1 w.r (gsum fun n m => (gterm α φ q n m).r) 0.08 6.4e-3 ∧
    Ts θ 1 w.phi (gsum fun n m => (gterm α φ q n m).phi) 0.08 6.4e-3 ∧
    Ts θ (cos φ) w.lamb (gsum fun n m => (gterm α φ q n m).lamb) 0.03 4e-4 := by
  have hw := gravitySums_ok (lib := lib) (tan := tan) (c' := c') (s' := s') (ra := α') (dec := dec') (q := q')
  refine ⟨_, hw, ?_⟩
  obtain ⟨e1, e2, e3⟩ := fold_proj (fun nm : ℕ × ℕ => fterm lib (tan dec') (legendreTable c' s') α' (lib.pow q' nm.1) nm.1 nm.2)
    degrees ⟨0, 0, 0⟩
  unfold degrees at e1 e2 e3
  rw [e1, e2, e3]
  have z : ∀ {σ : ℝ}, 0 ≤ σ → Ts θ σ 0 0 0 0 := fun h => Ts.zero h rfl rfl
  refine ⟨?_, ?_, ?_⟩
  · have := fold_ts hθ _ (fun nm => (gterm α φ q nm.1 nm.2).r) (fun nm => rErr nm.1 nm.2) (fun nm => rBound nm.1 nm.2) degrees
      (fun nm hnm => term_r_ts (tand := tan dec') hη hθ hcos hθc hc hs ha nm.1 nm.2 (degrees_range hnm).1 (degrees_range hnm).2.1
        (degrees_range hnm).2.2 (hr nm.1 (degrees_range hnm).1 (degrees_range hnm).2.1)) (z zero_le_one)
    rw [← gsum_degrees fun n m => (gterm α φ q n m).r] at this
    refine (this.mono hθ.pos.le ?_ le_rfl).bound ?_ (by norm_num)
    · norm_num [degrees, rErr, rBound, powErr, powBound, legErr, legBound, coefBound]
    · rw [mul_one]; exact gsum_r_le hq hq' α φ
  · have := fold_ts hθ _ (fun nm => (gterm α φ q nm.1 nm.2).phi) (fun nm => pErr nm.1 nm.2) (fun nm => pBound nm.1 nm.2) degrees
      (fun nm hnm => term_phi_ts hη hθ hcos hθc hc hs ht ha nm.1 nm.2 (degrees_range hnm).1 (degrees_range hnm).2.1
        (degrees_range hnm).2.2 (hr nm.1 (degrees_range hnm).1 (degrees_range hnm).2.1)) (z zero_le_one)
    rw [← gsum_degrees fun n m => (gterm α φ q n m).phi] at this
    refine (this.mono hθ.pos.le ?_ le_rfl).bound ?_ (by norm_num)
    · norm_num [degrees, pErr, pBound, powErr, powBound, legErr, legBound, coefBound]
    · rw [mul_one]; exact gsum_phi_le hq hq' α hcos.ne'
  · have := fold_ts hθ _ (fun nm => (gterm α φ q nm.1 nm.2).lamb) (fun nm => lErr nm.1 nm.2) (fun nm => lBound nm.1 nm.2) degrees
      (fun nm hnm => term_lamb_ts (tand := tan dec') hη hθ hcos hθc hc hs ha nm.1 nm.2 (degrees_range hnm).1 (degrees_range hnm).2.1
        (degrees_range hnm).2.2 (hr nm.1 (degrees_range hnm).1 (degrees_range hnm).2.1)) (z hcos.le)
    rw [← gsum_degrees fun n m => (gterm α φ q n m).lamb] at this
    refine (this.mono hθ.pos.le ?_ le_rfl).bound ?_ (by norm_num)
    · norm_num [degrees, lErr, lBound, powErr, powBound, legErr, legBound, coefBound]
    · have := gsum_lamb_le hq hq' α φ
      rw [abs_of_pos hcos] at this
      linarith

end

end Openspace.F64
