import Verif.Lemmas.DoubleFrames
import Verif.Lemmas.Matrix
import Verif.Model.DoubleFiltering

/-! # Rounding errors of products and sums of matrices -/

namespace Openspace.F64

open Matrix

/-- a computed matrix `M'` of `M`: every entry has an error of at most `e` units of rounding of that entry of `A` -/
def MSc {m n : Type} (M' M : Matrix m n ℝ) (e : ℝ) (A : Matrix m n ℝ) : Prop := ∀ i j, Sc (M' i j) (M i j) e (A i j)

section
variable {m n : Type} {M M' A K K' B : Matrix m n ℝ} {e f : ℝ}

theorem MSc.exact (M : Matrix m n ℝ) : MSc M M 0 (M.map abs) := fun _ _ => Sc.exact le_rfl

theorem MSc.mono (h : MSc M' M e A) (he : e ≤ f) : MSc M' M f A := fun i j => (h i j).mono he

theorem MSc.transpose (h : MSc M' M e A) : MSc M'.transpose M.transpose e A.transpose := fun i j => h j i

end

/-! ## sums of products -/

theorem dot_sc {a b : Vec3} {x y A B : Fin 3 → ℝ} {e f : ℝ} (ha : ∀ l, Sc (a.toFun l) (x l) e (A l))
    (hb : ∀ l, Sc (b.toFun l) (y l) f (B l)) (he : 0 ≤ e) (he' : e ≤ 100) (hf : 0 ≤ f) (hf' : f ≤ 100) :
    Sc (dot a b) (∑ l, x l * y l) (e + f + 3.02) (∑ l, A l * B l) := by
  have m1 := (ha 0).mul (hb 0) he (by linarith) hf (by linarith)
  have m2 := (ha 1).mul (hb 1) he (by linarith) hf (by linarith)
  have m3 := (ha 2).mul (hb 2) he (by linarith) hf (by linarith)
  have n1 := m1.add m2 (by linarith) (by norm_num; linarith)
  have n2 := n1.add (m3.mono (e' := e + f + 1.01 + 1.001) (by linarith)) (by linarith) (by norm_num; linarith)
  rw [Fin.sum_univ_three, Fin.sum_univ_three]
  exact n2.mono (by linarith)

theorem dot6_sc {a b : Vec6} {x y A B : Fin 6 → ℝ} {e f : ℝ} (ha : ∀ l, Sc (a.toFun l) (x l) e (A l))
    (hb : ∀ l, Sc (b.toFun l) (y l) f (B l)) (he : 0 ≤ e) (he' : e ≤ 100) (hf : 0 ≤ f) (hf' : f ≤ 100) :
    Sc (dot6 a b) (∑ l, x l * y l) (e + f + 6.02) (∑ l, A l * B l) := by
  have m1 := (ha 0).mul (hb 0) he (by linarith) hf (by linarith)
  have m2 := (ha 1).mul (hb 1) he (by linarith) hf (by linarith)
  have m3 := (ha 2).mul (hb 2) he (by linarith) hf (by linarith)
  have m4 := (ha 3).mul (hb 3) he (by linarith) hf (by linarith)
  have m5 := (ha 4).mul (hb 4) he (by linarith) hf (by linarith)
  have m6 := (ha 5).mul (hb 5) he (by linarith) hf (by linarith)
  have n1 := m1.add m2 (by linarith) (by norm_num; linarith)
  have n2 := n1.add (m3.mono (e' := e + f + 1.01 + 1.001) (by linarith)) (by linarith) (by norm_num; linarith)
  have n3 := n2.add (m4.mono (e' := e + f + 1.01 + 1.001 + 1.001) (by linarith)) (by linarith) (by norm_num; linarith)
  have n4 := n3.add (m5.mono (e' := e + f + 1.01 + 1.001 + 1.001 + 1.001) (by linarith)) (by linarith)
    (by norm_num; linarith)
  have n5 := n4.add (m6.mono (e' := e + f + 1.01 + 1.001 + 1.001 + 1.001 + 1.001) (by linarith)) (by linarith)
    (by norm_num; linarith)
  rw [Fin.sum_univ_six, Fin.sum_univ_six]
  exact n5.mono (by linarith)

/-! ## products of matrices -/

theorem mat6Mul_sc {m k : Mat6} {M K A B : Matrix (Fin 6) (Fin 6) ℝ} {e f : ℝ} (hm : MSc m.toMatrix M e A)
    (hk : MSc k.toMatrix K f B) (he : 0 ≤ e) (he' : e ≤ 100) (hf : 0 ≤ f) (hf' : f ≤ 100) :
    MSc (mat6Mul m k).toMatrix (M * K) (e + f + 6.02) (A * B) := by
  have h : ∀ i j, (mat6Mul m k).toMatrix i j = dot6 (m.rows i) (k.cols j) := by
    intro i j
    match i with
    | 0 | 1 | 2 | 3 | 4 | 5 => match j with | 0 | 1 | 2 | 3 | 4 | 5 => rfl
  intro i j
  rw [h, mul_apply, mul_apply]
  exact dot6_sc (fun l => by rw [← Mat6.toMatrix_rows]; exact hm i l) (fun l => by rw [← Mat6.toMatrix_cols]; exact hk l j)
    he he' hf hf'

theorem mat6Mul63_sc {m : Mat6} {k : Mat63} {M A : Matrix (Fin 6) (Fin 6) ℝ} {K B : Matrix (Fin 6) (Fin 3) ℝ} {e f : ℝ}
    (hm : MSc m.toMatrix M e A) (hk : MSc k.toMatrix K f B) (he : 0 ≤ e) (he' : e ≤ 100) (hf : 0 ≤ f) (hf' : f ≤ 100) :
    MSc (mat6Mul63 m k).toMatrix (M * K) (e + f + 6.02) (A * B) := by
  have h : ∀ i j, (mat6Mul63 m k).toMatrix i j = dot6 (m.rows i) (k.cols j) := by
    intro i j
    match i with
    | 0 | 1 | 2 | 3 | 4 | 5 => match j with | 0 | 1 | 2 => rfl
  intro i j
  rw [h, mul_apply, mul_apply]
  exact dot6_sc (fun l => by rw [← Mat6.toMatrix_rows]; exact hm i l)
    (fun l => by rw [← Mat63.toMatrix_cols]; exact hk l j) he he' hf hf'

theorem mat63Mul36_sc {m : Mat63} {k : Mat36} {M A : Matrix (Fin 6) (Fin 3) ℝ} {K B : Matrix (Fin 3) (Fin 6) ℝ} {e f : ℝ}
    (hm : MSc m.toMatrix M e A) (hk : MSc k.toMatrix K f B) (he : 0 ≤ e) (he' : e ≤ 100) (hf : 0 ≤ f) (hf' : f ≤ 100) :
    MSc (mat63Mul36 m k).toMatrix (M * K) (e + f + 3.02) (A * B) := by
  have h : ∀ i j, (mat63Mul36 m k).toMatrix i j = dot (m.rows i) (k.cols j) := by
    intro i j
    match i with
    | 0 | 1 | 2 | 3 | 4 | 5 => match j with | 0 | 1 | 2 | 3 | 4 | 5 => rfl
  intro i j
  rw [h, mul_apply, mul_apply]
  exact dot_sc (fun l => by rw [← Mat63.toMatrix_rows]; exact hm i l)
    (fun l => by rw [← Mat36.toMatrix_cols]; exact hk l j) he he' hf hf'

theorem mat3Mul36_sc {m : Mat3} {k : Mat36} {M A : Matrix (Fin 3) (Fin 3) ℝ} {K B : Matrix (Fin 3) (Fin 6) ℝ} {e f : ℝ}
    (hm : MSc m.toMatrix M e A) (hk : MSc k.toMatrix K f B) (he : 0 ≤ e) (he' : e ≤ 100) (hf : 0 ≤ f) (hf' : f ≤ 100) :
    MSc (mat3Mul36 m k).toMatrix (M * K) (e + f + 3.02) (A * B) := by
  have h : ∀ i j, (mat3Mul36 m k).toMatrix i j = dot (m.rows i) (k.cols j) := by
    intro i j
    match i with
    | 0 | 1 | 2 => match j with | 0 | 1 | 2 | 3 | 4 | 5 => rfl
  intro i j
  rw [h, mul_apply, mul_apply]
  exact dot_sc (fun l => by rw [← Mat3.toMatrix_rows]; exact hm i l)
    (fun l => by rw [← Mat36.toMatrix_cols]; exact hk l j) he he' hf hf'

theorem mat63MulVec_sc {m : Mat63} {v : Vec3} {M A : Matrix (Fin 6) (Fin 3) ℝ} {x X : Fin 3 → ℝ} {e f : ℝ}
    (hm : MSc m.toMatrix M e A) (hv : ∀ l, Sc (v.toFun l) (x l) f (X l)) (he : 0 ≤ e) (he' : e ≤ 100) (hf : 0 ≤ f)
    (hf' : f ≤ 100) (i : Fin 6) : Sc ((mat63MulVec m v).toFun i) ((M *ᵥ x) i) (e + f + 3.02) ((A *ᵥ X) i) := by
  have h : (mat63MulVec m v).toFun i = dot (m.rows i) v := by match i with | 0 | 1 | 2 | 3 | 4 | 5 => rfl
  rw [h]
  exact dot_sc (fun l => by rw [← Mat63.toMatrix_rows]; exact hm i l) hv he he' hf hf'

/-! ## sums -/

theorem plus6_toFun (a b : Vec6) (i : Fin 6) : (plus6 a b).toFun i = rnd (a.toFun i + b.toFun i) := by
  match i with | 0 | 1 | 2 | 3 | 4 | 5 => rfl

theorem minus6_toFun (a b : Vec6) (i : Fin 6) : (minus6 a b).toFun i = rnd (a.toFun i - b.toFun i) := by
  match i with | 0 | 1 | 2 | 3 | 4 | 5 => rfl

theorem plus_toFun (a b : Vec3) (i : Fin 3) : (plus a b).toFun i = rnd (a.toFun i + b.toFun i) := by
  match i with | 0 | 1 | 2 => rfl

theorem minus_toFun (a b : Vec3) (i : Fin 3) : (minus a b).toFun i = rnd (a.toFun i - b.toFun i) := by
  match i with | 0 | 1 | 2 => rfl

theorem mat6Plus_entry (m k : Mat6) (i j : Fin 6) :
    (mat6Plus m k).toMatrix i j = rnd (m.toMatrix i j + k.toMatrix i j) := by
  have h : (mat6Plus m k).rows i = plus6 (m.rows i) (k.rows i) := by match i with | 0 | 1 | 2 | 3 | 4 | 5 => rfl
  rw [Mat6.toMatrix_rows, h, plus6_toFun, Mat6.toMatrix_rows, Mat6.toMatrix_rows]

theorem mat6Minus_entry (m k : Mat6) (i j : Fin 6) :
    (mat6Minus m k).toMatrix i j = rnd (m.toMatrix i j - k.toMatrix i j) := by
  have h : (mat6Minus m k).rows i = minus6 (m.rows i) (k.rows i) := by match i with | 0 | 1 | 2 | 3 | 4 | 5 => rfl
  rw [Mat6.toMatrix_rows, h, minus6_toFun, Mat6.toMatrix_rows, Mat6.toMatrix_rows]

theorem mat3Plus_entry (m k : Mat3) (i j : Fin 3) :
    (mat3Plus m k).toMatrix i j = rnd (m.toMatrix i j + k.toMatrix i j) := by
  have h : (mat3Plus m k).rows i = plus (m.rows i) (k.rows i) := by match i with | 0 | 1 | 2 => rfl
  rw [Mat3.toMatrix_rows, h, plus_toFun, Mat3.toMatrix_rows, Mat3.toMatrix_rows]

theorem mat6Plus_sc {m k : Mat6} {M K A B : Matrix (Fin 6) (Fin 6) ℝ} {e : ℝ} (hm : MSc m.toMatrix M e A)
    (hk : MSc k.toMatrix K e B) (he : 0 ≤ e) (he' : e ≤ 100) :
    MSc (mat6Plus m k).toMatrix (M + K) (e + 1.001) (A + B) := by
  intro i j
  rw [mat6Plus_entry]
  exact (hm i j).add (hk i j) he (by linarith)

/-! ## products with the rows of the identity are exact -/

theorem dot_unit (r : Vec3) (hr : ∀ l, rnd (r.toFun l) = r.toFun l) : dot r ⟨1, 0, 0⟩ = r.x ∧ dot r ⟨0, 1, 0⟩ = r.y ∧
    dot r ⟨0, 0, 1⟩ = r.z ∧ dot r ⟨0, 0, 0⟩ = 0 := by
  have h0 : rnd r.x = r.x := hr 0
  have h1 : rnd r.y = r.y := hr 1
  have h2 : rnd r.z = r.z := hr 2
  simp [dot, rnd_zero, h0, h1, h2]

theorem dot6_unit (r : Vec6) (hr : ∀ l, rnd (r.toFun l) = r.toFun l) : dot6 ⟨1, 0, 0, 0, 0, 0⟩ r = r.x ∧
    dot6 ⟨0, 1, 0, 0, 0, 0⟩ r = r.y ∧ dot6 ⟨0, 0, 1, 0, 0, 0⟩ r = r.z ∧ dot6 r ⟨1, 0, 0, 0, 0, 0⟩ = r.x ∧
    dot6 r ⟨0, 1, 0, 0, 0, 0⟩ = r.y ∧ dot6 r ⟨0, 0, 1, 0, 0, 0⟩ = r.z := by
  have h0 : rnd r.x = r.x := hr 0
  have h1 : rnd r.y = r.y := hr 1
  have h2 : rnd r.z = r.z := hr 2
  simp [dot6, rnd_zero, h0, h1, h2]

end Openspace.F64
