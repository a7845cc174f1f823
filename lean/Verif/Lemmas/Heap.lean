import Verif.Spec.Heap

/-!
# A small program logic for the heap model

`Iso c h0 n m Q` says that the program `m`, run on a heap which extends `h0` and has at least
`n` objects, changes none of the objects of `h0`, and (when `c` holds) makes the new objects
refer only to new objects.  `Q k a` is a fact about the result `a` and the number `k` of
objects at the end.
-/

namespace Openspace.Mem

variable {α β : Type} {c : Prop} {h0 : Heap} {n : ℕ}

/-- `h` extends `h0` without changing it; new objects refer to new objects when `c` holds -/
def Inv (c : Prop) (h0 h : Heap) : Prop :=
  h0.length ≤ h.length ∧ (∀ i, i < h0.length → h[i]? = h0[i]?) ∧
    (c → ∀ (i : ℕ) (o : Obj) (f : String) (b : ℕ), h0.length ≤ i → h[i]? = some o →
      o.fields f = some (.ref b) → h0.length ≤ b ∧ b < h.length)

def Iso (c : Prop) (h0 : Heap) (n : ℕ) (m : H α) (Q : ℕ → α → Prop) : Prop :=
  ∀ h, Inv c h0 h → n ≤ h.length → ∀ r h', m h = (r, h') →
    Inv c h0 h' ∧ h.length ≤ h'.length ∧ ∀ a, r = .ok a → Q h'.length a

/-- the result is a new object -/
def New (h0 : Heap) (k : ℕ) (a : ℕ) : Prop := h0.length ≤ a ∧ a < k

/-- nothing is known of the result -/
def Any (_ : ℕ) (_ : α) : Prop := True

theorem iso_pure {Q : ℕ → α → Prop} {a : α} (hQ : ∀ k, n ≤ k → Q k a) :
    Iso c h0 n (pure a : H α) Q := by
  intro h hi hn r h' e
  have e' : ((Except.ok a : Except PyErr α), h) = (r, h') := e
  injection e' with e1 e2
  subst e1; subst e2
  exact ⟨hi, le_rfl, fun b hb => by injection hb with hb; subst hb; exact hQ _ hn⟩

theorem iso_bind {Q : ℕ → α → Prop} {R : ℕ → β → Prop} {m : H α} {f : α → H β}
    (hm : Iso c h0 n m Q) (hf : ∀ a n', n ≤ n' → Q n' a → Iso c h0 n' (f a) R) :
    Iso c h0 n (m >>= f) R := by
  intro h hi hn r h' e
  have e' : PyM.bind m f h = (r, h') := e
  unfold PyM.bind at e'
  rcases hmh : m h with ⟨r1, h1⟩
  rw [hmh] at e'
  obtain ⟨hi1, hl1, hq⟩ := hm h hi hn r1 h1 hmh
  cases r1 with
  | error er =>
    simp only at e'
    injection e' with e1 e2
    subst e1; subst e2
    exact ⟨hi1, hl1, fun a ha => by cases ha⟩
  | ok a =>
    simp only at e'
    obtain ⟨hi2, hl2, hr⟩ := hf a h1.length (le_trans hn hl1) (hq a rfl) h1 hi1 le_rfl r h' e'
    exact ⟨hi2, le_trans hl1 hl2, hr⟩

theorem iso_lift {x : Py α} : Iso c h0 n (PyM.lift x : H α) Any := by
  intro h hi _ r h' e
  have e' : (x, h) = (r, h') := e
  injection e' with e1 e2
  subst e2
  exact ⟨hi, le_rfl, fun _ _ => trivial⟩

theorem iso_throw {e : PyErr} : Iso c h0 n (PyM.throw e : H α) Any := by
  intro h hi _ r h' e
  have e' : ((Except.error _ : Except PyErr α), h) = (r, h') := e
  injection e' with e1 e2
  subst e2
  exact ⟨hi, le_rfl, fun _ _ => trivial⟩

theorem iso_alloc {cls : String} : Iso c h0 n (alloc cls) (New h0) := by
  intro h hi _ r h' e
  have e' : ((Except.ok h.length : Except PyErr ℕ), h ++ [(⟨cls, fun _ => none⟩ : Obj)]) = (r, h') := e
  injection e' with e1 e2
  subst e1; subst e2
  obtain ⟨i1, i2, i3⟩ := hi
  refine ⟨⟨by simp; omega, ?_, ?_⟩, by simp, ?_⟩
  · intro i hlt
    rw [List.getElem?_append_left (by omega)]
    exact i2 i hlt
  · intro hc i o f b hge ho hf
    rcases lt_trichotomy i h.length with hlt | heq | hgt
    · rw [List.getElem?_append_left hlt] at ho
      have := i3 hc i o f b hge ho hf
      simp; omega
    · subst heq
      simp at ho
      subst ho
      cases hf
    · rw [List.getElem?_eq_none (by simp; omega)] at ho
      cases ho
  · intro a ha
    injection ha with ha
    subst ha
    exact ⟨i1, by simp⟩

theorem iso_getAttr {a : ℕ} {f : String} : Iso c h0 n (getAttr a f) Any := by
  intro h hi _ r h' e
  unfold getAttr at e
  have : h = h' := by
    split at e
    · exact (Prod.mk.inj e).2
    · split at e
      · exact (Prod.mk.inj e).2
      · exact (Prod.mk.inj e).2
  subst this
  exact ⟨hi, le_rfl, fun _ _ => trivial⟩

theorem iso_typeOf {a : ℕ} : Iso c h0 n (typeOf a) Any := by
  intro h hi _ r h' e
  unfold typeOf at e
  have : h = h' := by
    split at e <;> exact (Prod.mk.inj e).2
  subst this
  exact ⟨hi, le_rfl, fun _ _ => trivial⟩

theorem iso_set {a : ℕ} {f : String} {v : Val} (ha : h0.length ≤ a)
    (hv : c → ∀ b, v = .ref b → h0.length ≤ b ∧ b < n) :
    Iso c h0 n (setAttr a f v) Any := by
  intro h hi hn r h' e
  obtain ⟨i1, i2, i3⟩ := hi
  unfold setAttr at e
  split at e
  · rw [← (Prod.mk.inj e).2]
    exact ⟨⟨i1, i2, i3⟩, le_rfl, fun _ _ => trivial⟩
  · rename_i o ho
    rw [← (Prod.mk.inj e).2]
    refine ⟨⟨by simp; omega, ?_, ?_⟩, by simp, fun _ _ => trivial⟩
    · intro i hlt
      rw [List.getElem?_set_ne (by omega)]
      exact i2 i hlt
    · intro hc i o' g b hge ho' hg
      rw [List.length_set]
      by_cases hia : a = i
      · subst hia
        have hlt : a < h.length := by
          by_contra hcon
          rw [List.getElem?_eq_none (by omega)] at ho
          cases ho
        rw [List.getElem?_set_self hlt] at ho'
        injection ho' with ho'
        subst ho'
        simp only at hg
        split at hg
        · injection hg with hg
          have := hv hc b hg
          omega
        · exact i3 hc a o g b hge ho hg
      · rw [List.getElem?_set_ne hia] at ho'
        exact i3 hc i o' g b hge ho' hg

theorem iso_set_num {a : ℕ} {f : String} {x : ℝ} (ha : h0.length ≤ a) :
    Iso c h0 n (setAttr a f (.num x)) Any := iso_set ha fun _ b hb => by cases hb

theorem iso_set_flag {a : ℕ} {f : String} {x : Bool} (ha : h0.length ≤ a) :
    Iso c h0 n (setAttr a f (.flag x)) Any := iso_set ha fun _ b hb => by cases hb

theorem iso_set_str {a : ℕ} {f : String} {x : String} (ha : h0.length ≤ a) :
    Iso c h0 n (setAttr a f (.str x)) Any := iso_set ha fun _ b hb => by cases hb

theorem iso_set_ref {a : ℕ} {f : String} {b : ℕ} (ha : h0.length ≤ a) (hb : New h0 n b) :
    Iso c h0 n (setAttr a f (.ref b)) Any :=
  iso_set ha fun _ b' hb' => by injection hb' with hb'; subst hb'; exact hb

theorem iso_set_old {a : ℕ} {f : String} {b : ℕ} (ha : h0.length ≤ a) :
    Iso False h0 n (setAttr a f (.ref b)) Any := iso_set ha fun hc => hc.elim

theorem iso_getNum {a : ℕ} {f : String} : Iso c h0 n (getNum a f) Any := by
  unfold getNum
  refine iso_bind iso_getAttr fun v n' _ _ => ?_
  cases v
  · exact iso_pure fun _ _ => trivial
  all_goals exact iso_throw

theorem iso_getRef {a : ℕ} {f : String} : Iso c h0 n (getRef a f) Any := by
  unfold getRef
  refine iso_bind iso_getAttr fun v n' _ _ => ?_
  cases v
  case ref => exact iso_pure fun _ _ => trivial
  all_goals exact iso_throw

theorem iso_weaken {Q R : ℕ → α → Prop} {m : H α} (hm : Iso c h0 n m Q)
    (h : ∀ k a, Q k a → R k a) : Iso c h0 n m R := by
  intro hp hi hn r h' e
  obtain ⟨a, b, d⟩ := hm hp hi hn r h' e
  exact ⟨a, b, fun x hx => h _ _ (d x hx)⟩

/-- closes the arithmetic side conditions of the rules -/
macro "iso_side" : tactic =>
  `(tactic| (first | trivial | (simp only [New] at *; omega) | omega))

/-- one rule application -/
macro "iso_leaf" : tactic =>
  `(tactic| first
    | exact iso_alloc
    | exact iso_getNum
    | exact iso_getRef
    | exact iso_getAttr
    | exact iso_typeOf
    | exact iso_lift
    | (refine iso_set_num ?_; iso_side)
    | (refine iso_set_flag ?_; iso_side)
    | (refine iso_set_str ?_; iso_side)
    | (refine iso_set_ref ?_ ?_ <;> iso_side))

theorem iso_epochNew {v : ℝ} : Iso c h0 n (epochNew v) (New h0) := by
  unfold epochNew
  refine iso_bind iso_alloc fun self n1 _ hs => ?_
  refine iso_bind (by iso_leaf) fun _ n2 _ _ => ?_
  exact iso_pure fun k hk => by iso_side

theorem iso_epochCopy {e : ℕ} : Iso c h0 n (epochCopy e) (New h0) := by
  unfold epochCopy
  exact iso_bind iso_getNum fun _ _ _ _ => iso_epochNew

theorem iso_vec3New {x y z : ℝ} : Iso c h0 n (vec3New x y z) (New h0) := by
  unfold vec3New
  refine iso_bind iso_alloc fun self n1 _ hs => ?_
  refine iso_bind (by iso_leaf) fun _ n2 _ _ => ?_
  refine iso_bind (by iso_leaf) fun _ n3 _ _ => ?_
  refine iso_bind (by iso_leaf) fun _ n4 _ _ => ?_
  exact iso_pure fun k hk => by iso_side

theorem iso_vec3Get {a : ℕ} : Iso c h0 n (vec3Get a) Any := by
  unfold vec3Get
  refine iso_bind iso_getNum fun _ _ _ _ => ?_
  refine iso_bind iso_getNum fun _ _ _ _ => ?_
  refine iso_bind iso_getNum fun _ _ _ _ => ?_
  exact iso_pure fun _ _ => trivial

theorem iso_vec3Copy {a : ℕ} : Iso c h0 n (vec3Copy a) (New h0) := by
  unfold vec3Copy
  exact iso_bind iso_vec3Get fun _ _ _ _ => iso_vec3New

theorem iso_vec6New {x y z vx vy vz : ℝ} : Iso c h0 n (vec6New x y z vx vy vz) (New h0) := by
  unfold vec6New
  refine iso_bind iso_alloc fun self n1 _ hs => ?_
  refine iso_bind (by iso_leaf) fun _ n2 _ _ => ?_
  refine iso_bind (by iso_leaf) fun _ n3 _ _ => ?_
  refine iso_bind (by iso_leaf) fun _ n4 _ _ => ?_
  refine iso_bind (by iso_leaf) fun _ n5 _ _ => ?_
  refine iso_bind (by iso_leaf) fun _ n6 _ _ => ?_
  refine iso_bind (by iso_leaf) fun _ n7 _ _ => ?_
  exact iso_pure fun k hk => by iso_side

theorem iso_vec6Get {a : ℕ} : Iso c h0 n (vec6Get a) Any := by
  unfold vec6Get
  refine iso_bind iso_getNum fun _ _ _ _ => ?_
  refine iso_bind iso_getNum fun _ _ _ _ => ?_
  refine iso_bind iso_getNum fun _ _ _ _ => ?_
  refine iso_bind iso_getNum fun _ _ _ _ => ?_
  refine iso_bind iso_getNum fun _ _ _ _ => ?_
  refine iso_bind iso_getNum fun _ _ _ _ => ?_
  exact iso_pure fun _ _ => trivial

theorem iso_vec6Copy {a : ℕ} : Iso c h0 n (vec6Copy a) (New h0) := by
  unfold vec6Copy
  exact iso_bind iso_vec6Get fun _ _ _ _ => iso_vec6New

theorem iso_vec6FromPosVel {r v : ℕ} : Iso c h0 n (vec6FromPosVel r v) (New h0) := by
  unfold vec6FromPosVel
  refine iso_bind iso_vec3Get fun _ _ _ _ => ?_
  exact iso_bind iso_vec3Get fun _ _ _ _ => iso_vec6New

theorem iso_mat3New {r1 r2 r3 : ℕ} : Iso c h0 n (mat3New r1 r2 r3) (New h0) := by
  unfold mat3New
  refine iso_bind iso_alloc fun self n1 _ hs => ?_
  refine iso_bind iso_vec3Copy fun a n2 _ ha => ?_
  refine iso_bind (by iso_leaf) fun _ n3 _ _ => ?_
  refine iso_bind iso_vec3Copy fun b n4 _ hb => ?_
  refine iso_bind (by iso_leaf) fun _ n5 _ _ => ?_
  refine iso_bind iso_vec3Copy fun d n6 _ hd => ?_
  refine iso_bind (by iso_leaf) fun _ n7 _ _ => ?_
  exact iso_pure fun k hk => by iso_side

theorem iso_mat36New {r1 r2 r3 : ℕ} : Iso c h0 n (mat36New r1 r2 r3) (New h0) := by
  unfold mat36New
  refine iso_bind iso_alloc fun self n1 _ hs => ?_
  refine iso_bind iso_vec6Copy fun a n2 _ ha => ?_
  refine iso_bind (by iso_leaf) fun _ n3 _ _ => ?_
  refine iso_bind iso_vec6Copy fun b n4 _ hb => ?_
  refine iso_bind (by iso_leaf) fun _ n5 _ _ => ?_
  refine iso_bind iso_vec6Copy fun d n6 _ hd => ?_
  refine iso_bind (by iso_leaf) fun _ n7 _ _ => ?_
  exact iso_pure fun k hk => by iso_side

theorem iso_mat63New {r1 r2 r3 r4 r5 r6 : ℕ} :
    Iso c h0 n (mat63New r1 r2 r3 r4 r5 r6) (New h0) := by
  unfold mat63New
  refine iso_bind iso_alloc fun self n1 _ hs => ?_
  refine iso_bind iso_vec3Copy fun a n2 _ ha => ?_
  refine iso_bind (by iso_leaf) fun _ n3 _ _ => ?_
  refine iso_bind iso_vec3Copy fun a n4 _ ha => ?_
  refine iso_bind (by iso_leaf) fun _ n5 _ _ => ?_
  refine iso_bind iso_vec3Copy fun a n6 _ ha => ?_
  refine iso_bind (by iso_leaf) fun _ n7 _ _ => ?_
  refine iso_bind iso_vec3Copy fun a n8 _ ha => ?_
  refine iso_bind (by iso_leaf) fun _ n9 _ _ => ?_
  refine iso_bind iso_vec3Copy fun a n10 _ ha => ?_
  refine iso_bind (by iso_leaf) fun _ n11 _ _ => ?_
  refine iso_bind iso_vec3Copy fun a n12 _ ha => ?_
  refine iso_bind (by iso_leaf) fun _ n13 _ _ => ?_
  exact iso_pure fun k hk => by iso_side

theorem iso_mat6New {r1 r2 r3 r4 r5 r6 : ℕ} :
    Iso c h0 n (mat6New r1 r2 r3 r4 r5 r6) (New h0) := by
  unfold mat6New
  refine iso_bind iso_alloc fun self n1 _ hs => ?_
  refine iso_bind iso_vec6Copy fun a n2 _ ha => ?_
  refine iso_bind (by iso_leaf) fun _ n3 _ _ => ?_
  refine iso_bind iso_vec6Copy fun a n4 _ ha => ?_
  refine iso_bind (by iso_leaf) fun _ n5 _ _ => ?_
  refine iso_bind iso_vec6Copy fun a n6 _ ha => ?_
  refine iso_bind (by iso_leaf) fun _ n7 _ _ => ?_
  refine iso_bind iso_vec6Copy fun a n8 _ ha => ?_
  refine iso_bind (by iso_leaf) fun _ n9 _ _ => ?_
  refine iso_bind iso_vec6Copy fun a n10 _ ha => ?_
  refine iso_bind (by iso_leaf) fun _ n11 _ _ => ?_
  refine iso_bind iso_vec6Copy fun a n12 _ ha => ?_
  refine iso_bind (by iso_leaf) fun _ n13 _ _ => ?_
  exact iso_pure fun k hk => by iso_side

theorem iso_mat6OfValue {m : Mat6} : Iso c h0 n (mat6OfValue m) (New h0) := by
  unfold mat6OfValue
  refine iso_bind iso_vec6New fun _ _ _ _ => ?_
  refine iso_bind iso_vec6New fun _ _ _ _ => ?_
  refine iso_bind iso_vec6New fun _ _ _ _ => ?_
  refine iso_bind iso_vec6New fun _ _ _ _ => ?_
  refine iso_bind iso_vec6New fun _ _ _ _ => ?_
  refine iso_bind iso_vec6New fun _ _ _ _ => ?_
  exact iso_mat6New

theorem iso_stateInit {self e r v : ℕ} (hs : New h0 n self) :
    Iso c h0 n (stateInit self e r v) Any := by
  unfold stateInit
  refine iso_bind iso_epochCopy fun a n2 _ ha => ?_
  refine iso_bind (by iso_leaf) fun _ n3 _ _ => ?_
  refine iso_bind iso_vec3Copy fun a n4 _ ha => ?_
  refine iso_bind (by iso_leaf) fun _ n5 _ _ => ?_
  refine iso_bind iso_vec3Copy fun a n6 _ ha => ?_
  refine iso_bind (by iso_leaf) fun _ n7 _ _ => ?_
  refine iso_bind iso_getRef fun p n8 _ _ => ?_
  refine iso_bind iso_getRef fun q n9 _ _ => ?_
  refine iso_bind iso_vec6FromPosVel fun a n10 _ ha => ?_
  iso_leaf

theorem iso_plainStateNew {cls : String} {e r v : ℕ} :
    Iso c h0 n (plainStateNew cls e r v) (New h0) := by
  unfold plainStateNew
  refine iso_bind iso_alloc fun self n1 _ hs => ?_
  refine iso_bind (iso_stateInit hs) fun _ n2 _ _ => ?_
  exact iso_pure fun k hk => by iso_side

theorem iso_gcrfNew {e r v : ℕ} : Iso c h0 n (gcrfNew e r v) (New h0) := by
  unfold gcrfNew
  refine iso_bind iso_alloc fun self n1 _ hs => ?_
  refine iso_bind (iso_stateInit hs) fun _ n2 _ _ => ?_
  refine iso_bind iso_vec3New fun a n3 _ ha => ?_
  refine iso_bind (by iso_leaf) fun _ n4 _ _ => ?_
  refine iso_bind (by iso_leaf) fun _ n5 _ _ => ?_
  refine iso_bind (by iso_leaf) fun _ n6 _ _ => ?_
  exact iso_pure fun k hk => by iso_side

theorem iso_stateCopy {s : ℕ} : Iso c h0 n (stateCopy s) (New h0) := by
  unfold stateCopy
  refine iso_bind iso_typeOf fun cls n1 _ _ => ?_
  refine iso_bind iso_getRef fun e n2 _ _ => ?_
  refine iso_bind iso_getRef fun r n3 _ _ => ?_
  refine iso_bind iso_getRef fun v n4 _ _ => ?_
  split
  · exact iso_gcrfNew
  · exact iso_plainStateNew

theorem iso_elementsNew {ep : ℕ} {a e i raan w ma : ℝ} :
    Iso c h0 n (elementsNew ep a e i raan w ma) (New h0) := by
  unfold elementsNew
  refine iso_bind iso_alloc fun self n1 _ hs => ?_
  refine iso_bind iso_epochCopy fun a n2 _ ha => ?_
  refine iso_bind (by iso_leaf) fun _ n3 _ _ => ?_
  refine iso_bind (by iso_leaf) fun _ n4 _ _ => ?_
  refine iso_bind (by iso_leaf) fun _ n5 _ _ => ?_
  refine iso_bind (by iso_leaf) fun _ n6 _ _ => ?_
  refine iso_bind (by iso_leaf) fun _ n7 _ _ => ?_
  refine iso_bind (by iso_leaf) fun _ n8 _ _ => ?_
  refine iso_bind (by iso_leaf) fun _ n9 _ _ => ?_
  exact iso_pure fun k hk => by iso_side

theorem iso_spaceObNew {s d : ℕ} {re ae : ℝ} : Iso c h0 n (spaceObNew s d re ae) (New h0) := by
  unfold spaceObNew
  refine iso_bind iso_alloc fun self n1 _ hs => ?_
  refine iso_bind iso_stateCopy fun a n2 _ ha => ?_
  refine iso_bind (by iso_leaf) fun _ n3 _ _ => ?_
  refine iso_bind iso_vec3Copy fun b n4 _ hb => ?_
  refine iso_bind (by iso_leaf) fun _ n5 _ _ => ?_
  refine iso_bind iso_vec3Get fun _ n6 _ _ => ?_
  refine iso_bind (by iso_leaf) fun _ n7 _ _ => ?_
  refine iso_bind (by iso_leaf) fun _ n8 _ _ => ?_
  refine iso_bind (by iso_leaf) fun _ n9 _ _ => ?_
  refine iso_bind (by iso_leaf) fun _ n10 _ _ => ?_
  refine iso_bind (by iso_leaf) fun _ n11 _ _ => ?_
  exact iso_pure fun k hk => by iso_side

theorem iso_groundObNew {s d : ℕ} {re ae : ℝ} : Iso c h0 n (groundObNew s d re ae) (New h0) := by
  unfold groundObNew
  refine iso_bind iso_alloc fun self n1 _ hs => ?_
  refine iso_bind iso_stateCopy fun a n2 _ ha => ?_
  refine iso_bind (by iso_leaf) fun _ n3 _ _ => ?_
  refine iso_bind iso_vec3Copy fun b n4 _ hb => ?_
  refine iso_bind (by iso_leaf) fun _ n5 _ _ => ?_
  refine iso_bind iso_vec3Get fun _ n6 _ _ => ?_
  refine iso_bind (by iso_leaf) fun _ n7 _ _ => ?_
  refine iso_bind (by iso_leaf) fun _ n8 _ _ => ?_
  refine iso_bind (by iso_leaf) fun _ n9 _ _ => ?_
  refine iso_bind (by iso_leaf) fun _ n10 _ _ => ?_
  refine iso_bind (by iso_leaf) fun _ n11 _ _ => ?_
  exact iso_pure fun k hk => by iso_side

theorem iso_rk4New {s : ℕ} : Iso c h0 n (rk4New s) (New h0) := by
  unfold rk4New
  refine iso_bind iso_alloc fun self n1 _ hs => ?_
  refine iso_bind iso_stateCopy fun a n2 _ ha => ?_
  refine iso_bind (by iso_leaf) fun _ n3 _ _ => ?_
  refine iso_bind (by iso_leaf) fun _ n4 _ _ => ?_
  refine iso_bind (by iso_leaf) fun _ n5 _ _ => ?_
  refine iso_bind (by iso_leaf) fun _ n6 _ _ => ?_
  refine iso_bind iso_vec3New fun b n7 _ hb => ?_
  refine iso_bind (by iso_leaf) fun _ n8 _ _ => ?_
  refine iso_bind (by iso_leaf) fun _ n9 _ _ => ?_
  exact iso_pure fun k hk => by iso_side

theorem iso_hillNew {s : ℕ} {sma : ℝ} : Iso c h0 n (hillNew s sma) (New h0) := by
  unfold hillNew
  refine iso_bind iso_alloc fun self n1 _ hs => ?_
  refine iso_bind iso_stateCopy fun a n2 _ ha => ?_
  refine iso_bind (by iso_leaf) fun _ n3 _ _ => ?_
  refine iso_bind (by iso_leaf) fun _ n4 _ _ => ?_
  refine iso_bind iso_lift fun _ n5 _ _ => ?_
  refine iso_bind (by iso_leaf) fun _ n6 _ _ => ?_
  refine iso_bind (by iso_leaf) fun _ n7 _ _ => ?_
  exact iso_pure fun k hk => by iso_side

theorem iso_cameraNew {p f : ℝ} : Iso c h0 n (cameraNew p f) (New h0) := by
  unfold cameraNew
  refine iso_bind iso_lift fun _ n0 _ _ => ?_
  refine iso_bind iso_alloc fun self n1 _ hs => ?_
  refine iso_bind (by iso_leaf) fun _ n3 _ _ => ?_
  refine iso_bind (by iso_leaf) fun _ n4 _ _ => ?_
  refine iso_bind iso_alloc fun limits n5 _ hl => ?_
  refine iso_bind (by iso_leaf) fun _ n6 _ _ => ?_
  refine iso_bind (by iso_leaf) fun _ n7 _ _ => ?_
  refine iso_bind (by iso_leaf) fun _ n8 _ _ => ?_
  refine iso_bind (by iso_leaf) fun _ n9 _ _ => ?_
  refine iso_bind (by iso_leaf) fun _ n10 _ _ => ?_
  refine iso_bind (by iso_leaf) fun _ n11 _ _ => ?_
  refine iso_bind (by iso_leaf) fun _ n12 _ _ => ?_
  refine iso_bind (by iso_leaf) fun _ n13 _ _ => ?_
  refine iso_bind (by iso_leaf) fun _ n14 _ _ => ?_
  exact iso_pure fun k hk => by iso_side

theorem iso_currentState {s : ℕ} : Iso c h0 n (currentState s) (New h0) := by
  unfold currentState
  refine iso_bind iso_getRef fun _ _ _ _ => ?_
  exact iso_bind iso_getRef fun _ _ _ _ => iso_stateCopy

theorem iso_currentEpoch {s : ℕ} : Iso c h0 n (currentEpoch s) (New h0) := by
  unfold currentEpoch
  refine iso_bind iso_currentState fun _ _ _ _ => ?_
  exact iso_bind iso_getRef fun _ _ _ _ => iso_epochCopy

theorem iso_position {s : ℕ} : Iso c h0 n (position s) (New h0) := by
  unfold position
  refine iso_bind iso_currentState fun _ _ _ _ => ?_
  exact iso_bind iso_getRef fun _ _ _ _ => iso_vec3Copy

theorem iso_velocity {s : ℕ} : Iso c h0 n (velocity s) (New h0) := by
  unfold velocity
  refine iso_bind iso_getRef fun _ _ _ _ => ?_
  refine iso_bind iso_getRef fun _ _ _ _ => ?_
  exact iso_bind iso_getRef fun _ _ _ _ => iso_vec3Copy

theorem iso_spacecraftNew {s : ℕ} : Iso c h0 n (spacecraftNew s) (New h0) := by
  unfold spacecraftNew
  refine iso_bind iso_alloc fun self n1 _ hs => ?_
  refine iso_bind iso_stateCopy fun init n2 _ hi => ?_
  refine iso_bind (by iso_leaf) fun _ n3 _ _ => ?_
  refine iso_bind (by iso_leaf) fun _ n4 _ _ => ?_
  refine iso_bind (by iso_leaf) fun _ n5 _ _ => ?_
  refine iso_bind iso_cameraNew fun w n6 _ hw => ?_
  refine iso_bind (by iso_leaf) fun _ n7 _ _ => ?_
  refine iso_bind iso_cameraNew fun w' n8 _ hw' => ?_
  refine iso_bind (by iso_leaf) fun _ n9 _ _ => ?_
  refine iso_bind (by iso_leaf) fun _ n10 _ _ => ?_
  refine iso_bind (by iso_leaf) fun _ n11 _ _ => ?_
  refine iso_bind (by iso_leaf) fun _ n12 _ _ => ?_
  refine iso_bind (by iso_leaf) fun _ n13 _ _ => ?_
  refine iso_bind (by iso_leaf) fun _ n14 _ _ => ?_
  refine iso_bind (by iso_leaf) fun _ n15 _ _ => ?_
  refine iso_bind (by iso_leaf) fun _ n16 _ _ => ?_
  refine iso_bind (by iso_leaf) fun _ n17 _ _ => ?_
  refine iso_bind iso_lift fun _ n18 _ _ => ?_
  refine iso_bind (by iso_leaf) fun _ n19 _ _ => ?_
  refine iso_bind iso_rk4New fun p n20 _ hp => ?_
  refine iso_bind (by iso_leaf) fun _ n21 _ _ => ?_
  refine iso_bind iso_position fun _ n22 _ _ => ?_
  refine iso_bind iso_vec3Get fun _ n23 _ _ => ?_
  refine iso_bind iso_vec3New fun bz n24 _ hbz => ?_
  refine iso_bind (by iso_leaf) fun _ n25 _ _ => ?_
  refine iso_bind iso_position fun _ n26 _ _ => ?_
  refine iso_bind iso_vec3Get fun _ n27 _ _ => ?_
  refine iso_bind iso_velocity fun _ n28 _ _ => ?_
  refine iso_bind iso_vec3Get fun _ n29 _ _ => ?_
  refine iso_bind iso_vec3New fun by' n30 _ hby => ?_
  refine iso_bind (by iso_leaf) fun _ n31 _ _ => ?_
  refine iso_bind iso_vec3New fun bx n32 _ hbx => ?_
  refine iso_bind (by iso_leaf) fun _ n33 _ _ => ?_
  exact iso_pure fun k hk => by iso_side

theorem iso_kalmanNew {d q e p : ℕ} : Iso False h0 n (kalmanNew d q e p) (New h0) := by
  unfold kalmanNew
  refine iso_bind iso_alloc fun self n1 _ hs => ?_
  refine iso_bind iso_epochCopy fun a n2 _ ha => ?_
  refine iso_bind (iso_set_old hs.1) fun _ n3 _ _ => ?_
  refine iso_bind (iso_set_old hs.1) fun _ n4 _ _ => ?_
  refine iso_bind iso_getRef fun _ n5 _ _ => ?_
  refine iso_bind iso_getRef fun _ n6 _ _ => ?_
  refine iso_bind iso_vec6Copy fun _ n7 _ _ => ?_
  refine iso_bind (iso_set_old hs.1) fun _ n8 _ _ => ?_
  refine iso_bind (iso_set_old hs.1) fun _ n9 _ _ => ?_
  refine iso_bind (iso_set_old hs.1) fun _ n10 _ _ => ?_
  refine iso_bind iso_getNum fun _ n11 _ _ => ?_
  refine iso_bind iso_lift fun _ n12 _ _ => ?_
  refine iso_bind iso_mat6OfValue fun _ n13 _ _ => ?_
  refine iso_bind (iso_set_old hs.1) fun _ n14 _ _ => ?_
  refine iso_bind (by iso_leaf) fun _ n15 _ _ => ?_
  refine iso_bind (by iso_leaf) fun _ n16 _ _ => ?_
  exact iso_pure fun k hk => by iso_side

theorem iso_obEpoch {ob : ℕ} : Iso c h0 n (obEpoch ob) Any := by
  unfold obEpoch
  exact iso_bind iso_getRef fun _ _ _ _ => iso_getRef

theorem Isolating.iso {m : H ℕ} (hm : Isolating m) : Iso True h0 n m (New h0) := by
  cases hm
  · exact iso_epochNew
  · exact iso_epochCopy
  · exact iso_vec3New
  · exact iso_vec3Copy
  · exact iso_vec6New
  · exact iso_vec6Copy
  · exact iso_vec6FromPosVel
  · exact iso_mat3New
  · exact iso_mat36New
  · exact iso_mat63New
  · exact iso_mat6New
  · exact iso_plainStateNew
  · exact iso_gcrfNew
  · exact iso_stateCopy
  · exact iso_elementsNew
  · exact iso_spaceObNew
  · exact iso_groundObNew
  · exact iso_rk4New
  · exact iso_hillNew
  · exact iso_cameraNew
  · exact iso_spacecraftNew
  · exact iso_currentState
  · exact iso_currentEpoch
  · exact iso_position
  · exact iso_velocity

theorem Inv.refl (c : Prop) (h : Heap) : Inv c h h :=
  ⟨le_rfl, fun _ _ => rfl, fun _ i o f b hge ho _ => by
    rw [List.getElem?_eq_none hge] at ho; cases ho⟩

theorem Isolating.spec {m : H ℕ} (hm : Isolating m) {h h1 : Heap} {r : Except PyErr ℕ}
    (e : m h = (r, h1)) : Inv True h h1 ∧ ∀ a, r = .ok a → h.length ≤ a ∧ a < h1.length := by
  obtain ⟨h1', _, h3⟩ := hm.iso (h0 := h) (n := 0) h (Inv.refl _ h) (Nat.zero_le _) r h1 e
  exact ⟨h1', h3⟩

/-- calls never change an existing object -/
theorem Call.keeps {m : H ℕ} (hm : Call m) {h h1 : Heap} {r : Except PyErr ℕ}
    (e : m h = (r, h1)) : h.length ≤ h1.length ∧ ∀ i, i < h.length → h1[i]? = h[i]? := by
  cases hm with
  | isolating hm => exact ⟨(hm.spec e).1.1, (hm.spec e).1.2.1⟩
  | kalman d q e' p =>
    have := iso_kalmanNew (h0 := h) (n := 0) h (Inv.refl _ h) (Nat.zero_le _) r h1 e
    exact ⟨this.1.1, this.1.2.1⟩
  | obEpoch ob =>
    have := iso_obEpoch (c := False) (h0 := h) (n := 0) h (Inv.refl _ h) (Nat.zero_le _) r h1 e
    exact ⟨this.1.1, this.1.2.1⟩

/-- later heaps agree with the present one on the protected objects -/
theorem Later.keeps {prot : ℕ → Prop} {h h2 : Heap} (hl : Later prot h h2) :
    h.length ≤ h2.length ∧ ∀ i, prot i → i < h.length → h2[i]? = h[i]? := by
  induction hl with
  | now => exact ⟨le_rfl, fun _ _ _ => rfl⟩
  | call _ hm e ih =>
    obtain ⟨k1, k2⟩ := hm.keeps e
    exact ⟨by omega, fun i hp hi => by rw [k2 i (by omega), ih.2 i hp hi]⟩
  | @assign h1 h2 a f v r _ hp e ih =>
    unfold setAttr at e
    split at e
    · rw [← (Prod.mk.inj e).2]; exact ih
    · rw [← (Prod.mk.inj e).2]
      refine ⟨by simpa using ih.1, fun i hi hlt => ?_⟩
      have : a ≠ i := fun hcon => hp (hcon ▸ hi)
      rw [List.getElem?_set_ne this]
      exact ih.2 i hi hlt

/-- heaps which agree on a set of objects closed under reading attributes give the same view
of its members -/
theorem view_congr {h1 h2 : Heap} (S : ℕ → Prop)
    (hclosed : ∀ i o f b, S i → h1[i]? = some o → o.fields f = some (.ref b) → S b)
    (hagree : ∀ i, S i → h2[i]? = h1[i]?) :
    ∀ (n : ℕ) (v : Val), (∀ b, v = .ref b → S b) → view h2 n v = view h1 n v := by
  intro n
  induction n with
  | zero => intro v _; cases v <;> simp [view]
  | succ n ih =>
    intro v hv
    cases v with
    | ref a =>
      have hS := hv a rfl
      simp only [view]
      rw [hagree a hS]
      cases ho : h1[a]? with
      | none => rfl
      | some o =>
        simp only
        congr 1
        funext f
        cases hf : o.fields f with
        | none => rfl
        | some w =>
          simp only [Option.map_some]
          congr 1
          refine ih w fun b hb => ?_
          subst hb
          exact hclosed a o f b hS ho hf
    | _ => simp [view]

end Openspace.Mem
