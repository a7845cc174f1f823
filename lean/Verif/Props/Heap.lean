import Verif.Lemmas.HeapValues
import Mathlib.Tactic.IntervalCases

/-!
# C71, C78, C79: aliasing

The model is `Model/Heap.lean`; `view`, `PartOf`, `Later` and the lists of calls are in
`Spec/Heap.lean`.
-/

namespace Openspace

open Mem

/-! ## C71: constructors isolate their inputs -/

/-- Whatever the constructor, `copy()` or accessor, everything reachable from the object it
returns was created by that call: no part of it is an argument, or part of an argument, or any
other object the caller could already hold. -/
theorem C71_parts {m : H ℕ} (hm : Isolating m) {h h1 : Heap} {a : ℕ} (e : m h = (.ok a, h1))
    {b : ℕ} (hb : PartOf h1 a b) : h.length ≤ b ∧ b < h1.length := by
  obtain ⟨hinv, hnew⟩ := hm.spec e
  induction hb with
  | self => exact hnew a rfl
  | attr _ ho hf ih => exact hinv.2.2 trivial _ _ _ _ ih.1 ho hf

/-- **C71**, objects passed in.  After the call, let the program do anything at all: more calls,
and assignments to any attribute of any object which is not one of the objects created by the
call (in particular of the arguments, of the objects the arguments consist of, and of anything
returned by later calls).  The object still looks the same, through attribute paths of every
length. -/
theorem C71_isolated {m : H ℕ} (hm : Isolating m) {h h1 h2 : Heap} {a : ℕ}
    (e : m h = (.ok a, h1))
    (hl : Later (fun b => h.length ≤ b ∧ b < h1.length) h1 h2) (n : ℕ) :
    view h2 n (.ref a) = view h1 n (.ref a) := by
  obtain ⟨hinv, hnew⟩ := hm.spec e
  obtain ⟨_, hk⟩ := hl.keeps
  refine view_congr (fun b => h.length ≤ b ∧ b < h1.length) ?_ ?_ n _ ?_
  · intro i o f b hi ho hf
    exact hinv.2.2 trivial i o f b hi.1 ho hf
  · intro i hi
    exact hk i hi hi.2
  · intro b hb
    injection hb with hb
    subst hb
    exact hnew a rfl

/-- **C71**, objects handed out.  Let `copy()`, `position()`, `velocity()`, `current_state()`,
`current_epoch()` or a constructor return an object, and let the program then do anything except
assigning to objects which existed before that call (for example, overwrite every part of the
returned object).  Every object which existed before still looks the same. -/
theorem C71_copies {m : H ℕ} (hm : Isolating m) {h h1 h2 : Heap} {r : Except PyErr ℕ}
    (hd : NoDangling h) (e : m h = (r, h1)) (hl : Later (fun b => b < h.length) h1 h2)
    {b : ℕ} (hb : b < h.length) (n : ℕ) : view h2 n (.ref b) = view h n (.ref b) := by
  obtain ⟨hinv, _⟩ := hm.spec e
  obtain ⟨_, hk⟩ := hl.keeps
  refine view_congr (fun b => b < h.length) ?_ ?_ n _ ?_
  · intro i o f b _ ho hf
    exact hd i o f b ho hf
  · intro i hi
    rw [hk i hi (lt_of_lt_of_le hi hinv.1), hinv.2.1 i hi]
  · intro b' hb'
    injection hb' with hb'
    subst hb'
    exact hb

/-- **C71**, values.  A state built from an `Epoch` and two `Vector3D` objects, and the copy of a
state, hold the values which the objects had at the time of the call; the value-level model of
the rest of this development is what the heap model computes. -/
theorem C71_values {h : Heap} {ep : Epoch} {r v : Vec3} {a b d : ℕ} (he : IsEpoch h ep a)
    (hr : IsVec3 h r b) (hv : IsVec3 h v d) :
    (∃ s h1, gcrfNew a b d h = (.ok s, h1) ∧ IsState h1 (GCRF.new ep r v).toState s ∧
      HasObj h1 s "thrust" (IsVec3 h1 (GCRF.new ep r v).thrust) ∧
      Has h1 s "srp_scalar" (.num (GCRF.new ep r v).srp_scalar) ∧
      Has h1 s "use_perturbations" (.flag (GCRF.new ep r v).use_perturbations)) ∧
    (∀ cls, ∃ s h1, plainStateNew cls a b d h = (.ok s, h1) ∧ IsState h1 (State.new ep r v) s) := by
  refine ⟨⟨_, _, run_gcrfNew he hr hv, ?_, ?_, ?_, ?_⟩, fun cls => ⟨_, _, run_plainStateNew cls he hr hv, ?_⟩⟩
  · exact isState_stateObj h _ _ ep r v (by simp [gcrfObj, stateObj, Obj.put])
      (by simp [gcrfObj, stateObj, Obj.put]) (by simp [gcrfObj, stateObj, Obj.put])
      (by simp [gcrfObj, stateObj, Obj.put])
  · exact ⟨h.length + 5, has_at _ _ _ _ _ (by simp [gcrfObj, Obj.put]),
      isVec3_at' h [_, _, _, _, _] [] ⟨0, 0, 0⟩ _ rfl⟩
  · exact has_at _ _ _ _ _ (by simp [gcrfObj, Obj.put, GCRF.new])
  · exact has_at _ _ _ _ _ (by simp [gcrfObj, Obj.put, GCRF.new])
  · exact isState_stateObj h _ _ ep r v (by simp [stateObj, Obj.put])
      (by simp [stateObj, Obj.put]) (by simp [stateObj, Obj.put])
      (by simp [stateObj, Obj.put])

/-- the copy of a state object of class `GCRF` (or of another state class) holds the epoch,
position and velocity of the original -/
theorem C71_copy_values {h : Heap} {s : State} {a : ℕ} {cls : String} (hs : IsState h s a)
    (hc : HasClass h a cls) :
    ∃ b h1, stateCopy a h = (.ok b, h1) ∧ b ≠ a ∧ HasClass h1 b cls ∧ IsState h1 s.copy b := by
  obtain ⟨⟨ie, he, hep⟩, ⟨ir, hr, hrp⟩, ⟨iv, hv, hvp⟩, _⟩ := hs
  have hlt : a < h.length := by
    obtain ⟨o, ho, _⟩ := hc
    by_contra hcon
    rw [List.getElem?_eq_none (by omega)] at ho
    cases ho
  have run : stateCopy a h = (if cls = "GCRF" then gcrfNew ie ir iv else plainStateNew cls ie ir iv) h := by
    unfold stateCopy
    rw [run_bind _ _ _ _ _ (run_typeOf hc), run_bind _ _ _ _ _ (run_getRef he),
      run_bind _ _ _ _ _ (run_getRef hr), run_bind _ _ _ _ _ (run_getRef hv)]
  rw [run]
  by_cases hcls : cls = "GCRF"
  · rw [if_pos hcls]
    subst hcls
    refine ⟨_, _, run_gcrfNew hep hrp hvp, by omega, ⟨_, by simp; rfl, rfl⟩, ?_⟩
    exact isState_stateObj h _ _ s.epoch s.position s.velocity
      (by simp [gcrfObj, stateObj, Obj.put]) (by simp [gcrfObj, stateObj, Obj.put])
      (by simp [gcrfObj, stateObj, Obj.put]) (by simp [gcrfObj, stateObj, Obj.put])
  · rw [if_neg hcls]
    refine ⟨_, _, run_plainStateNew cls hep hrp hvp, by omega, ⟨_, by simp; rfl, rfl⟩, ?_⟩
    exact isState_stateObj h _ _ s.epoch s.position s.velocity
      (by simp [stateObj, Obj.put]) (by simp [stateObj, Obj.put]) (by simp [stateObj, Obj.put])
      (by simp [stateObj, Obj.put])

section NonVacuity

/-- an assignment to an existing object succeeds -/
theorem set_ok {h h1 : Heap} {a : ℕ} {f g : String} {v w : Val} {r : Except PyErr Unit}
    (hh : Has h a f v) (e : setAttr a g w h = (r, h1)) : r = .ok () := by
  obtain ⟨o, ho, _⟩ := hh
  unfold setAttr at e
  rw [ho] at e
  exact (Prod.mk.inj e).1.symm

/-- an assignment sets the attribute -/
theorem Has.set_self {h h1 : Heap} {a : ℕ} {f : String} {v : Val}
    (e : setAttr a f v h = (.ok (), h1)) : Has h1 a f v := by
  unfold setAttr at e
  split at e
  · cases (Prod.mk.inj e).1
  · rename_i o ho
    rw [← (Prod.mk.inj e).2]
    have hlt : a < h.length := by
      by_contra hcon
      rw [List.getElem?_eq_none (by omega)] at ho
      cases ho
    exact ⟨_, List.getElem?_set_self hlt, by simp⟩

/-- an epoch and two vectors held by a caller -/
noncomputable def exHeap : Heap := [epochObj ⟨59000⟩, vec3Obj ⟨7000, 0, 0⟩, vec3Obj ⟨0, 7.5, 0⟩]

theorem exHeap_epoch : IsEpoch exHeap ⟨59000⟩ 0 := isEpoch_at [] _ _
theorem exHeap_pos : IsVec3 exHeap ⟨7000, 0, 0⟩ 1 := isVec3_at [_] _ _
theorem exHeap_vel : IsVec3 exHeap ⟨0, 7.5, 0⟩ 2 := isVec3_at [_, _] _ _

/-- The caller builds a state, then overwrites a component of the vector it passed, and then
builds a propagator: the state has not changed, although the vector has. -/
example : ∃ s h1 h2 h3 r, gcrfNew 0 1 2 exHeap = (.ok s, h1) ∧
    setAttr 1 "x" (.num 0) h1 = (.ok (), h2) ∧ rk4New s h2 = (r, h3) ∧
    (∀ n, view h3 n (.ref s) = view h1 n (.ref s)) ∧
    view h2 1 (.ref 1) ≠ view h1 1 (.ref 1) := by
  have e := run_gcrfNew exHeap_epoch exHeap_pos exHeap_vel
  obtain ⟨s, h1, e1, he1⟩ : ∃ s h1, gcrfNew 0 1 2 exHeap = (.ok s, h1) ∧ ∃ t, h1 = exHeap ++ t :=
    ⟨_, _, e, _, rfl⟩
  obtain ⟨t, rfl⟩ := he1
  have hx : Has (exHeap ++ t) 1 "x" (.num 7000) := exHeap_pos.1.append t
  rcases e2 : setAttr 1 "x" (.num 0) (exHeap ++ t) with ⟨r2, h2⟩
  have hr2 := set_ok hx e2
  subst hr2
  rcases e3 : rk4New s h2 with ⟨r, h3⟩
  refine ⟨s, _, h2, h3, r, e1, e2, e3, fun n => ?_, ?_⟩
  · refine C71_isolated (Isolating.gcrf 0 1 2) e1 ?_ n
    refine Later.call (Later.assign Later.now ?_ e2) (Call.isolating (Isolating.rk4 _)) e3
    simp [exHeap]
  · intro hcon
    obtain ⟨o, ho, hf⟩ := hx
    obtain ⟨o', ho', hf'⟩ := Has.set_self e2
    simp only [view, ho, ho'] at hcon
    injection hcon with _ hcon
    have := congrFun hcon "x"
    simp [hf, hf', view] at this

/-- the heap of the example has no dangling reference, so `C71_copies` applies to it -/
example : NoDangling exHeap := by
  intro i o f b ho hf
  have hi : i < 3 := by
    by_contra hcon
    rw [List.getElem?_eq_none (by simp [exHeap]; omega)] at ho
    cases ho
  interval_cases i <;> simp [exHeap] at ho <;> subst ho <;>
    simp [epochObj, vec3Obj, Obj.put, Obj.empty] at hf <;> split_ifs at hf <;> simp at hf

end NonVacuity

/-! ## C78: navigation filters share their default covariance and noise -/

theorem run_bind_inv {α β : Type} {m : H α} {f : α → H β} {h h' : Heap} {b : β}
    (e : (m >>= f) h = (.ok b, h')) : ∃ a h1, m h = (.ok a, h1) ∧ f a h1 = (.ok b, h') := by
  have e' : PyM.bind m f h = (.ok b, h') := e
  unfold PyM.bind at e'
  rcases hm : m h with ⟨r, h1⟩
  rw [hm] at e'
  cases r with
  | error er => simp at e'
  | ok a => exact ⟨a, h1, rfl, e'⟩

/-- programs which leave existing objects alone keep their attributes -/
theorem Has.keep {c : Prop} {α : Type} {m : H α} {Q : ℕ → α → Prop} {h h1 : Heap}
    {r : Except PyErr α} (hm : Iso c h 0 m Q) (e : m h = (r, h1)) {a : ℕ} {f : String}
    {v : Val} (hh : Has h a f v) : Has h1 a f v := by
  obtain ⟨o, ho, hf⟩ := hh
  obtain ⟨⟨_, hk, _⟩, _⟩ := hm h (Inv.refl _ h) (Nat.zero_le _) r h1 e
  refine ⟨o, ?_, hf⟩
  rw [hk a, ho]
  by_contra hcon
  rw [List.getElem?_eq_none (by omega)] at ho
  cases ho

/-- an assignment to another attribute keeps an attribute -/
theorem Has.set {h h1 : Heap} {a b : ℕ} {f g : String} {v w : Val} {r : Except PyErr Unit}
    (e : setAttr b g w h = (r, h1)) (hfg : f ≠ g ∨ a ≠ b) (hh : Has h a f v) : Has h1 a f v := by
  obtain ⟨o, ho, hf⟩ := hh
  unfold setAttr at e
  split at e
  · rw [← (Prod.mk.inj e).2]; exact ⟨o, ho, hf⟩
  · rename_i o' ho'
    rw [← (Prod.mk.inj e).2]
    have hlt : a < h.length := by
      by_contra hcon
      rw [List.getElem?_eq_none (by omega)] at ho
      cases ho
    by_cases hab : b = a
    · subst hab
      refine ⟨_, List.getElem?_set_self hlt, ?_⟩
      rw [ho] at ho'
      injection ho' with ho'
      subst ho'
      have : f ≠ g := hfg.resolve_right (fun hcon => hcon rfl)
      simp [this, hf]
    · exact ⟨o, by rw [List.getElem?_set_ne hab]; exact ho, hf⟩

/-- **C78** is violated.  The noise and covariance of every new filter are the two objects stored
in the class, and its propagator is the caller's: none of them is copied. -/
theorem C78_violated_shared {dcov dnoise e p : ℕ} {h h1 : Heap} {f : ℕ}
    (hk : kalmanNew dcov dnoise e p h = (.ok f, h1)) :
    Has h1 f "p00" (.ref dcov) ∧ Has h1 f "q" (.ref dnoise) ∧ Has h1 f "propagator" (.ref p) := by
  unfold kalmanNew at hk
  obtain ⟨self, k1, _, hk⟩ := run_bind_inv hk
  obtain ⟨_, k2, _, hk⟩ := run_bind_inv hk
  obtain ⟨_, k3, _, hk⟩ := run_bind_inv hk
  obtain ⟨_, k4, s4, hk⟩ := run_bind_inv hk
  obtain ⟨_, k5, s5, hk⟩ := run_bind_inv hk
  obtain ⟨_, k6, s6, hk⟩ := run_bind_inv hk
  obtain ⟨_, k7, s7, hk⟩ := run_bind_inv hk
  obtain ⟨_, k8, s8, hk⟩ := run_bind_inv hk
  obtain ⟨_, k9, s9, hk⟩ := run_bind_inv hk
  obtain ⟨_, k10, s10, hk⟩ := run_bind_inv hk
  obtain ⟨_, k11, s11, hk⟩ := run_bind_inv hk
  obtain ⟨_, k12, s12, hk⟩ := run_bind_inv hk
  obtain ⟨_, k13, s13, hk⟩ := run_bind_inv hk
  obtain ⟨_, k14, s14, hk⟩ := run_bind_inv hk
  obtain ⟨_, k15, s15, hk⟩ := run_bind_inv hk
  obtain ⟨_, k16, s16, hk⟩ := run_bind_inv hk
  have hk' : ((Except.ok self : Except PyErr ℕ), k16) = (.ok f, h1) := hk
  injection hk' with e1 e2
  injection e1 with e1
  subst e1; subst e2
  have tail : ∀ g v, g ≠ "f" → g ≠ "range_error" → g ≠ "angular_error" → Has k10 self g v →
      Has k16 self g v := by
    intro g v n1 n2 n3 hh
    have h11 := Has.keep (c := False) iso_getNum s11 hh
    have h12 := Has.keep (c := False) iso_lift s12 h11
    have h13 := Has.keep (c := False) iso_mat6OfValue s13 h12
    exact Has.set s16 (Or.inl n3) (Has.set s15 (Or.inl n2) (Has.set s14 (Or.inl n1) h13))
  refine ⟨tail _ _ (by decide) (by decide) (by decide) ?_,
    tail _ _ (by decide) (by decide) (by decide) ?_,
    tail _ _ (by decide) (by decide) (by decide) ?_⟩
  · exact Has.set s10 (Or.inl (by decide)) (Has.set_self s9)
  · exact Has.set_self s10
  · have h5 := Has.keep (c := False) iso_getRef s5 (Has.set_self s4)
    have h6 := Has.keep (c := False) iso_getRef s6 h5
    have h7 := Has.keep (c := False) iso_vec6Copy s7 h6
    exact Has.set s10 (Or.inl (by decide)) (Has.set s9 (Or.inl (by decide))
      (Has.set s8 (Or.inl (by decide)) h7))

/-- the value of a number found by following three attributes is visible in the view -/
theorem view_path {h : Heap} {a b d : ℕ} {f g k : String} {x : ℝ} (h1 : Has h a f (.ref b))
    (h2 : Has h b g (.ref d)) (h3 : Has h d k (.num x)) {cls cls' cls'' : String}
    {F G K : String → Option Tree}
    (hv : view h 3 (.ref a) = .node cls F) (hF : F f = some (.node cls' G))
    (hG : G g = some (.node cls'' K)) : K k = some (.num x) := by
  obtain ⟨o1, q1, p1⟩ := h1
  obtain ⟨o2, q2, p2⟩ := h2
  obtain ⟨o3, q3, p3⟩ := h3
  simp only [view, q1] at hv
  injection hv with _ hv
  subst hv
  simp only [p1, Option.map_some, view, q2] at hF
  injection hF with hF
  injection hF with _ hF
  subst hF
  simp only [p2, Option.map_some, view, q3] at hG
  injection hG with hG
  injection hG with _ hG
  subst hG
  simp [p3, view]

/-- different numbers at the end of the same path of three attributes make different views -/
theorem view_ne {h h' : Heap} {a b d b' d' : ℕ} {f g k : String} {x y : ℝ}
    (h1 : Has h a f (.ref b)) (h2 : Has h b g (.ref d)) (h3 : Has h d k (.num x))
    (h1' : Has h' a f (.ref b')) (h2' : Has h' b' g (.ref d')) (h3' : Has h' d' k (.num y))
    (hxy : x ≠ y) : view h 3 (.ref a) ≠ view h' 3 (.ref a) := by
  intro hcon
  obtain ⟨o1, q1, p1⟩ := h1
  obtain ⟨o2, q2, p2⟩ := h2
  have hv : view h 3 (.ref a) = .node o1.cls fun f => (o1.fields f).map (view h 2) := by
    simp only [view, q1]
  have hF : (fun f => (o1.fields f).map (view h 2)) f
      = some (.node o2.cls fun f => (o2.fields f).map (view h 1)) := by
    simp only [p1, Option.map_some, view, q2]
  obtain ⟨o3, q3, p3⟩ := h3
  have hG : (fun f => (o2.fields f).map (view h 1)) g
      = some (.node o3.cls fun f => (o3.fields f).map (view h 0)) := by
    simp only [p2, Option.map_some, view, q3]
  have e1 := view_path ⟨o1, q1, p1⟩ ⟨o2, q2, p2⟩ ⟨o3, q3, p3⟩ hv hF hG
  have e2 := view_path h1' h2' h3' (hcon ▸ hv) hF hG
  rw [e1] at e2
  injection e2 with e2
  injection e2 with e2
  exact hxy e2

/-- **C78** is violated, observably.  Make two filters, for any epochs and propagators; write one
entry of the noise matrix of the first, `first.q.row1.x = y`; the second filter has changed. -/
theorem C78_violated {dcov dnoise row e1 p1 e2 p2 : ℕ} {h h1 h2 h3 : Heap} {f1 f2 : ℕ} {x y : ℝ}
    {r : Except PyErr Unit}
    (hrow : Has h dnoise "row1" (.ref row)) (hx : Has h row "x" (.num x))
    (hk1 : kalmanNew dcov dnoise e1 p1 h = (.ok f1, h1))
    (hk2 : kalmanNew dcov dnoise e2 p2 h1 = (.ok f2, h2))
    (hset : setAttr row "x" (.num y) h2 = (r, h3)) (hxy : x ≠ y) :
    f1 ≠ f2 ∧ Has h2 f1 "q" (.ref dnoise) ∧
      view h2 3 (.ref f2) ≠ view h3 3 (.ref f2) := by
  have g1 := C78_violated_shared hk1
  have g2 := C78_violated_shared hk2
  have i1 := (iso_kalmanNew (h0 := h) (n := 0) h (Inv.refl _ h) (Nat.zero_le _) _ h1 hk1)
  have i2 := (iso_kalmanNew (h0 := h1) (n := 0) h1 (Inv.refl _ h1) (Nat.zero_le _) _ h2 hk2)
  have n1 := i1.2.2 f1 rfl
  have n2 := i2.2.2 f2 rfl
  have hne : f1 ≠ f2 := by
    have := n1.2
    have := n2.1
    omega
  have k1 : ∀ {a f v}, Has h a f v → Has h2 a f v := fun hh =>
    Has.keep iso_kalmanNew hk2 (Has.keep iso_kalmanNew hk1 hh)
  have hx2 := k1 hx
  refine ⟨hne, Has.keep iso_kalmanNew hk2 g1.2.1, ?_⟩
  have hset' : setAttr row "x" (.num y) h2 = (.ok (), h3) := by
    rw [hset, set_ok hx2 hset]
  exact view_ne g2.2.1 (k1 hrow) hx2 (Has.set hset' (Or.inl (by decide)) g2.2.1)
    (Has.set hset' (Or.inl (by decide)) (k1 hrow)) (Has.set_self hset') hxy

/-- the hypotheses of `C78_violated` are met: a Hill propagator with a non-zero rate, an epoch
and a noise matrix, from which two filters can be made -/
example : ∃ (h h1 h2 h3 : Heap) (f1 f2 : ℕ) (r : Except PyErr Unit),
    Has h 5 "row1" (.ref 0) ∧ Has h 0 "x" (.num 1) ∧
    kalmanNew 5 5 1 2 h = (.ok f1, h1) ∧ kalmanNew 5 5 1 2 h1 = (.ok f2, h2) ∧
    setAttr 0 "x" (.num 2) h2 = (r, h3) := by
  obtain ⟨h, hh⟩ : ∃ h : Heap, h = [vec6Obj ⟨1, 0, 0, 0, 0, 0⟩, epochObj ⟨59000⟩,
    ((Obj.empty "Hill").put "state" (.ref 3)).put "n" (.num 1),
    (Obj.empty "HCW").put "vector" (.ref 4), vec6Obj ⟨1, 2, 3, 0, 0, 0⟩,
    (Obj.empty "Matrix6D").put "row1" (.ref 0)] := ⟨_, rfl⟩
  have he : IsEpoch h ⟨59000⟩ 1 := by rw [hh]; exact isEpoch_at [_] _ _
  have hs : Has h 2 "state" (.ref 3) := by
    rw [hh]; exact has_at [_, _] _ _ _ _ (by simp [Obj.put])
  have hw : Has h 3 "vector" (.ref 4) := by
    rw [hh]; exact has_at [_, _, _] _ _ _ _ (by simp [Obj.put])
  have hv : IsVec6 h ⟨1, 2, 3, 0, 0, 0⟩ 4 := by rw [hh]; exact isVec6_at [_, _, _, _] _ _
  have hn : Has h 2 "n" (.num 1) := by
    rw [hh]; exact has_at [_, _] _ _ _ _ (by simp [Obj.put])
  obtain ⟨f1, h1, e1⟩ := run_kalmanNew (dcov := 5) (dnoise := 5) he hs hw hv hn one_ne_zero
  have k : ∀ {a f v}, Has h a f v → Has h1 a f v := fun q => Has.keep iso_kalmanNew e1 q
  obtain ⟨f2, h2, e2⟩ := run_kalmanNew (dcov := 5) (dnoise := 5) (k he) (k hs) (k hw)
    ⟨k hv.1, k hv.2.1, k hv.2.2.1, k hv.2.2.2.1, k hv.2.2.2.2.1, k hv.2.2.2.2.2⟩ (k hn) one_ne_zero
  rcases e3 : setAttr 0 "x" (.num 2) h2 with ⟨r, h3⟩
  refine ⟨h, h1, h2, h3, f1, f2, r, ?_, ?_, e1, e2, e3⟩
  · rw [hh]; exact has_at [_, _, _, _, _] _ _ _ _ (by simp [Obj.put])
  · rw [hh]; exact has_at [] _ _ _ _ (by simp [vec6Obj, Obj.put])

/-- What does hold of C78: making a filter changes no existing object, whether it succeeds or
raises. -/
theorem C78_own_partial {dcov dnoise e p : ℕ} {h h1 : Heap} {r : Except PyErr ℕ}
    (hk : kalmanNew dcov dnoise e p h = (r, h1)) (hd : NoDangling h) {b : ℕ} (hb : b < h.length)
    (n : ℕ) : view h1 n (.ref b) = view h n (.ref b) := by
  obtain ⟨_, hkeep⟩ := (Call.kalman dcov dnoise e p).keeps hk
  refine view_congr (fun b => b < h.length) (fun i o f b _ ho hf => hd i o f b ho hf) hkeep n _ ?_
  intro b' hb'
  injection hb' with hb'
  subst hb'
  exact hb

/-! ## C79: an observation hands out its own epoch -/

/-- **C79** is violated: for every observation with an observer state, `ob.epoch()` is the object
stored in the observation, so `ob.epoch().value = y` changes the observation. -/
theorem C79_violated {ob s ep : ℕ} {h h2 : Heap} {x y : ℝ} {r : Except PyErr Unit}
    (hs : Has h ob "observer_state" (.ref s)) (he : Has h s "epoch" (.ref ep))
    (hx : Has h ep "value" (.num x)) (hset : setAttr ep "value" (.num y) h = (r, h2))
    (hxy : x ≠ y) :
    obEpoch ob h = (.ok ep, h) ∧ view h 3 (.ref ob) ≠ view h2 3 (.ref ob) := by
  have hset' : setAttr ep "value" (.num y) h = (.ok (), h2) := by
    rw [hset, set_ok hx hset]
  refine ⟨?_, ?_⟩
  · unfold obEpoch
    rw [run_bind _ _ _ _ _ (run_getRef hs)]
    exact run_getRef he
  · exact view_ne hs he hx (Has.set hset' (Or.inl (by decide)) hs)
      (Has.set hset' (Or.inl (by decide)) he) (Has.set_self hset') hxy

/-- a heap with such an observation -/
example : ∃ (h : Heap) (ob s ep : ℕ), Has h ob "observer_state" (.ref s) ∧
    Has h s "epoch" (.ref ep) ∧ Has h ep "value" (.num 59000) :=
  ⟨[(Obj.empty "SpaceObservation").put "observer_state" (.ref 1),
    (Obj.empty "GCRF").put "epoch" (.ref 2), epochObj ⟨59000⟩], 0, 1, 2,
    has_at [] _ _ _ _ (by simp [Obj.put]), has_at [_] _ _ _ _ (by simp [Obj.put]),
    has_at [_, _] _ _ _ _ (by simp [epochObj, Obj.put])⟩

end Openspace
