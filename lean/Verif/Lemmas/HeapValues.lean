import Verif.Lemmas.Heap

/-!
# Running the heap constructors

A constructor appends its new objects to the heap.  These lemmas compute them.
-/

namespace Openspace.Mem

noncomputable section

/-- `o` after `o.f = v` -/
def Obj.put (o : Obj) (f : String) (v : Val) : Obj :=
  ⟨o.cls, fun g => if g = f then some v else o.fields g⟩

/-- a new object -/
def Obj.empty (cls : String) : Obj := ⟨cls, fun _ => none⟩

/-- the object made by `Epoch(value)` -/
def epochObj (e : Epoch) : Obj := (Obj.empty "Epoch").put "value" (.num e.value)

/-- the object made by `Vector3D(x, y, z)` -/
def vec3Obj (v : Vec3) : Obj :=
  (((Obj.empty "Vector3D").put "x" (.num v.x)).put "y" (.num v.y)).put "z" (.num v.z)

/-- the object made by `Vector6D(...)` -/
def vec6Obj (v : Vec6) : Obj :=
  ((((((Obj.empty "Vector6D").put "x" (.num v.x)).put "y" (.num v.y)).put "z" (.num v.z)).put
    "vx" (.num v.vx)).put "vy" (.num v.vy)).put "vz" (.num v.vz)

end

variable {α β : Type}

theorem run_bind (m : H α) (f : α → H β) (h h' : Heap) (a : α) (hm : m h = (.ok a, h')) :
    (m >>= f) h = f a h' := by
  change PyM.bind m f h = _
  simp [PyM.bind, hm]

theorem run_pure (a : α) (h : Heap) : (pure a : H α) h = (.ok a, h) := rfl

theorem run_alloc (cls : String) (h : Heap) :
    alloc cls h = (.ok h.length, h ++ [Obj.empty cls]) := rfl

theorem run_set (h t : Heap) (o : Obj) (f : String) (v : Val) :
    setAttr h.length f v (h ++ o :: t) = (.ok (), h ++ o.put f v :: t) := by
  simp [setAttr, Obj.put]

theorem run_set' (h t : Heap) (a : ℕ) (o : Obj) (f : String) (v : Val) (ha : a = h.length) :
    setAttr a f v (h ++ o :: t) = (.ok (), h ++ o.put f v :: t) := by
  subst ha; exact run_set h t o f v

theorem Has.append {h : Heap} {a : ℕ} {f : String} {v : Val} (hh : Has h a f v) (t : Heap) :
    Has (h ++ t) a f v := by
  obtain ⟨o, ho, hf⟩ := hh
  have : a < h.length := by
    by_contra hcon
    rw [List.getElem?_eq_none (by omega)] at ho
    cases ho
  exact ⟨o, by rw [List.getElem?_append_left this]; exact ho, hf⟩

theorem HasClass.append {h : Heap} {a : ℕ} {k : String} (hh : HasClass h a k) (t : Heap) :
    HasClass (h ++ t) a k := by
  obtain ⟨o, ho, hf⟩ := hh
  have : a < h.length := by
    by_contra hcon
    rw [List.getElem?_eq_none (by omega)] at ho
    cases ho
  exact ⟨o, by rw [List.getElem?_append_left this]; exact ho, hf⟩

theorem IsEpoch.append {h : Heap} {a : ℕ} {e : Epoch} (hh : IsEpoch h e a) (t : Heap) :
    IsEpoch (h ++ t) e a := Has.append hh t

theorem IsVec3.append {h : Heap} {a : ℕ} {v : Vec3} (hh : IsVec3 h v a) (t : Heap) :
    IsVec3 (h ++ t) v a := ⟨hh.1.append t, hh.2.1.append t, hh.2.2.append t⟩

theorem IsVec6.append {h : Heap} {a : ℕ} {v : Vec6} (hh : IsVec6 h v a) (t : Heap) :
    IsVec6 (h ++ t) v a :=
  ⟨hh.1.append t, hh.2.1.append t, hh.2.2.1.append t, hh.2.2.2.1.append t, hh.2.2.2.2.1.append t,
    hh.2.2.2.2.2.append t⟩

theorem run_getAttr {h : Heap} {a : ℕ} {f : String} {v : Val} (hh : Has h a f v) :
    getAttr a f h = (.ok v, h) := by
  obtain ⟨o, ho, hf⟩ := hh
  simp [getAttr, ho, hf]

theorem run_getNum {h : Heap} {a : ℕ} {f : String} {x : ℝ} (hh : Has h a f (.num x)) :
    getNum a f h = (.ok x, h) := by
  unfold getNum
  rw [run_bind _ _ _ _ _ (run_getAttr hh)]
  rfl

theorem run_getRef {h : Heap} {a b : ℕ} {f : String} (hh : Has h a f (.ref b)) :
    getRef a f h = (.ok b, h) := by
  unfold getRef
  rw [run_bind _ _ _ _ _ (run_getAttr hh)]
  rfl

theorem run_typeOf {h : Heap} {a : ℕ} {k : String} (hh : HasClass h a k) :
    typeOf a h = (.ok k, h) := by
  obtain ⟨o, ho, hf⟩ := hh
  simp [typeOf, ho, hf]

theorem run_epochNew (x : ℝ) (h : Heap) :
    epochNew x h = (.ok h.length, h ++ [epochObj ⟨x⟩]) := by
  unfold epochNew
  rw [run_bind _ _ _ _ _ (run_alloc _ h), run_bind _ _ _ _ _ (run_set h [] _ _ _)]
  rfl

theorem run_epochCopy {h : Heap} {e : Epoch} {a : ℕ} (he : IsEpoch h e a) :
    epochCopy a h = (.ok h.length, h ++ [epochObj e]) := by
  unfold epochCopy
  rw [run_bind _ _ _ _ _ (run_getNum he), run_epochNew]

theorem run_vec3New (v : Vec3) (h : Heap) :
    vec3New v.x v.y v.z h = (.ok h.length, h ++ [vec3Obj v]) := by
  unfold vec3New
  rw [run_bind _ _ _ _ _ (run_alloc _ h), run_bind _ _ _ _ _ (run_set h [] _ _ _),
    run_bind _ _ _ _ _ (run_set h [] _ _ _), run_bind _ _ _ _ _ (run_set h [] _ _ _)]
  rfl

theorem run_vec3Get {h : Heap} {v : Vec3} {a : ℕ} (hv : IsVec3 h v a) :
    vec3Get a h = (.ok v, h) := by
  unfold vec3Get
  rw [run_bind _ _ _ _ _ (run_getNum hv.1), run_bind _ _ _ _ _ (run_getNum hv.2.1),
    run_bind _ _ _ _ _ (run_getNum hv.2.2)]
  rfl

theorem run_vec3Copy {h : Heap} {v : Vec3} {a : ℕ} (hv : IsVec3 h v a) :
    vec3Copy a h = (.ok h.length, h ++ [vec3Obj v]) := by
  unfold vec3Copy
  rw [run_bind _ _ _ _ _ (run_vec3Get hv), run_vec3New]

theorem run_vec6New (v : Vec6) (h : Heap) :
    vec6New v.x v.y v.z v.vx v.vy v.vz h = (.ok h.length, h ++ [vec6Obj v]) := by
  unfold vec6New
  rw [run_bind _ _ _ _ _ (run_alloc _ h), run_bind _ _ _ _ _ (run_set h [] _ _ _),
    run_bind _ _ _ _ _ (run_set h [] _ _ _), run_bind _ _ _ _ _ (run_set h [] _ _ _),
    run_bind _ _ _ _ _ (run_set h [] _ _ _), run_bind _ _ _ _ _ (run_set h [] _ _ _),
    run_bind _ _ _ _ _ (run_set h [] _ _ _)]
  rfl

theorem run_vec6Get {h : Heap} {v : Vec6} {a : ℕ} (hv : IsVec6 h v a) :
    vec6Get a h = (.ok v, h) := by
  unfold vec6Get
  rw [run_bind _ _ _ _ _ (run_getNum hv.1), run_bind _ _ _ _ _ (run_getNum hv.2.1),
    run_bind _ _ _ _ _ (run_getNum hv.2.2.1), run_bind _ _ _ _ _ (run_getNum hv.2.2.2.1),
    run_bind _ _ _ _ _ (run_getNum hv.2.2.2.2.1), run_bind _ _ _ _ _ (run_getNum hv.2.2.2.2.2)]
  rfl

theorem run_vec6Copy {h : Heap} {v : Vec6} {a : ℕ} (hv : IsVec6 h v a) :
    vec6Copy a h = (.ok h.length, h ++ [vec6Obj v]) := by
  unfold vec6Copy
  rw [run_bind _ _ _ _ _ (run_vec6Get hv), run_vec6New]

theorem run_vec6FromPosVel {h : Heap} {r v : Vec3} {a b : ℕ} (hr : IsVec3 h r a)
    (hv : IsVec3 h v b) :
    vec6FromPosVel a b h = (.ok h.length, h ++ [vec6Obj (Vec6.fromPosVel r v)]) := by
  unfold vec6FromPosVel
  rw [run_bind _ _ _ _ _ (run_vec3Get hr), run_bind _ _ _ _ _ (run_vec3Get hv)]
  exact run_vec6New (Vec6.fromPosVel r v) h

theorem isEpoch_at (h t : Heap) (e : Epoch) : IsEpoch (h ++ epochObj e :: t) e h.length :=
  ⟨epochObj e, by simp, by simp [epochObj, Obj.put]⟩

theorem isVec3_at (h t : Heap) (v : Vec3) : IsVec3 (h ++ vec3Obj v :: t) v h.length :=
  ⟨⟨vec3Obj v, by simp, by simp [vec3Obj, Obj.put]⟩, ⟨vec3Obj v, by simp, by simp [vec3Obj, Obj.put]⟩,
    ⟨vec3Obj v, by simp, by simp [vec3Obj, Obj.put]⟩⟩

theorem isVec6_at (h t : Heap) (v : Vec6) : IsVec6 (h ++ vec6Obj v :: t) v h.length :=
  ⟨⟨vec6Obj v, by simp, by simp [vec6Obj, Obj.put]⟩, ⟨vec6Obj v, by simp, by simp [vec6Obj, Obj.put]⟩,
    ⟨vec6Obj v, by simp, by simp [vec6Obj, Obj.put]⟩, ⟨vec6Obj v, by simp, by simp [vec6Obj, Obj.put]⟩,
    ⟨vec6Obj v, by simp, by simp [vec6Obj, Obj.put]⟩, ⟨vec6Obj v, by simp, by simp [vec6Obj, Obj.put]⟩⟩

theorem isVec3_at' (h p t : Heap) (v : Vec3) (n : ℕ) (hn : n = h.length + p.length) :
    IsVec3 (h ++ (p ++ vec3Obj v :: t)) v n := by
  subst hn
  have := isVec3_at (h ++ p) t v
  rwa [List.append_assoc, List.length_append] at this

theorem isVec6_at' (h p t : Heap) (v : Vec6) (n : ℕ) (hn : n = h.length + p.length) :
    IsVec6 (h ++ (p ++ vec6Obj v :: t)) v n := by
  subst hn
  have := isVec6_at (h ++ p) t v
  rwa [List.append_assoc, List.length_append] at this

theorem isEpoch_at' (h p t : Heap) (v : Epoch) (n : ℕ) (hn : n = h.length + p.length) :
    IsEpoch (h ++ (p ++ epochObj v :: t)) v n := by
  subst hn
  have := isEpoch_at (h ++ p) t v
  rwa [List.append_assoc, List.length_append] at this

/-- an attribute of the object at the end of `h` -/
theorem has_at (h t : Heap) (o : Obj) (f : String) (v : Val) (hf : o.fields f = some v) :
    Has (h ++ o :: t) h.length f v := ⟨o, by simp, hf⟩

/-- a freshly allocated object with the four attributes set by `State.__init__` -/
def stateObj (o : Obj) (n : ℕ) : Obj :=
  (((o.put "epoch" (.ref (n + 1))).put "position" (.ref (n + 2))).put
    "velocity" (.ref (n + 3))).put "vector" (.ref (n + 4))

theorem run_stateInit {h : Heap} {ep : Epoch} {r v : Vec3} {a b d : ℕ} (o : Obj)
    (he : IsEpoch h ep a) (hr : IsVec3 h r b) (hv : IsVec3 h v d) :
    stateInit h.length a b d (h ++ [o]) = (.ok (), h ++ [stateObj o h.length, epochObj ep,
      vec3Obj r, vec3Obj v, vec6Obj (Vec6.fromPosVel r v)]) := by
  unfold stateInit
  rw [run_bind _ _ _ _ _ (run_epochCopy (he.append _))]
  rw [run_bind _ _ (h ++ [o] ++ [epochObj ep])
    (h ++ [o.put "epoch" (.ref (h.length + 1)), epochObj ep]) () (by
      have := run_set h [epochObj ep] o "epoch" (.ref (h ++ [o]).length)
      simpa using this)]
  rw [run_bind _ _ _ _ _ (run_vec3Copy (hr.append _))]
  rw [run_bind _ _ _ (h ++ [(o.put "epoch" (.ref (h.length + 1))).put "position"
    (.ref (h.length + 2)), epochObj ep, vec3Obj r]) () (by
      have := run_set h [epochObj ep, vec3Obj r] (o.put "epoch" (.ref (h.length + 1))) "position"
        (.ref (h.length + 2))
      simpa using this)]
  rw [run_bind _ _ _ _ _ (run_vec3Copy (hv.append _))]
  rw [run_bind _ _ _ (h ++ [((o.put "epoch" (.ref (h.length + 1))).put "position"
    (.ref (h.length + 2))).put "velocity" (.ref (h.length + 3)), epochObj ep, vec3Obj r,
      vec3Obj v]) () (by
      have := run_set h [epochObj ep, vec3Obj r, vec3Obj v] ((o.put "epoch"
        (.ref (h.length + 1))).put "position" (.ref (h.length + 2))) "velocity"
        (.ref (h.length + 3))
      simpa using this)]
  rw [run_bind _ _ _ _ _ (run_getRef (b := h.length + 2) (has_at _ _ _ _ _ (by simp [Obj.put])))]
  rw [run_bind _ _ _ _ _ (run_getRef (b := h.length + 3) (has_at _ _ _ _ _ (by simp [Obj.put])))]
  rw [run_bind _ _ (h ++ [((o.put "epoch" (.ref (h.length + 1))).put "position"
    (.ref (h.length + 2))).put "velocity" (.ref (h.length + 3)), epochObj ep, vec3Obj r,
      vec3Obj v]) _ _ (run_vec6FromPosVel (r := r) (v := v)
    (isVec3_at' h [_, _] [_] r _ (by simp)) (isVec3_at' h [_, _, _] [] v _ (by simp)))]
  have := run_set h [epochObj ep, vec3Obj r, vec3Obj v,
    vec6Obj (Vec6.fromPosVel r v)] (((o.put "epoch"
        (.ref (h.length + 1))).put "position" (.ref (h.length + 2))).put "velocity"
        (.ref (h.length + 3))) "vector" (.ref (h.length + 4))
  simpa [stateObj] using this

theorem run_plainStateNew {h : Heap} {ep : Epoch} {r v : Vec3} {a b d : ℕ} (cls : String)
    (he : IsEpoch h ep a) (hr : IsVec3 h r b) (hv : IsVec3 h v d) :
    plainStateNew cls a b d h = (.ok h.length, h ++ [stateObj (Obj.empty cls) h.length,
      epochObj ep, vec3Obj r, vec3Obj v, vec6Obj (Vec6.fromPosVel r v)]) := by
  unfold plainStateNew
  rw [run_bind _ _ _ _ _ (run_alloc _ h), run_bind _ _ _ _ _ (run_stateInit _ he hr hv)]
  rfl

/-- the object made by `GCRF(epoch, r, v)` -/
noncomputable def gcrfObj (n : ℕ) : Obj :=
  (((stateObj (Obj.empty "GCRF") n).put "thrust" (.ref (n + 5))).put "srp_scalar" (.num 0)).put
    "use_perturbations" (.flag true)

theorem run_gcrfNew {h : Heap} {ep : Epoch} {r v : Vec3} {a b d : ℕ}
    (he : IsEpoch h ep a) (hr : IsVec3 h r b) (hv : IsVec3 h v d) :
    gcrfNew a b d h = (.ok h.length, h ++ [gcrfObj h.length, epochObj ep, vec3Obj r, vec3Obj v,
      vec6Obj (Vec6.fromPosVel r v), vec3Obj ⟨0, 0, 0⟩]) := by
  unfold gcrfNew
  rw [run_bind _ _ _ _ _ (run_alloc _ h), run_bind _ _ _ _ _ (run_stateInit _ he hr hv),
    run_bind _ _ _ _ _ (run_vec3New ⟨0, 0, 0⟩ _)]
  rw [run_bind _ _ _ _ () (by
      have := run_set h [epochObj ep, vec3Obj r, vec3Obj v,
        vec6Obj (Vec6.fromPosVel r v), vec3Obj ⟨0, 0, 0⟩]
        (stateObj (Obj.empty "GCRF") h.length) "thrust" (.ref (h.length + 5))
      simpa using this)]
  rw [run_bind _ _ _ _ _ (run_set h _ _ _ _)]
  rw [run_bind _ _ _ _ _ (run_set h _ _ _ _)]
  rfl

theorem isState_stateObj (h t : Heap) (o : Obj) (ep : Epoch) (r v : Vec3)
    (ho1 : o.fields "epoch" = some (.ref (h.length + 1)))
    (ho2 : o.fields "position" = some (.ref (h.length + 2)))
    (ho3 : o.fields "velocity" = some (.ref (h.length + 3)))
    (ho4 : o.fields "vector" = some (.ref (h.length + 4))) :
    IsState (h ++ (o :: epochObj ep :: vec3Obj r :: vec3Obj v ::
      vec6Obj (Vec6.fromPosVel r v) :: t)) (State.new ep r v) h.length :=
  ⟨⟨_, has_at _ _ _ _ _ ho1, isEpoch_at' h [_] _ ep _ rfl⟩,
    ⟨_, has_at _ _ _ _ _ ho2, isVec3_at' h [_, _] _ r _ rfl⟩,
    ⟨_, has_at _ _ _ _ _ ho3, isVec3_at' h [_, _, _] _ v _ rfl⟩,
    ⟨_, has_at _ _ _ _ _ ho4, isVec6_at' h [_, _, _, _] _ _ _ rfl⟩⟩

/-- an assignment to the object allocated first succeeds, whatever came after it -/
theorem ok_set {α : Type} (h : Heap) (f : String) (v : Val) (k : Unit → H α)
    (hk : ∀ o t, ∃ a h1, k () (h ++ o :: t) = (.ok a, h1)) (o : Obj) (t : Heap) :
    ∃ a h1, (setAttr h.length f v >>= k) (h ++ o :: t) = (.ok a, h1) := by
  rw [run_bind _ _ _ _ _ (run_set h t o f v)]
  exact hk _ _

/-- the same, when the result and the beginning of the heap are known -/
theorem ext_set {α : Type} (h : Heap) (f : String) (v : Val) (k : Unit → H α) (a : α)
    (hk : ∀ o t, ∃ u, k () (h ++ o :: t) = (.ok a, h ++ u)) (o : Obj) (t : Heap) :
    ∃ u, (setAttr h.length f v >>= k) (h ++ o :: t) = (.ok a, h ++ u) := by
  rw [run_bind _ _ _ _ _ (run_set h t o f v)]
  exact hk _ _

/-- a filter is made from every epoch and every Hill propagator with a non-zero rate -/
theorem run_kalmanNew {h : Heap} {dcov dnoise e p s w : ℕ} {ep : Epoch} {v : Vec6} {n : ℝ}
    (he : IsEpoch h ep e) (hs : Has h p "state" (.ref s)) (hw : Has h s "vector" (.ref w))
    (hv : IsVec6 h v w) (hn : Has h p "n" (.num n)) (hn0 : n ≠ 0) :
    ∃ f h1, kalmanNew dcov dnoise e p h = (.ok f, h1) := by
  unfold kalmanNew
  rw [run_bind _ _ _ _ _ (run_alloc _ h), run_bind _ _ _ _ _ (run_epochCopy (he.append _)),
    List.append_assoc]
  refine ok_set h _ _ _ (fun o t => ?_) _ _
  refine ok_set h _ _ _ (fun o t => ?_) o t
  rw [run_bind _ _ _ _ _ (run_getRef (hs.append _)), run_bind _ _ _ _ _ (run_getRef (hw.append _)),
    run_bind _ _ _ _ _ (run_vec6Copy (hv.append _)), List.append_assoc]
  refine ok_set h _ _ _ (fun o t => ?_) _ _
  refine ok_set h _ _ _ (fun o t => ?_) _ _
  refine ok_set h _ _ _ (fun o t => ?_) _ _
  rw [run_bind _ _ _ _ _ (run_getNum (hn.append _))]
  obtain ⟨m, hm⟩ : ∃ m, Hill.systemMatrix ⟨⟨⟨0⟩, ⟨0, 0, 0⟩, ⟨0, 0, 0⟩, ⟨0, 0, 0, 0, 0, 0⟩⟩, 0, n, 0⟩ 0
      = .ok m := by
    simp only [Hill.systemMatrix, pyDiv, if_neg hn0]
    exact ⟨_, rfl⟩
  rw [run_bind _ _ (h ++ o :: t) (h ++ o :: t) m (by simp [PyM.lift, hm])]
  obtain ⟨a, t', hmat⟩ : ∃ a t', mat6OfValue m (h ++ o :: t) = (.ok a, h ++ o :: t') := by
    unfold mat6OfValue
    rw [run_bind _ _ _ _ _ (run_vec6New m.row1 _)]
    have i1 := isVec6_at (h ++ o :: t) [] m.row1
    obtain ⟨k1, hk1⟩ : ∃ k, k = h ++ o :: t := ⟨_, rfl⟩
    rw [← hk1] at i1 ⊢
    rw [run_bind _ _ _ _ _ (run_vec6New m.row2 _)]
    have i2 := isVec6_at (k1 ++ [vec6Obj m.row1]) [] m.row2
    have i1 := i1.append [vec6Obj m.row2]
    obtain ⟨k2, hk2⟩ : ∃ k, k = k1 ++ [vec6Obj m.row1] := ⟨_, rfl⟩
    rw [← hk2] at i1 i2 ⊢
    rw [run_bind _ _ _ _ _ (run_vec6New m.row3 _)]
    have i3 := isVec6_at (k2 ++ [vec6Obj m.row2]) [] m.row3
    have i2 := i2.append [vec6Obj m.row3]
    have i1 := i1.append [vec6Obj m.row3]
    obtain ⟨k3, hk3⟩ : ∃ k, k = k2 ++ [vec6Obj m.row2] := ⟨_, rfl⟩
    rw [← hk3] at i1 i2 i3 ⊢
    rw [run_bind _ _ _ _ _ (run_vec6New m.row4 _)]
    have i4 := isVec6_at (k3 ++ [vec6Obj m.row3]) [] m.row4
    have i3 := i3.append [vec6Obj m.row4]
    have i2 := i2.append [vec6Obj m.row4]
    have i1 := i1.append [vec6Obj m.row4]
    obtain ⟨k4, hk4⟩ : ∃ k, k = k3 ++ [vec6Obj m.row3] := ⟨_, rfl⟩
    rw [← hk4] at i1 i2 i3 i4 ⊢
    rw [run_bind _ _ _ _ _ (run_vec6New m.row5 _)]
    have i5 := isVec6_at (k4 ++ [vec6Obj m.row4]) [] m.row5
    have i4 := i4.append [vec6Obj m.row5]
    have i3 := i3.append [vec6Obj m.row5]
    have i2 := i2.append [vec6Obj m.row5]
    have i1 := i1.append [vec6Obj m.row5]
    obtain ⟨k5, hk5⟩ : ∃ k, k = k4 ++ [vec6Obj m.row4] := ⟨_, rfl⟩
    rw [← hk5] at i1 i2 i3 i4 i5 ⊢
    rw [run_bind _ _ _ _ _ (run_vec6New m.row6 _)]
    have i6 := isVec6_at (k5 ++ [vec6Obj m.row5]) [] m.row6
    have i5 := i5.append [vec6Obj m.row6]
    have i4 := i4.append [vec6Obj m.row6]
    have i3 := i3.append [vec6Obj m.row6]
    have i2 := i2.append [vec6Obj m.row6]
    have i1 := i1.append [vec6Obj m.row6]
    obtain ⟨k6, hk6⟩ : ∃ k, k = k5 ++ [vec6Obj m.row5] ++ [vec6Obj m.row6] := ⟨_, rfl⟩
    rw [← hk6] at i1 i2 i3 i4 i5 i6 ⊢
    have hend : ∃ t', k6 = h ++ o :: t' := ⟨t ++ [vec6Obj m.row1] ++ [vec6Obj m.row2] ++
      [vec6Obj m.row3] ++ [vec6Obj m.row4] ++ [vec6Obj m.row5] ++ [vec6Obj m.row6], by
        rw [hk6, hk5, hk4, hk3, hk2, hk1]; simp⟩
    obtain ⟨t', ht'⟩ := hend
    suffices hs : ∃ u, mat6New k1.length k2.length k3.length k4.length k5.length
        (k5 ++ [vec6Obj m.row5]).length k6 = (.ok k6.length, k6 ++ u) by
      obtain ⟨u, hu⟩ := hs
      refine ⟨k6.length, t' ++ u, hu.trans ?_⟩
      rw [ht']
      simp
    unfold mat6New
    rw [run_bind _ _ _ _ _ (run_alloc _ k6)]
    rw [run_bind _ _ _ _ _ (run_vec6Copy (i1.append _)), List.append_assoc]
    refine ext_set k6 _ _ _ _ (fun o t => ?_) _ _
    rw [run_bind _ _ _ _ _ (run_vec6Copy (i2.append _)), List.append_assoc]
    refine ext_set k6 _ _ _ _ (fun o t => ?_) _ _
    rw [run_bind _ _ _ _ _ (run_vec6Copy (i3.append _)), List.append_assoc]
    refine ext_set k6 _ _ _ _ (fun o t => ?_) _ _
    rw [run_bind _ _ _ _ _ (run_vec6Copy (i4.append _)), List.append_assoc]
    refine ext_set k6 _ _ _ _ (fun o t => ?_) _ _
    rw [run_bind _ _ _ _ _ (run_vec6Copy (i5.append _)), List.append_assoc]
    refine ext_set k6 _ _ _ _ (fun o t => ?_) _ _
    rw [run_bind _ _ _ _ _ (run_vec6Copy (i6.append _)), List.append_assoc]
    refine ext_set k6 _ _ _ _ (fun o t => ?_) _ _
    exact ⟨_, rfl⟩
  rw [run_bind _ _ _ _ _ hmat]
  refine ok_set h _ _ _ (fun o t => ?_) _ _
  refine ok_set h _ _ _ (fun o t => ?_) _ _
  refine ok_set h _ _ _ (fun o t => ?_) _ _
  exact ⟨_, _, rfl⟩

end Openspace.Mem
