import Verif.Conv.UnityLemmas

/-! What the conversion of one game object does. -/

namespace Verif.Conv

open Verif.Geom
open Verif.Mqo (Str Object Face Bone MorphTargetList Material PhysicsShape PhysicsBody)
open Verif.Unity (Trig Mesh builtinMesh)

variable {F : Type}

/-- The mesh and the renderer of a game object, if it has both and the reference is not null. -/
def UObject.mesh (x : UObject F) : Option (URef × URenderer) :=
  match x.meshFilter, x.meshRenderer with
  | some (some r), some rend => if r.fileID = 0 then none else some (r, rend)
  | _, _ => none

section

variable [Field F]

/-- The coordinates after one scaling. -/
def applyScale (s : Option (Vec2 F)) (uvs : List (Vec2 F)) : List (Vec2 F) :=
  match s with
  | some s => scaleUVs s uvs
  | none => uvs

theorem scaleSlices_eq (st : UState F) (k : Nat) : ∀ (l : List (Int × Nat)) (heap : Nat → List (Vec2 F)),
    scaleSlices st l heap k = (l.filter fun p => p.2 = k).foldl (fun u p => applyScale (scaleOf st p.1) u) (heap k) := by
  intro l
  induction l with
  | nil => intro heap; rfl
  | cons p l ih =>
    intro heap
    obtain ⟨m, j⟩ := p
    unfold scaleSlices
    by_cases hj : j = k
    · subst hj
      rw [List.filter_cons_of_pos (by simp), List.foldl_cons]
      cases hs : scaleOf st m with
      | none => simp only; rw [ih]; rfl
      | some s => simp only; rw [ih, Function.update_self]; rfl
    · rw [List.filter_cons_of_neg (by simpa using hj)]
      cases hs : scaleOf st m with
      | none => simp only; rw [ih]
      | some s => simp only; rw [ih, Function.update_of_ne (Ne.symm hj)]

theorem filter_zip_range {α : Type} (l : List α) (i : Nat) (a : α) (h : l[i]? = some a) (b : Nat) :
    (l.zip (List.range' b l.length)).filter (fun p => p.2 = b + i) = [(a, b + i)] := by
  induction l generalizing i b with
  | nil => simp at h
  | cons c l ih =>
    rw [List.length_cons, List.range'_succ, List.zip_cons_cons]
    cases i with
    | zero =>
      simp only [List.getElem?_cons_zero, Option.some.injEq] at h
      subst h
      rw [List.filter_cons_of_pos (by simp)]
      have : (l.zip (List.range' (b + 1) l.length)).filter (fun p => p.2 = b + 0) = [] := by
        rw [List.filter_eq_nil_iff]
        intro p hp
        have := (List.of_mem_zip (a := p.1) (b := p.2) hp).2
        rw [List.mem_range'_1] at this
        simp only [decide_eq_true_eq]
        omega
      rw [this]
      rfl
    | succ i =>
      rw [List.filter_cons_of_neg (by simp)]
      have e : b + (i + 1) = (b + 1) + i := by omega
      rw [e]
      exact ih i (by simpa using h) (b + 1)

/-- Faces with slices of their own are scaled once. -/
theorem finishObject_range (st : UState F) (vis : Bool) (o : Object F) :
    finishObject st vis (List.range o.faces.length) o = { o with
      visible := vis
      faces := o.faces.map fun f => { f with uvs := applyScale (scaleOf st f.material) f.uvs } } := by
  unfold finishObject
  simp only
  congr 1
  apply List.ext_getElem?
  intro i
  rw [List.getElem?_map, List.getElem?_map]
  cases hf : o.faces[i]? with
  | none =>
    have hz : (o.faces.zip (List.range o.faces.length))[i]? = none := by
      rw [List.getElem?_eq_none_iff] at hf ⊢
      rw [List.length_zip]
      omega
    rw [hz]
    rfl
  | some f =>
    have hi := (List.getElem?_eq_some_iff.1 hf).1
    have hr : (List.range o.faces.length)[i]? = some i := List.getElem?_range hi
    have hz : (o.faces.zip (List.range o.faces.length))[i]? = some (f, i) :=
      List.getElem?_zip_eq_some.2 ⟨hf, hr⟩
    rw [hz]
    simp only [Option.map_some, Option.some.injEq]
    rw [scaleSlices_eq]
    have h1 := filter_zip_range (o.faces.map Face.material) i f.material (by rw [List.getElem?_map, hf]; rfl) 0
    rw [List.length_map, ← List.range_eq_range', Nat.zero_add] at h1
    have h2 := filter_zip_range o.faces i f hf 0
    rw [← List.range_eq_range', Nat.zero_add] at h2
    rw [h1]
    have h3 : (o.faces.zip (List.range o.faces.length)).find? (fun p => p.2 = i) = some (f, i) := by
      rw [← List.head?_filter, h2]
      rfl
    rw [h3]
    rfl

theorem finishObject_congr (st st' : UState F) (h1 : st.mat = st'.mat) (h2 : st.guidOf = st'.guidOf) (vis : Bool)
    (sl : List Nat) (o : Object F) : finishObject st vis sl o = finishObject st' vis sl o := by
  have hs : ∀ m, scaleOf st m = scaleOf st' m := by
    intro m
    unfold scaleOf
    rw [h1, h2]
  have hh : ∀ (l : List (Int × Nat)) (heap : Nat → List (Vec2 F)), scaleSlices st l heap = scaleSlices st' l heap := by
    intro l heap
    funext k
    rw [scaleSlices_eq, scaleSlices_eq]
    congr 1
    funext u p
    rw [hs]
  unfold finishObject
  simp only
  rw [hh]

omit [Field F] in
theorem builtin_some [Field F] (T : Trig F) (r : URef) (h : builtinName r ≠ []) : ∃ m, builtinMesh T true r.fileID = some m := by
  unfold builtinName at h
  unfold builtinMesh
  split at h
  · rw [if_pos rfl]
    repeat' split at h
    all_goals first
      | exact absurd rfl h
      | (rename_i hh; simp only [hh]; exact ⟨_, by simp; rfl⟩)
  · exact absurd rfl h

end

section

variable [Field F] [DecidableEq F] [FloatOps F]

/-- The faces of a built-in mesh with the material `mat`, before the scaling. -/
def builtinFaces (mat : Nat) (m : Mesh F) : List (Face F) :=
  m.faces.zipIdx.map fun (f, n) =>
    { uid := 0
      verts := f.map Int.toNat
      material := mat
      uvs := ((m.uvs[n]?).getD []).map fun u => ⟨u.1, u.2⟩
      normals := [] }

omit [DecidableEq F] [FloatOps F] in
theorem addGeometry_empty (o : Object F) (t : Mat4 F) (mat : Nat) (m : Mesh F) (hv : o.vertexes = []) (hf : o.faces = []) :
    addGeometry o t mat m = { o with vertexes := m.vs.map t.applyTo, faces := builtinFaces mat m } := by
  unfold addGeometry builtinFaces
  simp only [hv, hf, List.nil_append, List.length_nil, Nat.cast_zero, add_zero]

/-- The place of a body in the document. -/
def bodyOf (M : UMath F) (opt : UOptions F) (x : UObject F) (t : Mat4 F) (own : Object F) : PhysicsBody F where
  shapes := unityShapes M opt x t
  mass := x.body.mass
  kinematic := x.body.isKinematic
  collisionGroup := 1
  collisionMask := -1
  restitution := 0
  friction := 0
  linearDamping := x.body.drag
  angularDamping := x.body.angularDrag
  name := own.name
  targetBoneID := 0
  targetObjID := own.uid

/-- A built-in mesh: the new object. -/
structure BuiltinOk (M : UMath F) (sc : UScene F) (opt : UOptions F) (x : UObject F) (t : Mat4 F) (vis : Bool)
    (r : URef) (rend : URenderer) (st st' : UState F) (own : Object F) : Prop where
  visible : own.visible = vis
  name : own.name = x.name ++ "(".toList ++ builtinName r ++ ")".toList
  geometry : ∃ m mats stm, builtinMesh M.trig true r.fileID = some m ∧ own.vertexes = m.vs.map t.applyTo ∧
    MatInv M sc opt stm ∧ MatExt st stm ∧ MatExt stm st' ∧
    List.Forall₂ (fun i g => stm.guidOf i = some g) mats rend.materials ∧
    ∃ o : Object F, o.faces = builtinFaces (mats.head?.getD 0) m ∧
      own.faces = (finishObject stm vis (uvSlices (builtinName r = "Cylinder".toList) m.faces.length) o).faces

/-- A mesh of an FBX file: the new objects. -/
structure FbxOk (M : UMath F) (sc : UScene F) (opt : UOptions F) (ffuel : Nat) (x : UObject F) (d : Int) (t : Mat4 F)
    (vis : Bool) (r : URef) (rend : URenderer) (st st' : UState F) (own : Object F) (imp : List (Object F)) : Prop where
  missing : sc.fbx r.guid = none → imp = [] ∧ own.name = x.name
  found : ∀ fb, sc.fbx r.guid = some fb → own.name = x.name ++ "(FBX)".toList ∧
    ∃ mats stm res new objects, MatInv M sc opt stm ∧ MatExt st stm ∧ MatExt stm st' ∧
      List.Forall₂ (fun i g => stm.guidOf i = some g) mats rend.materials ∧
      objects.length = st.objects.length + 1 ∧
      fbxConvert M.facet fb.scene (fbxOptions fb r d mats t) ffuel stm.materials.length objects st.morphs = some res ∧
      res.objects = objects ++ new ∧
      (mats = [] → stm.materials ++ fb.materials <+: st'.materials) ∧
      imp = (if new.length = 1 then new.map (fun o => { o with internalTransform := some t }) else new).map
        fun o => finishObject stm vis (List.range o.faces.length) o

/-- The conversion of one game object. -/
structure StepOk (M : UMath F) (sc : UScene F) (opt : UOptions F) (ffuel : Nat) (x : UObject F) (d : Int) (parent : Mat4 F)
    (active : Bool) (st st' : UState F) (own : Object F) (imp : List (Object F)) : Prop where
  objects : st'.objects = st.objects ++ own :: imp
  inv : MatInv M sc opt st'
  ext : MatExt st st'
  uid : own.uid = (st.objects.length : Int) + 1
  depth : own.depth = d
  pose : own.translation = (unityObject M opt x d active st.objects.length).translation ∧
    own.scale = (unityObject M opt x d active st.objects.length).scale ∧
    own.rotation = (unityObject M opt x d active st.objects.length).rotation
  plain : x.transform = none ∨ x.mesh = none → own.visible = active ∧ own.name = x.name ∧ own.vertexes = [] ∧
    own.faces = [] ∧ imp = [] ∧ st'.materials = st.materials
  builtin : ∀ tr r rend, x.transform = some tr → x.mesh = some (r, rend) → builtinName r ≠ [] → imp = [] ∧
    BuiltinOk M sc opt x (parent.mul tr.matrix) (active && rend.enabled) r rend st st' own
  fbx : ∀ tr r rend, x.transform = some tr → x.mesh = some (r, rend) → builtinName r = [] →
    own.visible = active ∧ own.vertexes = [] ∧ own.faces = [] ∧
    FbxOk M sc opt ffuel x d (parent.mul tr.matrix) (active && rend.enabled) r rend st st' own imp
  bodies : st'.bodies = st.bodies ++
    match x.transform with
    | none => []
    | some tr => if opt.convertPhysics = true ∧ unityShapes M opt x (parent.mul tr.matrix) ≠ [] then
        [bodyOf M opt x (parent.mul tr.matrix) own] else []
  lights : ∀ tr l, x.transform = some tr → x.light = some l →
    own.internalTransform = some (parent.mul tr.matrix) ∧ st'.lights = st.lights ++ [(st.objects.length, l)]
  nolights : x.transform = none ∨ x.light = none → own.internalTransform = none ∧ st'.lights = st.lights

theorem addBuiltin_spec (M : UMath F) (sc : UScene F) (opt : UOptions F) (x : UObject F) (t : Mat4 F) (active : Bool)
    (r : URef) (rend : URenderer) (o : Object F) (st : UState F) (hi : MatInv M sc opt st) (hb : builtinName r ≠ [])
    (hn : o.name = x.name) (hv : o.vertexes = []) (hf : o.faces = [])
    (ms : List Nat × UState F) (hms : ms = addMaterials M sc opt rend.materials { st with objects := st.objects ++ [o] })
    (st' : UState F) (h : st' = addBuiltin M r ms.1 t (active && rend.enabled) st.objects.length o ms.2) :
    ∃ own, st'.objects = st.objects ++ [own] ∧ MatInv M sc opt st' ∧ MatExt st st' ∧
      own = { o with name := own.name, visible := own.visible, vertexes := own.vertexes, faces := own.faces } ∧
      BuiltinOk M sc opt x t (active && rend.enabled) r rend st st' own ∧ st'.bodies = st.bodies ∧ st'.lights = st.lights := by
  obtain ⟨m, hm⟩ := builtin_some M.trig r hb
  obtain ⟨hi0, he0⟩ := hi.of_same (st' := { st with objects := st.objects ++ [o] }) rfl rfl (List.prefix_refl _)
  obtain ⟨hi1, he1, hg, ho⟩ := addMaterials_spec M sc opt rend.materials _ hi0
  obtain ⟨ml, mm, mg, hrest⟩ := addMaterials_rest M sc opt rend.materials { st with objects := st.objects ++ [o] }
  rw [← hms] at hi1 he1 hg ho hrest
  have hst' : st' = { ms.2 with objects := st.objects ++ [finishObject ms.2 (active && rend.enabled)
      (uvSlices (builtinName r = "Cylinder".toList) m.faces.length)
      (addGeometry { o with name := o.name ++ "(".toList ++ builtinName r ++ ")".toList } t (ms.1.head?.getD 0) m)] } := by
    rw [h]
    unfold addBuiltin
    rw [hm]
    simp only
    rw [ho]
    simp
  obtain ⟨hi2, he2⟩ := hi1.of_same (st' := st') (by rw [hst']) (by rw [hst']) (by rw [hst'])
  refine ⟨finishObject ms.2 (active && rend.enabled) (uvSlices (builtinName r = "Cylinder".toList) m.faces.length)
      (addGeometry { o with name := o.name ++ "(".toList ++ builtinName r ++ ")".toList } t (ms.1.head?.getD 0) m),
    by rw [hst'], hi2, he0.trans (he1.trans he2), rfl, ⟨rfl, ?_, m, ms.1, ms.2, hm, ?_, hi1, he0.trans he1, he2, hg,
      addGeometry { o with name := o.name ++ "(".toList ++ builtinName r ++ ")".toList } t (ms.1.head?.getD 0) m, ?_, rfl⟩, ?_, ?_⟩
  · simp only [finishObject, addGeometry, hn]
  · rw [addGeometry_empty]
    · rfl
    · exact hv
    · exact hf
  · rw [addGeometry_empty]
    · exact hv
    · exact hf
  · rw [hst', hrest]
  · rw [hst', hrest]

theorem addFbx_spec (M : UMath F) (sc : UScene F) (opt : UOptions F) (ffuel : Nat) (x : UObject F) (t : Mat4 F) (active : Bool)
    (r : URef) (rend : URenderer) (o : Object F) (st : UState F) (hi : MatInv M sc opt st)
    (hn : o.name = x.name)
    (ms : List Nat × UState F) (hms : ms = addMaterials M sc opt rend.materials { st with objects := st.objects ++ [o] })
    (st' : UState F) (h : addFbx M sc ffuel r ms.1 t (active && rend.enabled) st.objects.length o ms.2 = some st') :
    ∃ own imp, st'.objects = st.objects ++ own :: imp ∧ MatInv M sc opt st' ∧ MatExt st st' ∧
      own = { o with name := own.name } ∧
      FbxOk M sc opt ffuel x o.depth t (active && rend.enabled) r rend st st' own imp ∧
      st'.bodies = st.bodies ∧ st'.lights = st.lights := by
  obtain ⟨hi0, he0⟩ := hi.of_same (st' := { st with objects := st.objects ++ [o] }) rfl rfl (List.prefix_refl _)
  obtain ⟨hi1, he1, hg, ho⟩ := addMaterials_spec M sc opt rend.materials _ hi0
  obtain ⟨ml, mm, mg, hrest⟩ := addMaterials_rest M sc opt rend.materials { st with objects := st.objects ++ [o] }
  rw [← hms] at hi1 he1 hg ho hrest
  unfold addFbx at h
  cases hfb : sc.fbx r.guid with
  | none =>
    rw [hfb] at h
    simp only [Option.some.injEq] at h
    subst h
    refine ⟨o, [], ho, hi1, he0.trans he1, rfl, ⟨fun _ => ⟨rfl, hn⟩, (fun fb e => by rw [hfb] at e; cases e)⟩, ?_, ?_⟩
    · rw [hrest]
    · rw [hrest]
  | some fb =>
    rw [hfb] at h
    simp only at h
    have hset : ms.2.objects.set st.objects.length { o with name := o.name ++ "(FBX)".toList } =
        st.objects ++ [{ o with name := o.name ++ "(FBX)".toList }] := by
      rw [ho]
      simp
    rw [hset] at h
    split at h
    · exact absurd h (by simp)
    · rename_i res hres
      simp only [Option.some.injEq] at h
      obtain ⟨new, h1, h2, h3⟩ := fbx_new_objects _ _ _ _ _ _ _ _ hres
      have hlen : res.objects.length = st.objects.length + 1 + 1 ↔ new.length = 1 := by
        rw [h1]
        simp only [List.length_append, List.length_cons, List.length_nil]
        omega
      have hobj : st'.objects = st.objects ++ { o with name := o.name ++ "(FBX)".toList } ::
          (if new.length = 1 then new.map (fun o => { o with internalTransform := some t }) else new).map
            fun o => finishObject ms.2 (active && rend.enabled) (List.range o.faces.length) o := by
        rw [← h]
        have hT : st.objects.length + 1 = (st.objects ++ [{ o with name := o.name ++ "(FBX)".toList }]).length := by simp
        unfold finishFrom markShared
        simp only
        split
        · rename_i hl
          rw [hlen] at hl
          rw [if_pos hl]
          obtain ⟨a, rfl⟩ := List.length_eq_one_iff.1 hl
          simp only
          have hmod : res.objects.modify (st.objects.length + 1) (fun o => { o with internalTransform := some t }) =
              (st.objects ++ [{ o with name := o.name ++ "(FBX)".toList }]) ++ [{ a with internalTransform := some t }] := by
            rw [h1, hT]
            apply List.ext_getElem?
            intro j
            rw [List.getElem?_modify]
            by_cases hj : (st.objects ++ [{ o with name := o.name ++ "(FBX)".toList }]).length = j
            · subst hj
              rw [List.getElem?_append_right (le_refl _), List.getElem?_append_right (le_refl _)]
              simp
            · simp only [if_neg hj, Option.map_eq_map, Option.map_id']
              by_cases hj2 : j < (st.objects ++ [{ o with name := o.name ++ "(FBX)".toList }]).length
              · rw [List.getElem?_append_left hj2, List.getElem?_append_left hj2]
              · rw [List.getElem?_eq_none (by rw [List.length_append, List.length_singleton]; omega),
                  List.getElem?_eq_none (by rw [List.length_append, List.length_singleton]; omega)]
          rw [hmod]
          rw [hT, List.take_left, List.drop_left]
          simp only [List.map_cons, List.map_nil]
          rw [finishObject_congr _ ms.2 (by rfl) (by rfl), List.append_assoc]
          rfl
        · rename_i hl
          rw [hlen] at hl
          rw [if_neg hl]
          simp only
          rw [h1, hT, List.take_left, List.drop_left, List.append_assoc]
          congr 1
          rw [List.singleton_append]
          congr 1
          apply List.map_congr_left
          intro o _
          apply finishObject_congr <;> rfl
      have hmat : st'.mat = ms.2.mat ∧ st'.guidOf = ms.2.guidOf ∧ st'.bodies = ms.2.bodies ∧ st'.lights = ms.2.lights ∧
          st'.materials = if ms.1 = [] then ms.2.materials ++ fb.materials else ms.2.materials := by
        rw [← h]
        unfold finishFrom markShared
        simp only
        split <;> exact ⟨rfl, rfl, rfl, rfl, rfl⟩
      obtain ⟨e1, e2, e3, e4, e5⟩ := hmat
      obtain ⟨hi2, he2⟩ := hi1.of_same (st' := st') e1 e2 (by
        rw [e5]
        split
        · exact List.prefix_append _ _
        · exact List.prefix_refl _)
      have hmorph : ms.2.morphs = st.morphs := by rw [hrest]
      refine ⟨_, _, hobj, hi2, he0.trans (he1.trans he2), rfl, ⟨(fun e => by rw [hfb] at e; cases e), ?_⟩, ?_, ?_⟩
      · intro fb' e
        rw [hfb, Option.some.injEq] at e
        subst e
        refine ⟨by simp only [hn], ms.1, ms.2, res, new, _, hi1, he0.trans he1, he2, hg, ?_, ?_, h1, ?_, rfl⟩
        · simp
        · rw [← hmorph]; exact hres
        · intro hnil
          rw [e5, if_pos hnil]
      · rw [e3, hrest]
      · rw [e4, hrest]

theorem addMesh_spec (M : UMath F) (sc : UScene F) (opt : UOptions F) (ffuel : Nat) (x : UObject F) (t : Mat4 F) (active : Bool)
    (o : Object F) (st : UState F) (hi : MatInv M sc opt st) (hn : o.name = x.name) (hv : o.vertexes = []) (hf : o.faces = [])
    (st' : UState F)
    (h : addMesh M sc opt ffuel x t active st.objects.length o { st with objects := st.objects ++ [o] } = some st') :
    ∃ own imp, st'.objects = st.objects ++ own :: imp ∧ MatInv M sc opt st' ∧ MatExt st st' ∧
      own = { o with name := own.name, visible := own.visible, vertexes := own.vertexes, faces := own.faces } ∧
      (x.mesh = none → own = o ∧ imp = [] ∧ st'.materials = st.materials) ∧
      (∀ r rend, x.mesh = some (r, rend) → builtinName r ≠ [] → imp = [] ∧
        BuiltinOk M sc opt x t (active && rend.enabled) r rend st st' own) ∧
      (∀ r rend, x.mesh = some (r, rend) → builtinName r = [] →
        own.visible = o.visible ∧ own.vertexes = o.vertexes ∧ own.faces = o.faces ∧
        FbxOk M sc opt ffuel x o.depth t (active && rend.enabled) r rend st st' own imp) ∧
      st'.bodies = st.bodies ∧ st'.lights = st.lights := by
  have hnone : x.mesh = none → st' = { st with objects := st.objects ++ [o] } := by
    intro hm
    unfold UObject.mesh at hm
    unfold addMesh at h
    split at h
    · split at h
      · exact (Option.some.inj h).symm
      · rename_i hne
        simp_all
    · exact (Option.some.inj h).symm
  cases hm : x.mesh with
  | none =>
    have e := hnone hm
    subst e
    obtain ⟨h1, h2⟩ := hi.of_same (st' := { st with objects := st.objects ++ [o] }) rfl rfl (List.prefix_refl _)
    exact ⟨o, [], rfl, h1, h2, rfl, fun _ => ⟨rfl, rfl, rfl⟩, (fun _ _ e => by cases e), (fun _ _ e => by cases e), rfl, rfl⟩
  | some p =>
    obtain ⟨r, rend⟩ := p
    have hrun : (if builtinName r ≠ [] then
        some (addBuiltin M r (addMaterials M sc opt rend.materials { st with objects := st.objects ++ [o] }).1 t
          (active && rend.enabled) st.objects.length o
          (addMaterials M sc opt rend.materials { st with objects := st.objects ++ [o] }).2)
      else addFbx M sc ffuel r (addMaterials M sc opt rend.materials { st with objects := st.objects ++ [o] }).1 t
        (active && rend.enabled) st.objects.length o
        (addMaterials M sc opt rend.materials { st with objects := st.objects ++ [o] }).2) = some st' := by
      unfold UObject.mesh at hm
      split at hm
      · rename_i r' rend' e1 e2
        split at hm
        · cases hm
        · rename_i hne
          rw [Option.some.injEq, Prod.mk.injEq] at hm
          obtain ⟨rfl, rfl⟩ := hm
          unfold addMesh at h
          rw [e1, e2] at h
          simp only at h
          rw [if_neg hne] at h
          exact h
      · cases hm
    by_cases hb : builtinName r = []
    · rw [if_neg (by simpa using hb)] at hrun
      obtain ⟨own, imp, h1, h2, h3, h4, h5, h6, h7⟩ := addFbx_spec M sc opt ffuel x t active r rend o st hi hn _ rfl st' hrun
      refine ⟨own, imp, h1, h2, h3, ?_, (fun e => by cases e), ?_, ?_, h6, h7⟩
      · rw [h4]
      · intro r' rend' e hb'
        rw [Option.some.injEq, Prod.mk.injEq] at e
        obtain ⟨rfl, rfl⟩ := e
        exact absurd hb hb'
      · intro r' rend' e _
        rw [Option.some.injEq, Prod.mk.injEq] at e
        obtain ⟨rfl, rfl⟩ := e
        exact ⟨by rw [h4], by rw [h4], by rw [h4], h5⟩
    · rw [if_pos hb, Option.some.injEq] at hrun
      obtain ⟨own, h1, h2, h3, h4, h5, h6, h7⟩ :=
        addBuiltin_spec M sc opt x t active r rend o st hi hb hn hv hf _ rfl st' hrun.symm
      refine ⟨own, [], h1, h2, h3, h4, (fun e => by cases e), ?_, ?_, h6, h7⟩
      · intro r' rend' e _
        rw [Option.some.injEq, Prod.mk.injEq] at e
        obtain ⟨rfl, rfl⟩ := e
        exact ⟨rfl, h5⟩
      · intro r' rend' e hb'
        rw [Option.some.injEq, Prod.mk.injEq] at e
        obtain ⟨rfl, rfl⟩ := e
        exact absurd hb' hb

omit [DecidableEq F] [FloatOps F] in
theorem addLight_spec (x : UObject F) (t : Mat4 F) (n : Nat) (st : UState F) (pre imp : List (Object F)) (own : Object F)
    (hn : pre.length = n) (ho : st.objects = pre ++ own :: imp) :
    addLight x t n st = { st with
      objects := pre ++ { own with internalTransform := if x.light.isSome then some t else own.internalTransform } :: imp
      lights := st.lights ++ match x.light with
        | some l => [(n, l)]
        | none => [] } := by
  unfold addLight
  cases x.light with
  | none => simp [← ho]
  | some l =>
    simp only [Option.isSome_some, if_true]
    congr 1
    rw [ho, ← hn]
    apply List.ext_getElem?
    intro j
    rw [List.getElem?_modify]
    by_cases hj : pre.length = j
    · subst hj
      rw [List.getElem?_append_right (le_refl _), List.getElem?_append_right (le_refl _)]
      simp
    · simp only [if_neg hj, Option.map_eq_map, Option.map_id']
      by_cases hj2 : j < pre.length
      · rw [List.getElem?_append_left hj2, List.getElem?_append_left hj2]
      · rw [List.getElem?_append_right (by omega), List.getElem?_append_right (by omega)]
        obtain ⟨k, hk⟩ : ∃ k, j - pre.length = k + 1 := ⟨j - pre.length - 1, by omega⟩
        rw [hk, List.getElem?_cons_succ, List.getElem?_cons_succ]

theorem unityOne_spec (M : UMath F) (sc : UScene F) (opt : UOptions F) (ffuel : Nat) (x : UObject F) (d : Int) (parent : Mat4 F)
    (active : Bool) (st st' : UState F) (hi : MatInv M sc opt st)
    (h : unityOne M sc opt ffuel x d parent active st = some st') :
    ∃ own imp, StepOk M sc opt ffuel x d parent active st st' own imp := by
  unfold unityOne at h
  simp only at h
  cases htr : x.transform with
  | none =>
    rw [htr] at h
    simp only [Option.some.injEq] at h
    subst h
    have e : unityObject M opt x d active st.objects.length =
        { Mqo.newObject M.facet x.name with uid := (st.objects.length : Int) + 1, depth := d, visible := active } := by
      unfold unityObject
      simp only [htr]
    obtain ⟨h1, h2⟩ := hi.of_same
      (st' := { st with objects := st.objects ++ [unityObject M opt x d active st.objects.length] }) rfl rfl (List.prefix_refl _)
    refine ⟨unityObject M opt x d active st.objects.length, [], rfl, h1, h2, by rw [e], by rw [e], ⟨rfl, rfl, rfl⟩, ?_, ?_, ?_, ?_, ?_, ?_⟩
    · intro _
      rw [e]
      exact ⟨rfl, rfl, rfl, rfl, rfl, rfl⟩
    · intro tr r rend e1; rw [htr] at e1; cases e1
    · intro tr r rend e1; rw [htr] at e1; cases e1
    · simp [htr]
    · intro tr l e1; rw [htr] at e1; cases e1
    · intro _
      rw [e]
      exact ⟨rfl, rfl⟩
  | some tr =>
    rw [htr] at h
    simp only at h
    generalize hob : unityObject M opt x d active st.objects.length = o at h
    have f1 : o.name = x.name ∧ o.vertexes = [] ∧ o.faces = [] ∧ o.uid = (st.objects.length : Int) + 1 ∧ o.depth = d ∧
        o.visible = active ∧ o.internalTransform = none := by
      rw [← hob]
      unfold unityObject
      simp only [htr]
      repeat' constructor
    obtain ⟨f1, f2, f3, f4, f5, f6, f7⟩ := f1
    unfold addComponents at h
    split at h
    · cases h
    · rename_i st1 hst1
      obtain ⟨own, imp, h1, h2, h3, h4, h5, h6, h7, h8, h9⟩ :=
        addMesh_spec M sc opt ffuel x (parent.mul tr.matrix) active o st hi f1 f2 f3 st1 hst1
      simp only [Option.some.injEq] at h
      rw [addLight_spec x (parent.mul tr.matrix) st.objects.length st1 st.objects imp own rfl h1] at h
      simp only at h
      generalize hown : ({ own with
        internalTransform := if x.light.isSome then some (parent.mul tr.matrix) else own.internalTransform } : Object F) = own' at h
      have hname : (((st.objects ++ own' :: imp)[st.objects.length]?).map Object.name).getD [] = own'.name := by
        rw [List.getElem?_append_right (le_refl _)]
        simp
      rw [hname] at h
      have e0 : own'.name = own.name ∧ own'.visible = own.visible ∧ own'.vertexes = own.vertexes ∧ own'.faces = own.faces ∧
          own'.uid = o.uid ∧ own'.depth = o.depth ∧ own'.translation = o.translation ∧ own'.scale = o.scale ∧
          own'.rotation = o.rotation ∧
          own'.internalTransform = if x.light.isSome then some (parent.mul tr.matrix) else none := by
        rw [← hown, h4]
        simp only [f7]
        repeat' constructor
      obtain ⟨e1, e2, e3, e4, e5, e6, e7, e8, e9, e10⟩ := e0
      have hst' : st'.objects = st.objects ++ own' :: imp ∧ st'.mat = st1.mat ∧ st'.guidOf = st1.guidOf ∧
          st'.materials = st1.materials ∧ st'.lights = st.lights ++ (match x.light with
            | some l => [(st.objects.length, l)]
            | none => []) ∧
          st'.bodies = st.bodies ++ (if opt.convertPhysics = true ∧ unityShapes M opt x (parent.mul tr.matrix) ≠ [] then
            [bodyOf M opt x (parent.mul tr.matrix) own'] else []) := by
        rw [← h]
        by_cases hp : opt.convertPhysics = true
        · rw [if_pos hp]
          unfold addBody
          simp only
          by_cases hs : unityShapes M opt x (parent.mul tr.matrix) = []
          · rw [if_pos (by rw [hs]; rfl), if_neg (by simp [hs])]
            simp only [h8, h9, List.append_nil]
            repeat' constructor
          · rw [if_neg (by simpa using hs), if_pos ⟨hp, hs⟩]
            simp only [h8, h9]
            refine ⟨by trivial, by trivial, by trivial, by trivial, by trivial, ?_⟩
            unfold bodyOf
            rw [e5]
        · rw [if_neg hp, if_neg (by simp [hp])]
          simp only [h8, h9, List.append_nil]
          repeat' constructor
      obtain ⟨g1, g2, g3, g4, g5, g6⟩ := hst'
      obtain ⟨hi2, he2⟩ := h2.of_same (st' := st') g2 g3 (by rw [g4])
      refine ⟨own', imp, g1, hi2, h3.trans he2, by rw [e5, f4], by rw [e6, f5], ?_, ?_, ?_, ?_, ?_, ?_, ?_⟩
      · rw [hob]
        exact ⟨e7, e8, e9⟩
      · intro hc
        obtain ⟨q1, q2, q3⟩ := h5 (by
          rcases hc with hc | hc
          · rw [htr] at hc; cases hc
          · exact hc)
        rw [e2, e1, e3, e4, q1, g4]
        exact ⟨f6, f1, f2, f3, q2, q3⟩
      · intro tr' r rend et hm hb
        rw [htr, Option.some.injEq] at et
        subst et
        obtain ⟨q1, q2⟩ := h6 r rend hm hb
        refine ⟨q1, by rw [e2]; exact q2.visible, by rw [e1]; exact q2.name, ?_⟩
        obtain ⟨m, mats, stm, k1, k2, k3, k4, k5, k6, ob, k7, k8⟩ := q2.geometry
        exact ⟨m, mats, stm, k1, by rw [e3]; exact k2, k3, k4, k5.trans he2, k6, ob, k7, by rw [e4]; exact k8⟩
      · intro tr' r rend et hm hb
        rw [htr, Option.some.injEq] at et
        subst et
        obtain ⟨q1, q2, q3, q4⟩ := h7 r rend hm hb
        refine ⟨by rw [e2, q1, f6], by rw [e3, q2, f2], by rw [e4, q3, f3], ?_, ?_⟩
        · intro hno
          rw [e1]
          exact q4.missing hno
        · intro fb hfb
          obtain ⟨k0, mats, stm, res, new, objs, k1, k2, k3, k4, k5, k6, k7, k8, k9⟩ := q4.found fb hfb
          rw [f5] at k6
          refine ⟨by rw [e1]; exact k0, mats, stm, res, new, objs, k1, k2, k3.trans he2, k4, k5, k6, k7, ?_, k9⟩
          intro hnil
          rw [g4]
          exact k8 hnil
      · rw [g6, htr]
      · intro tr' l et hl
        rw [htr, Option.some.injEq] at et
        subst et
        rw [e10, g5, hl]
        exact ⟨rfl, rfl⟩
      · intro hc
        have hl : x.light = none := by
          rcases hc with hc | hc
          · rw [htr] at hc; cases hc
          · exact hc
        rw [e10, g5, hl]
        simp

end

end Verif.Conv
