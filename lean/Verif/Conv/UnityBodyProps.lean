import Verif.Conv.UnityMeshProps
import Verif.Conv.FbxConvFindings

/-! Properties C143 to C145 of the Unity converter: rigid bodies, lights and saved textures; and a sample scene. -/

namespace Verif.Conv

open Verif.Geom
open Verif.Mqo (Str Object Face Bone MorphTargetList Material PhysicsShape PhysicsBody)
open Verif.Unity (Trig Mesh builtinMesh)

local instance ratOpsUnity3 : FloatOps ℚ := ⟨id, fun a b => decide (a < b), fun a b => decide (a ≤ b)⟩

variable {F : Type}

section

variable [Field F] [DecidableEq F] [FloatOps F]

/-! ### C143: rigid bodies -/

/-- The game object has a collider that is converted. -/
def hasCollider (x : UObject F) : Bool :=
  x.transform.isSome && (!x.boxes.isEmpty || !x.spheres.isEmpty || !x.capsules.isEmpty ||
    x.meshColliders.any fun rf => builtinTable.any fun e => e.1 = rf)

/-- The shape of a mesh collider: only those of built-in meshes are converted. -/
def meshType (rf : URef) : Option Str :=
  (builtinTable.find? fun e => e.1 = rf).map fun e =>
    if e.2 = "Cube".toList then "BOX".toList else if e.2 = "Sphere".toList then "SPHERE".toList else "MESH".toList

/-- The body of an object. -/
structure BodyFor (M : UMath F) (sc : UScene F) (opt : UOptions F) (p : List Nat) (o : Object F) (b : PhysicsBody F) : Prop where
  target : b.targetObjID = o.uid ∧ b.targetBoneID = 0 ∧ b.name = o.name
  given : ∀ y, (sc.object (p.getLastD 0)).rigidbody = some y → b.mass = y.mass ∧ b.kinematic = y.isKinematic ∧
    b.linearDamping = y.drag ∧ b.angularDamping = y.angularDrag
  default : (sc.object (p.getLastD 0)).rigidbody = none → b.mass = 1 ∧ b.kinematic = true
  types : b.shapes.map (fun s => s.type) = (sc.object (p.getLastD 0)).boxes.map (fun _ => "BOX".toList) ++
    (sc.object (p.getLastD 0)).spheres.map (fun _ => "SPHERE".toList) ++
    (sc.object (p.getLastD 0)).capsules.map (fun _ => "CAPSULE".toList) ++
    (sc.object (p.getLastD 0)).meshColliders.filterMap meshType
  /-- the place of a collider whose centre has no `z` -/
  places : ∀ (i : Nat) (c : Vec3 F), ((sc.object (p.getLastD 0)).boxes.map Prod.fst ++
      (sc.object (p.getLastD 0)).spheres.map Prod.fst ++ (sc.object (p.getLastD 0)).capsules.map Prod.fst)[i]? = some c →
    c.z = 0 → (b.shapes.map fun s => s.position)[i]? = some (mirror ((worldPoint sc p c).scale opt.convertScale))
  /-- turned and scaled like the game object; boxes only if the scale is the same in all directions -/
  sizes : ∃ G : Mat4 F, (∀ v, G.applyTo v = mirror ((worldPoint sc p (mirror v)).scale opt.convertScale)) ∧
    (∀ (i : Nat) (s : PhysicsShape F), b.shapes[i]? = some s → i < (sc.object (p.getLastD 0)).boxes.length +
      (sc.object (p.getLastD 0)).spheres.length + (sc.object (p.getLastD 0)).capsules.length → s.rotation = M.angle G) ∧
    (∀ (i : Nat) (c e : Vec3 F), (sc.object (p.getLastD 0)).boxes[i]? = some (c, e) →
      (M.size G).y = (M.size G).x → (M.size G).z = (M.size G).x → (b.shapes[i]?).map (fun s => s.size) =
        some ⟨e.x * (M.size G).x / 2, e.y * (M.size G).y / 2, e.z * (M.size G).z / 2⟩) ∧
    (∀ (i : Nat) (c : Vec3 F) (rad : F), (sc.object (p.getLastD 0)).spheres[i]? = some (c, rad) →
      (b.shapes[(sc.object (p.getLastD 0)).boxes.length + i]?).map (fun s => s.size) =
        some ⟨rad * (M.size G).x, rad * (M.size G).y, rad * (M.size G).z⟩) ∧
    ∀ (i : Nat) (c : Vec3 F) (rad height : F), (sc.object (p.getLastD 0)).capsules[i]? = some (c, rad, height) →
      (b.shapes[(sc.object (p.getLastD 0)).boxes.length + (sc.object (p.getLastD 0)).spheres.length + i]?).map
        (fun s => s.size) = some ⟨rad * (M.size G).x, (height - 2 * rad) * (M.size G).y, rad * (M.size G).z⟩

/-- The bodies one step adds. -/
def stepBodies (M : UMath F) (sc : UScene F) (opt : UOptions F) (z : UOut F) : List (PhysicsBody F) :=
  match (sc.object (z.1.getLastD 0)).transform with
  | none => []
  | some tr => if opt.convertPhysics = true ∧ unityShapes M opt (sc.object (z.1.getLastD 0))
        ((pathMatrix sc opt.convertScale z.1.dropLast).mul tr.matrix) ≠ [] then
      [bodyOf M opt (sc.object (z.1.getLastD 0)) ((pathMatrix sc opt.convertScale z.1.dropLast).mul tr.matrix) z.2.1]
    else []

variable {M : UMath F} {sc : UScene F} {opt : UOptions F} {ffuel : Nat}

theorem URun.bodies {st st' : UState F} {zs : List (UOut F)} (h : URun M sc opt ffuel st zs st') :
    st'.bodies = st.bodies ++ zs.flatMap (stepBodies M sc opt) := by
  induction h with
  | nil => simp
  | cons p own imp zs st st1 st' h _ ih =>
    rw [ih, h.bodies, List.flatMap_cons, List.append_assoc]
    rfl

theorem find_builtin (rf : URef) : (builtinTable.find? fun e => e.1 = rf) =
    if builtinName rf = [] then none else some (rf, builtinName rf) := by
  by_cases hb : builtinName rf = []
  · rw [if_pos hb, List.find?_eq_none]
    intro e he hc
    simp only [decide_eq_true_eq] at hc
    obtain ⟨a, b⟩ := e
    simp only at hc
    subst hc
    have := (builtinName_mem a).2 b he
    exact this.2 (by rw [← this.1]; exact hb)
  · rw [if_neg hb]
    have hm := (builtinName_mem rf).1 hb
    cases hf : builtinTable.find? (fun e => decide (e.1 = rf)) with
    | none =>
      rw [List.find?_eq_none] at hf
      have := hf _ hm
      simp at this
    | some e =>
      have h1 := List.find?_some hf
      have h2 := List.mem_of_find?_eq_some hf
      obtain ⟨a, b⟩ := e
      simp only [decide_eq_true_eq] at h1
      subst h1
      rw [((builtinName_mem a).2 b h2).1]

omit [DecidableEq F] [FloatOps F] in
theorem meshShape_type (t : Mat4 F) (rf : URef) :
    (meshShape M opt t rf).map (fun s => s.type) = (meshType rf).toList := by
  unfold meshShape meshType
  simp only
  rw [find_builtin]
  by_cases hb : builtinName rf = []
  · rw [if_pos hb, if_pos hb]
    rfl
  · rw [if_neg hb, if_neg hb]
    simp only [Option.map_some, Option.toList_some]
    split
    · rfl
    · split <;> rfl

omit [DecidableEq F] [FloatOps F] in
theorem shapes_types (x : UObject F) (t : Mat4 F) : (unityShapes M opt x t).map (fun s => s.type) =
    x.boxes.map (fun _ => "BOX".toList) ++ x.spheres.map (fun _ => "SPHERE".toList) ++
    x.capsules.map (fun _ => "CAPSULE".toList) ++ x.meshColliders.filterMap meshType := by
  unfold unityShapes
  simp only [List.map_append, List.map_map, List.map_flatMap, meshShape_type]
  congr 1
  rw [← List.filterMap_eq_flatMap_toList]

omit [DecidableEq F] [FloatOps F] in
theorem shapes_ne (x : UObject F) (t : Mat4 F) (tr : UTransform F) (htr : x.transform = some tr) :
    unityShapes M opt x t ≠ [] ↔ hasCollider x = true := by
  have e : unityShapes M opt x t = [] ↔ (unityShapes M opt x t).map (fun s => s.type) = [] := by simp
  rw [ne_eq, e, shapes_types]
  unfold hasCollider
  rw [htr]
  have hm : x.meshColliders.filterMap meshType = [] ↔
      x.meshColliders.any (fun rf => builtinTable.any fun e => e.1 = rf) = false := by
    rw [List.filterMap_eq_nil_iff, List.any_eq_false]
    apply forall_congr'
    intro rf
    apply imp_congr_right
    intro _
    unfold meshType
    rw [Option.map_eq_none_iff, List.find?_eq_none]
    simp
    exact ⟨fun h x hx => h _ _ hx rfl, fun h a b hab hc => h b (hc ▸ hab)⟩
  cases hb : x.meshColliders.any (fun rf => builtinTable.any fun e => e.1 = rf) with
  | false =>
    rw [hm.2 hb]
    simp
    tauto
  | true =>
    have : x.meshColliders.filterMap meshType ≠ [] := fun hc => by
      rw [hm.1 hc] at hb
      cases hb
    simp [this]

omit [DecidableEq F] [FloatOps F] in
theorem shapes_sizes (x : UObject F) (G : Mat4 F) :
    (∀ (i : Nat) (s : PhysicsShape F), (unityShapes M opt x G)[i]? = some s → i < x.boxes.length +
      x.spheres.length + x.capsules.length → s.rotation = M.angle G) ∧
    (∀ (i : Nat) (c e : Vec3 F), x.boxes[i]? = some (c, e) →
      (M.size G).y = (M.size G).x → (M.size G).z = (M.size G).x → ((unityShapes M opt x G)[i]?).map (fun s => s.size) =
        some ⟨e.x * (M.size G).x / 2, e.y * (M.size G).y / 2, e.z * (M.size G).z / 2⟩) ∧
    (∀ (i : Nat) (c : Vec3 F) (rad : F), x.spheres[i]? = some (c, rad) →
      ((unityShapes M opt x G)[x.boxes.length + i]?).map (fun s => s.size) =
        some ⟨rad * (M.size G).x, rad * (M.size G).y, rad * (M.size G).z⟩) ∧
    ∀ (i : Nat) (c : Vec3 F) (rad height : F), x.capsules[i]? = some (c, rad, height) →
      ((unityShapes M opt x G)[x.boxes.length + x.spheres.length + i]?).map
        (fun s => s.size) = some ⟨rad * (M.size G).x, (height - 2 * rad) * (M.size G).y, rad * (M.size G).z⟩ := by
  unfold unityShapes
  refine ⟨?_, ?_, ?_, ?_⟩
  · intro i s hs hi
    rw [List.getElem?_append_left (by simpa using by omega)] at hs
    have := List.mem_of_getElem? hs
    simp only [List.mem_append, List.mem_map] at this
    rcases this with (⟨c, _, rfl⟩ | ⟨c, _, rfl⟩) | ⟨c, _, rfl⟩ <;> rfl
  · intro i c e hc hy hz
    have hi := (List.getElem?_eq_some_iff.1 hc).1
    rw [List.append_assoc, List.append_assoc, List.getElem?_append_left (by simpa using hi), List.getElem?_map, hc]
    simp only [Option.map_some, boxShape, Vec3.scale, Option.some.injEq, Vec3.mk.injEq, hy, hz]
    refine ⟨by ring, by ring, by ring⟩
  · intro i c rad hc
    have hi := (List.getElem?_eq_some_iff.1 hc).1
    rw [List.append_assoc, List.append_assoc, List.getElem?_append_right (by simp), List.length_map,
      Nat.add_sub_cancel_left, List.getElem?_append_left (by simpa using hi), List.getElem?_map, hc]
    rfl
  · intro i c rad height hc
    have hi := (List.getElem?_eq_some_iff.1 hc).1
    rw [List.append_assoc, List.getElem?_append_right (by simp), List.length_append, List.length_map, List.length_map,
      Nat.add_sub_cancel_left, List.getElem?_append_left (by simpa using hi), List.getElem?_map, hc]
    simp only [Option.map_some, capsuleShape, Option.some.injEq, Vec3.mk.injEq]
    refine ⟨trivial, by ring, trivial⟩

theorem done_bodies {fuel : Nat} {r st : UState F} {zs : List (UOut F)} {ls : List (List (List Nat))}
    (hd : UDone M sc opt ffuel fuel r zs ls st) :
    (opt.convertPhysics = false → r.bodies = []) ∧
      (opt.convertPhysics = true → List.Forall₂ (fun b (z : UOut F) => BodyFor M sc opt z.1 z.2.1 b) r.bodies
        (zs.filter fun z => hasCollider (sc.object (z.1.getLastD 0)))) := by
  have hb : r.bodies = zs.flatMap (stepBodies M sc opt) := by
    rw [hd.result, (withDummy_rest st).2.1, hd.run.bodies]
    rfl
  refine ⟨?_, ?_⟩
  · intro hf
    rw [hb, List.flatMap_eq_nil_iff]
    intro z _
    unfold stepBodies
    split
    · rfl
    · rw [if_neg (by simp [hf])]
  · intro ht
    rw [hb]
    have hpaths : ∀ z ∈ zs, z.1 ≠ [] := fun z hz => isPath_ne (hd.isPath z.1 z.2.1 z.2.2 hz)
    clear hb hd
    induction zs with
    | nil => exact .nil
    | cons z zs ih =>
      have ih := ih (fun w hw => hpaths w (List.mem_cons_of_mem _ hw))
      have hp := hpaths z (by simp)
      rw [List.flatMap_cons]
      have hst : stepBodies M sc opt z = match (sc.object (z.1.getLastD 0)).transform with
          | none => []
          | some tr => if opt.convertPhysics = true ∧ unityShapes M opt (sc.object (z.1.getLastD 0))
                ((pathMatrix sc opt.convertScale z.1.dropLast).mul tr.matrix) ≠ [] then
              [bodyOf M opt (sc.object (z.1.getLastD 0))
                ((pathMatrix sc opt.convertScale z.1.dropLast).mul tr.matrix) z.2.1]
            else [] := rfl
      rw [hst, List.filter_cons]
      cases htr : (sc.object (z.1.getLastD 0)).transform with
      | none =>
        rw [if_neg (by unfold hasCollider; rw [htr]; simp)]
        exact ih
      | some tr =>
        simp only
        by_cases hs : hasCollider (sc.object (z.1.getLastD 0)) = true
        · rw [if_pos ⟨ht, (shapes_ne _ _ tr htr).2 hs⟩, if_pos hs]
          refine .cons ?_ ih
          rw [pathMatrix_last sc _ _ hp tr htr]
          refine ⟨⟨rfl, rfl, rfl⟩, ?_, ?_, shapes_types _ _, ?_,
            pathMatrix sc opt.convertScale z.1, pathMatrix_point sc _ _, shapes_sizes _ _⟩
          · intro y hy
            unfold bodyOf UObject.body
            rw [hy]
            exact ⟨rfl, rfl, rfl, rfl⟩
          · intro hy
            unfold bodyOf UObject.body
            rw [hy]
            exact ⟨rfl, rfl⟩
          · intro i c hc hz
            have hm : mirror c = c := by
              obtain ⟨a, b, d⟩ := c
              simp only at hz
              simp [mirror, hz]
            show ((unityShapes M opt _ _).map fun s => s.position)[i]? = _
            have e2 : (unityShapes M opt (sc.object (z.1.getLastD 0)) (pathMatrix sc opt.convertScale z.1)).map
                (fun s => s.position) =
                (((sc.object (z.1.getLastD 0)).boxes.map Prod.fst ++ (sc.object (z.1.getLastD 0)).spheres.map Prod.fst ++
                  (sc.object (z.1.getLastD 0)).capsules.map Prod.fst).map (pathMatrix sc opt.convertScale z.1).applyTo) ++
                ((sc.object (z.1.getLastD 0)).meshColliders.flatMap
                  (meshShape M opt (pathMatrix sc opt.convertScale z.1))).map (fun s => s.position) := by
              unfold unityShapes
              simp only [List.map_append, List.map_map]
              rfl
            rw [e2, List.getElem?_append_left, List.getElem?_map, hc]
            · simp only [Option.map_some, Option.some.injEq]
              rw [pathMatrix_point, hm]
            · rw [List.length_map]
              exact (List.getElem?_eq_some_iff.1 hc).1
        · rw [if_neg (fun hc => hs ((shapes_ne _ _ tr htr).1 hc.2)), if_neg hs]
          exact ih

/-- C143, without the `z` of the centres and the sizes of boxes scaled unevenly and of mesh colliders. With `ConvertPhysics` there is one body for each object whose
game object has a collider, in the order of the objects; it is bound to the object by its id. -/
theorem unity_bodies_partial (M : UMath F) (sc : UScene F) (opt : UOptions F) (ffuel fuel : Nat) (r : UState F)
    (h : unityConvert M sc opt ffuel fuel = some r) :
    ∃ tagged, r.objects = tagged.map Prod.snd ∧ UTree sc tagged ∧
      (opt.convertPhysics = false → r.bodies = []) ∧
      (opt.convertPhysics = true → List.Forall₂ (fun b e => BodyFor M sc opt e.1 e.2 b) r.bodies
        ((tagged.filterMap fun e => e.1.map fun p => (p, e.2)).filter fun e => hasCollider (sc.object (e.1.getLastD 0)))) := by
  obtain ⟨zs, ls, st, hd⟩ := unity_done M sc opt ffuel fuel r h
  obtain ⟨h1, h2⟩ := done_bodies hd
  refine ⟨_, hd.objects, hd.tree, h1, fun ht => ?_⟩
  have e : ((zs.flatMap tagUnity).filterMap fun e => e.1.map fun p => (p, e.2)) = zs.map fun z => (z.1, z.2.1) := by
    clear hd h1 h2
    induction zs with
    | nil => rfl
    | cons z zs ih =>
      rw [List.flatMap_cons, List.filterMap_append, ih]
      simp [tagUnity, List.filterMap_map]
  rw [e, List.filter_map, List.forall₂_map_right_iff]
  exact h2 ht

/-- The bodies of the sample: box, pole and lamp. -/
example : sampleUnityResult.map (fun r => r.bodies.map fun b => (b.name, b.targetObjID, b.shapes.map fun s => s.type)) =
    some [("Box(Cube)".toList, 2, ["BOX".toList]), ("Pole(Cylinder)".toList, 3, ["MESH".toList]),
      ("Lamp".toList, 8, ["SPHERE".toList])] := by decide +kernel

example : sampleUnityResult.map (fun r => r.bodies.map fun b => (b.mass, b.kinematic)) =
    some [(7, false), (1, true), (1, true)] := by decide +kernel

/-- The centre of the lamp's sphere has no `z`. -/
example : sampleUnityResult.map (fun r => (r.bodies[2]?).map fun b => b.shapes.map fun s => s.position) =
      some (some [⟨10, 220, -50⟩]) ∧
    mirror ((worldPoint sampleUnity [0, 4] ⟨0, 1, 0⟩).scale 10) = (⟨10, 220, -50⟩ : Vec3 ℚ) := by decide +kernel

/-! ### C144: lights -/

/-- The light of a game object that has a transform. -/
def lightAt (x : UObject F) : Option (ULight F) := if x.transform.isSome then x.light else none

theorem URun.lights {st st' : UState F} {zs : List (UOut F)} (h : URun M sc opt ffuel st zs st') :
    st'.lights.map (fun e => ((e.1 : Int) + 1, e.2)) = st.lights.map (fun e => ((e.1 : Int) + 1, e.2)) ++
      zs.filterMap fun z => (lightAt (sc.object (z.1.getLastD 0))).map fun l => (z.2.1.uid, l) := by
  induction h with
  | nil => simp
  | cons p own imp zs st st1 st' h _ ih =>
    rw [ih, List.filterMap_cons]
    simp only [lightAt]
    cases htr : (sc.object (p.getLastD 0)).transform with
    | none =>
      rw [(h.nolights (Or.inl htr)).2]
      simp
    | some tr =>
      cases hl : (sc.object (p.getLastD 0)).light with
      | none =>
        rw [(h.nolights (Or.inr hl)).2]
        simp
      | some l =>
        rw [(h.lights tr l htr hl).2, h.uid]
        simp

/-- C144. The lights of the document are those of the scene, each at the object of its game object. -/
theorem unity_lights (M : UMath F) (sc : UScene F) (opt : UOptions F) (ffuel fuel : Nat) (r : UState F)
    (h : unityConvert M sc opt ffuel fuel = some r) :
    ∃ tagged, r.objects = tagged.map Prod.snd ∧ UTree sc tagged ∧
      r.lights.map (fun e => ((e.1 : Int) + 1, e.2)) = tagged.filterMap fun e => e.1.bind fun p =>
        (lightAt (sc.object (p.getLastD 0))).map fun l => (e.2.uid, l) := by
  obtain ⟨zs, ls, st, hd⟩ := unity_done M sc opt ffuel fuel r h
  refine ⟨_, hd.objects, hd.tree, ?_⟩
  rw [hd.result, (withDummy_rest st).2.2.1, hd.run.lights]
  have e0 : (UState.start : UState F).lights = [] := rfl
  rw [e0, List.map_nil, List.nil_append]
  clear hd
  induction zs with
  | nil => rfl
  | cons z zs ih =>
    rw [List.filterMap_cons, ih, List.flatMap_cons, List.filterMap_append]
    have e : (tagUnity z).filterMap (fun e => e.1.bind fun p =>
        (lightAt (sc.object (p.getLastD 0))).map fun l => (e.2.uid, l)) =
        ((lightAt (sc.object (z.1.getLastD 0))).map fun l => (z.2.1.uid, l)).toList := by
      unfold tagUnity
      rw [List.filterMap_cons, List.filterMap_map]
      simp only [Option.bind_some]
      cases (lightAt (sc.object (z.1.getLastD 0))) with
      | none => simp
      | some l => simp
    rw [e]
    cases (lightAt (sc.object (z.1.getLastD 0))) with
    | none => rfl
    | some l => rfl

/-- The lamp is the eighth object. -/
example : sampleUnityResult.map (fun r => r.lights.map fun e => (e.1, e.2.intensity)) = some [(7, 5)] := by decide +kernel

/-! ### C145: saved textures -/

omit [Field F] [DecidableEq F] [FloatOps F] in
/-- The name of the texture of a property with a reference. -/
theorem unityTexture_some (sc : UScene F) (opt : UOptions F) (env : Option (UTexEnv F)) (h : unityTexture sc opt env ≠ []) :
    ∃ t rf path, env = some t ∧ t.texture = some rf ∧ rf.fileID ≠ 0 ∧ sc.asset rf.guid = some path ∧ opt.saveTexture = true ∧
      sc.saved rf.guid = true ∧
      unityTexture sc opt env = "saved_textures/".toList ++ (rf.guid ++ '_' :: baseName path) := by
  unfold unityTexture at h ⊢
  cases env with
  | none => exact absurd rfl h
  | some t =>
    simp only at h ⊢
    cases ht : t.texture with
    | none => simp [ht] at h
    | some rf =>
      simp only [ht] at h ⊢
      by_cases hf : rf.fileID = 0
      · simp [hf] at h
      · rw [if_neg hf] at h ⊢
        cases ha : sc.asset rf.guid with
        | none => simp [ha] at h
        | some path =>
          simp only [ha] at h ⊢
          by_cases ho : opt.saveTexture = true
          · rw [if_pos ho] at h ⊢
            unfold saveTexture at h ⊢
            by_cases hs : sc.saved rf.guid = true
            · rw [if_pos hs] at h ⊢
              refine ⟨t, rf, path, rfl, ht, hf, ha, ho, hs, ?_⟩
              rw [List.append_assoc, List.append_assoc]
              rfl
            · rw [if_neg hs] at h
              exact absurd rfl h
          · rw [if_neg ho] at h
            exact absurd rfl h

theorem split_underscore : ∀ (a b c d : Str), '_' ∉ a → '_' ∉ c → a ++ '_' :: b = c ++ '_' :: d → a = c ∧ b = d := by
  intro a
  induction a with
  | nil =>
    intro b c d _ hc h
    cases c with
    | nil => simpa using h
    | cons x c =>
      simp only [List.nil_append, List.cons_append, List.cons.injEq] at h
      rw [← h.1] at hc
      simp at hc
  | cons x a ih =>
    intro b c d ha hc h
    cases c with
    | nil =>
      simp only [List.nil_append, List.cons_append, List.cons.injEq] at h
      rw [h.1] at ha
      simp at ha
    | cons y c =>
      simp only [List.cons_append, List.cons.injEq] at h
      obtain ⟨rfl, h⟩ := h
      obtain ⟨h1, h2⟩ := ih b c d (fun hc => ha (List.mem_cons_of_mem _ hc)) (fun hc' => hc (List.mem_cons_of_mem _ hc')) h
      exact ⟨by rw [h1], h2⟩

omit [Field F] [DecidableEq F] [FloatOps F] in
/-- C145. Two saved textures have the same file name only if they are the same asset, GUIDs having no underscore; and
a saved texture is a file directly in the folder, GUIDs having no slash. -/
theorem texture_files (sc : UScene F) (opt : UOptions F) (hu : ∀ g path, sc.asset g = some path → '_' ∉ g ∧ '/' ∉ g)
    (env env' : Option (UTexEnv F)) (h : unityTexture sc opt env ≠ []) :
    (unityTexture sc opt env = unityTexture sc opt env' → ∃ t t' rf rf', env = some t ∧ env' = some t' ∧
      t.texture = some rf ∧ t'.texture = some rf' ∧ rf.guid = rf'.guid) ∧
    ∃ file, unityTexture sc opt env = "saved_textures/".toList ++ file ∧ '/' ∉ file := by
  obtain ⟨t, rf, path, e1, e2, _, e4, _, _, e7⟩ := unityTexture_some sc opt env h
  constructor
  · intro he
    obtain ⟨t', rf', path', k1, k2, _, k4, _, _, k7⟩ := unityTexture_some sc opt env' (by rw [← he]; exact h)
    refine ⟨t, t', rf, rf', e1, k1, e2, k2, ?_⟩
    rw [e7, k7] at he
    exact (split_underscore _ _ _ _ (hu _ _ e4).1 (hu _ _ k4).1 (List.append_cancel_left he)).1
  · refine ⟨_, e7, ?_⟩
    intro hc
    obtain ⟨_, _, hb, _⟩ := baseName_spec path
    rcases List.mem_append.1 hc with hc | hc
    · exact (hu _ _ e4).2 hc
    · rcases List.mem_cons.1 hc with hc | hc
      · exact absurd hc (by decide)
      · exact hb hc

example : ∀ g path, sampleUnity.asset g = some path → '_' ∉ g ∧ '/' ∉ g := by
  intro g path h
  have hg : g = "tt".toList := by
    by_contra hc
    simp only [sampleUnity, if_neg hc] at h
    cases h
  subst hg
  decide

/-! ### Findings -/

omit [DecidableEq F] [FloatOps F] in
/-- The place of a collider: its centre is mirrored before it is moved, so it is the place of the mirrored centre. -/
theorem collider_place_false (sc : UScene F) (p : List Nat) (c : Vec3 F × Vec3 F) :
    (boxShape M (pathMatrix sc opt.convertScale p) c).position =
      mirror ((worldPoint sc p (mirror c.1)).scale opt.convertScale) := pathMatrix_point sc _ p c.1

/-- The collider of the box of the sample is off by four units of the scene. -/
example : sampleUnityResult.map (fun r => (r.bodies[0]?).map fun b => b.shapes.map fun s => s.position) =
      some (some [⟨10, 20, -150⟩]) ∧
    mirror ((worldPoint sampleUnity [0, 1] ⟨0, 0, 1⟩).scale 10) = (⟨10, 20, -110⟩ : Vec3 ℚ) := by decide +kernel

omit [DecidableEq F] [FloatOps F] in
/-- The size of a box collider: all three by the scale in `x`. -/
theorem box_size_false (t : Mat4 F) (c : Vec3 F × Vec3 F) (hs : (M.size t).y ≠ (M.size t).x) (hy : c.2.y ≠ 0)
    (h2 : (2 : F) ≠ 0) : (boxShape M t c).size.y ≠ c.2.y * (M.size t).y * (1 / 2) := by
  unfold boxShape Vec3.scale
  simp only
  intro h
  apply hs
  have h2' : (1 / 2 : F) ≠ 0 := by simp [h2]
  have h3 : c.2.y * (1 / 2) * (M.size t).y = c.2.y * (1 / 2) * (M.size t).x := by
    linear_combination -h
  exact mul_left_cancel₀ (mul_ne_zero hy h2') h3

example : (sampleMath.size (Mat4.scaling 1 3 1)).y ≠ (sampleMath.size (Mat4.scaling 1 3 1)).x := by decide +kernel

omit [DecidableEq F] [FloatOps F] in
/-- A mesh collider with the cube has the same size whatever the scale of its game object. -/
theorem cube_collider_false (t t' : Mat4 F) : ((meshShape M opt t ⟨10202, builtinGUID, 0⟩).map fun s => s.size) =
    (meshShape M opt t' ⟨10202, builtinGUID, 0⟩).map fun s => s.size := by
  have e : builtinName ⟨10202, builtinGUID, 0⟩ = "Cube".toList := by decide
  unfold meshShape
  simp only [e]
  rw [if_neg (by decide), if_pos trivial, if_neg (by decide), if_pos trivial]
  rfl

/-- The bones of an FBX file replace those of the files before. -/
theorem bones_replaced_false (M : UMath F) (sc : UScene F) (fuel : Nat) (rf : URef) (mats : List Nat) (t : Mat4 F)
    (vis : Bool) (i : Nat) (o : Object F) (st st' : UState F) (fb : UFbx F) (hfb : sc.fbx rf.guid = some fb)
    (res : FResult F) (b : List (Bone F))
    (hres : fbxConvert M.facet fb.scene (fbxOptions fb rf o.depth mats t) fuel st.materials.length
      (st.objects.set i { o with name := o.name ++ "(FBX)".toList }) st.morphs = some res)
    (hb : res.setBones = some b) (h : addFbx M sc fuel rf mats t vis i o st = some st') : st'.bones = some b := by
  unfold addFbx at h
  rw [hfb] at h
  simp only at h
  rw [hres] at h
  simp only [hb, Option.some.injEq] at h
  rw [← h]
  unfold finishFrom markShared
  simp only
  split <;> rfl

/-- Two trees, each skinned by the bones of its file: only the weights of the second remain. -/
theorem bones_kept_false : (unityConvert sampleMath { sampleUnity with roots := [5, 6] } sampleOptions 6 3).map
    (fun r => (r.objects.map fun o => (o.name, o.uid),
      (r.bones.getD []).map fun b => (b.name, b.weights.map fun w => w.objectID))) =
    some ([("Tree(FBX)".toList, 1), ("Box".toList, 2), ("Smile".toList, 3), ("Lid".toList, 4),
      ("Tree(FBX)".toList, 5), ("Box".toList, 6), ("Smile".toList, 7), ("Lid".toList, 8)],
      [("Hips::Model".toList, []), ("Spine::Model".toList, [6])]) := by decide +kernel

end

end Verif.Conv
