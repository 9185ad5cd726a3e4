import Verif.Conv.Physics
import Mathlib.Tactic.Ring
import Mathlib.Data.List.Induction
import Mathlib.Data.List.Nodup
import Mathlib.Algebra.Field.Rat
import Mathlib.Algebra.BigOperators.Group.List.Basic

/-! Theorems about physics in glTF and VRM files (C161, C162). -/

namespace Verif.Conv

open Verif.Geom
open Verif.Mqo (Str Bone Object PhysicsBody PhysicsShape)

variable {F : Type}

/-! ### C161: rigid bodies become collision shapes of their bones -/

/-- The extension of a node at `pos` that has these bodies: all shapes, relative to the node and in the scale of the
file; the sum of the masses; fixed if one of them is. -/
def mergedBody [Field F] (scale : F) (pos : Vec3 F) : List (PhysicsBody F) → Option (NodeBody F)
  | [] => none
  | b :: bs => some {
      shapes := (b :: bs).flatMap fun b => b.shapes.map fun s =>
        ⟨s.size.scale scale, s.type, (s.position.sub pos).scale scale, s.size.scale scale⟩
      mass := ((b :: bs).map (·.mass)).sum
      static := (b :: bs).any (·.kinematic)
      collisionGroups := b.collisionGroup
      collisionMasks := b.collisionMask }

/-- The bodies with shapes. -/
def shaped (bodies : List (PhysicsBody F)) : List (PhysicsBody F) := bodies.filter fun b => !b.shapes.isEmpty

theorem addPhysicsBody_merged [Field F] (scale : F) (pos : Vec3 F) (B : List (PhysicsBody F)) (b : PhysicsBody F) :
    addPhysicsBody scale pos b (mergedBody scale pos (shaped B)) = mergedBody scale pos (shaped (B ++ [b])) := by
  unfold addPhysicsBody
  simp only [List.length_map]
  by_cases h : b.shapes = []
  · simp [shaped, h]
  · have hl : 0 < b.shapes.length := List.length_pos_iff.mpr h
    rw [if_pos hl]
    have e : shaped (B ++ [b]) = shaped B ++ [b] := by simp [shaped, h]
    rw [e]
    have hs : b.shapes.map (nodeShape scale pos) = b.shapes.map fun s =>
        ⟨s.size.scale scale, s.type, (s.position.sub pos).scale scale, s.size.scale scale⟩ := rfl
    cases hB : shaped B with
    | nil => simp [mergedBody, hs]
    | cons c C => simp [mergedBody, hs, List.append_assoc, add_assoc, Bool.or_assoc]

/-- C161: the extension of the node of a bone is made of exactly the bodies whose bone it is. -/
theorem bone_bodies [Field F] (scale : F) (bones : List (Bone F)) (bodies : List (PhysicsBody F)) (n : Nat)
    (b : Bone F) (hb : bones[n]? = some b) :
    boneBodies scale bones bodies n = mergedBody scale b.pos (shaped (bodies.filter fun x =>
      x.targetBoneID ≠ 0 ∧ findBone bones x.targetBoneID = some n)) := by
  induction bodies using List.reverseRecOn with
  | nil => rfl
  | append_singleton bs x ih =>
    have e : boneBodies scale bones (bs ++ [x]) = addBoneBody scale bones (boneBodies scale bones bs) x := by
      simp [boneBodies, List.foldl_append]
    rw [e, List.filter_append]
    unfold addBoneBody
    by_cases h0 : x.targetBoneID = 0
    · rw [if_pos h0, ih]
      simp [h0]
    · rw [if_neg h0]
      cases hf : findBone bones x.targetBoneID with
      | none =>
        simp only
        rw [ih]
        simp [hf]
      | some k =>
        simp only
        by_cases hk : k = n
        · subst hk
          rw [hb]
          simp only [Function.update_self]
          rw [ih, addPhysicsBody_merged]
          simp [h0, hf]
        · have hx : [x].filter (fun x => decide (x.targetBoneID ≠ 0 ∧ findBone bones x.targetBoneID = some n)) = [] := by
            simp [hf, hk]
          rw [hx, List.append_nil]
          cases bones[k]? with
          | none => exact ih
          | some c =>
            simp only
            rw [Function.update_of_ne (Ne.symm hk)]
            exact ih

/-- C161: the extension of the node of an object is made of exactly the bodies of the object, in the coordinates of
the document. -/
theorem object_bodies [Field F] (scale : F) (uid : Int) (bodies : List (PhysicsBody F)) :
    objectBody scale uid bodies = mergedBody scale ⟨0, 0, 0⟩ (shaped (bodies.filter fun x =>
      x.targetObjID ≠ 0 ∧ x.targetObjID = uid)) := by
  induction bodies using List.reverseRecOn with
  | nil => rfl
  | append_singleton bs x ih =>
    have e : objectBody scale uid (bs ++ [x]) =
        if x.targetObjID ≠ 0 ∧ x.targetObjID = uid then addPhysicsBody scale ⟨0, 0, 0⟩ x (objectBody scale uid bs)
        else objectBody scale uid bs := by
      simp [objectBody, List.foldl_append]
    rw [e, List.filter_append, ih]
    split
    · rename_i h
      rw [addPhysicsBody_merged]
      have hx : [x].filter (fun x => decide (x.targetObjID ≠ 0 ∧ x.targetObjID = uid)) = [x] := by
        simp only [List.filter_cons, decide_eq_true h, List.filter_nil, if_true]
      rw [hx]
    · rename_i h
      have : [x].filter (fun x => decide (x.targetObjID ≠ 0 ∧ x.targetObjID = uid)) = [] := by
        simp only [List.filter_cons, decide_eq_false h, List.filter_nil, Bool.false_eq_true, if_false]
      rw [this, List.append_nil]

/-- C161: every shape of a body is found at the node of its bone, with its type and its size in the scale of the
file, at the place the body has in the document: the place of the node is that of the bone (C43). -/
theorem shape_place [Field F] (scale : F) (bones : List (Bone F)) (bodies : List (PhysicsBody F)) (n : Nat)
    (b : Bone F) (hb : bones[n]? = some b) (x : PhysicsBody F) (hx : x ∈ bodies) (h0 : x.targetBoneID ≠ 0)
    (hn : findBone bones x.targetBoneID = some n) (s : PhysicsShape F) (hs : s ∈ x.shapes) :
    ∃ p t, boneBodies scale bones bodies n = some p ∧ t ∈ p.shapes ∧ t.shapeType = s.type ∧
      t.offsetScale = s.size.scale scale ∧ t.boundingBox = s.size.scale scale ∧
      (b.pos.scale scale).add t.offsetTranslation = s.position.scale scale ∧
      (x.kinematic = true → p.static = true) := by
  rw [bone_bodies scale bones bodies n b hb]
  have hm : x ∈ shaped (bodies.filter fun x => x.targetBoneID ≠ 0 ∧ findBone bones x.targetBoneID = some n) := by
    unfold shaped
    rw [List.mem_filter, List.mem_filter]
    refine ⟨⟨hx, by simp [h0, hn]⟩, ?_⟩
    cases hl : x.shapes with
    | nil => rw [hl] at hs; exact absurd hs (by simp)
    | cons => rfl
  revert hm
  generalize shaped (bodies.filter fun x => x.targetBoneID ≠ 0 ∧ findBone bones x.targetBoneID = some n) = B
  intro hm
  cases B with
  | nil => exact absurd hm (by simp)
  | cons c C =>
    refine ⟨_, ⟨s.size.scale scale, s.type, (s.position.sub b.pos).scale scale, s.size.scale scale⟩, rfl, ?_, rfl, rfl,
      rfl, ?_, ?_⟩
    · exact List.mem_flatMap.mpr ⟨x, hm, List.mem_map.mpr ⟨s, hs, rfl⟩⟩
    · simp only [Vec3.add, Vec3.sub, Vec3.scale, Vec3.mk.injEq]
      exact ⟨by ring, by ring, by ring⟩
    · intro hk
      exact List.any_eq_true.mpr ⟨x, hm, hk⟩

/-- C161 does not hold for bodies without a bone or an object: they have no effect on the file. -/
theorem loose_body_false [Field F] (scale : F) (bones : List (Bone F)) (bs cs : List (PhysicsBody F))
    (x : PhysicsBody F) (h0 : x.targetBoneID = 0 ∨ findBone bones x.targetBoneID = none) (h1 : x.targetObjID = 0) :
    boneBodies scale bones (bs ++ x :: cs) = boneBodies scale bones (bs ++ cs) ∧
      ∀ uid, objectBody scale uid (bs ++ x :: cs) = objectBody scale uid (bs ++ cs) := by
  constructor
  · simp only [boneBodies, List.foldl_append, List.foldl_cons]
    congr 1
    unfold addBoneBody
    rcases h0 with h | h
    · rw [if_pos h]
    · simp [h]
  · intro uid
    rw [object_bodies, object_bodies]
    simp [h1]

/-- C161 does not hold for the turn of a shape: it is not exported. -/
theorem shape_turn_false [Field F] (scale : F) (bones : List (Bone F)) (bodies : List (PhysicsBody F))
    (turn : PhysicsShape F → Vec3 F) :
    boneBodies scale bones (bodies.map fun b => { b with shapes := b.shapes.map fun s => { s with rotation := turn s } }) =
      boneBodies scale bones bodies := by
  unfold boneBodies
  rw [List.foldl_map]
  congr 1
  funext ext b
  unfold addBoneBody addPhysicsBody
  simp only [List.map_map]
  rfl

/-- C161 does not hold for the collision groups of bodies that share a bone: those of the first count. -/
theorem groups_false [Field F] (scale : F) (bones : List (Bone F)) (n : Nat) (b : Bone F) (hb : bones[n]? = some b)
    (x y : PhysicsBody F) (hx : x.targetBoneID ≠ 0) (hn : findBone bones x.targetBoneID = some n)
    (hy : y.targetBoneID = x.targetBoneID) (hs : x.shapes ≠ []) :
    ∃ p, boneBodies scale bones [x, y] n = some p ∧ p.collisionGroups = x.collisionGroup ∧
      p.collisionMasks = x.collisionMask := by
  rw [bone_bodies scale bones _ n b hb]
  by_cases h : y.shapes = []
  · simp [hx, hn, hy, shaped, hs, h, mergedBody]
  · simp [hx, hn, hy, shaped, hs, h, mergedBody]

/-! ### C162: colliders of VRM files -/

section
variable [Zero F] [DecidableEq F]

theorem mem_convertColliders (nodes : List (Str × Option (NodeBody F))) (g : ColliderGroup F) : ∀ k,
    g ∈ convertColliders k nodes ↔ ∃ i name p, nodes[i]? = some (name, some p) ∧ p.static = true ∧
      collidersOf p.shapes ≠ [] ∧ g = ⟨k + i, collidersOf p.shapes, name⟩ := by
  induction nodes with
  | nil => intro k; simp [convertColliders]
  | cons x rest ih =>
    intro k
    obtain ⟨name, body⟩ := x
    simp only [convertColliders, List.mem_append, ih (k + 1)]
    constructor
    · rintro (h | ⟨i, nm, p, h1, h2, h3, h4⟩)
      · unfold nodeColliders at h
        split at h
        · exact absurd h (by simp)
        · rename_i p
          split at h
          · rename_i hp
            simp only at h
            split at h
            · rename_i hl
              refine ⟨0, name, p, rfl, hp, List.length_pos_iff.mp hl, by simpa using h⟩
            · exact absurd h (by simp)
          · exact absurd h (by simp)
      · exact ⟨i + 1, nm, p, by simpa using h1, h2, h3, by rw [h4, Nat.add_right_comm, Nat.add_assoc]⟩
    · rintro ⟨i, nm, p, h1, h2, h3, h4⟩
      cases i with
      | zero =>
        left
        simp only [List.getElem?_cons_zero, Option.some.injEq, Prod.mk.injEq] at h1
        obtain ⟨rfl, rfl⟩ := h1
        unfold nodeColliders
        simp only [h2, if_true]
        rw [if_pos (List.length_pos_iff.mpr h3), h4]
        simp
      | succ i =>
        right
        exact ⟨i, nm, p, by simpa using h1, h2, h3, by rw [h4, Nat.add_right_comm, Nat.add_assoc]⟩

theorem lastNamed_some (names : List Str) (name : Str) (i : Nat) (h : lastNamed names name = some i) :
    names[i]? = some name := by
  unfold lastNamed at h
  rw [Option.map_eq_some_iff] at h
  obtain ⟨⟨s, j⟩, h1, rfl⟩ := h
  have h2 := List.mem_of_getLast? h1
  rw [List.mem_filter] at h2
  have h3 : s = name := by simpa using h2.2
  subst h3
  have := List.mem_zipIdx' h2.1
  simp [this.2, List.getElem?_eq_getElem this.1]

theorem lastNamed_of_mem (names : List Str) (name : Str) (h : name ∈ names) : ∃ i, lastNamed names name = some i := by
  unfold lastNamed
  obtain ⟨i, hi, rfl⟩ := List.getElem_of_mem h
  have hm : (names[i], i) ∈ names.zipIdx.filter fun p => p.1 = names[i] := by
    rw [List.mem_filter]
    refine ⟨?_, by simp⟩
    rw [List.mem_zipIdx_iff_getElem?]
    simp
  cases hl : (names.zipIdx.filter fun p => p.1 = names[i]).getLast? with
  | none =>
    rw [List.getLast?_eq_none_iff] at hl
    rw [hl] at hm
    exact absurd hm (by simp)
  | some x => exact ⟨x.2, rfl⟩

theorem lastNamed_unique (names : List Str) (hd : names.Nodup) (i : Nat) (name : Str) (h : names[i]? = some name) :
    lastNamed names name = some i := by
  obtain ⟨j, hj⟩ := lastNamed_of_mem names name (List.mem_of_getElem? h)
  have h1 := lastNamed_some names name j hj
  obtain ⟨a, ha⟩ := List.getElem?_eq_some_iff.mp h
  obtain ⟨b, hb⟩ := List.getElem?_eq_some_iff.mp h1
  have := (List.Nodup.getElem_inj_iff hd).mp (ha.trans hb.symm)
  rw [hj, this]

/-- C162 (partial): if the nodes have different names, the collider groups of the VRM document are those of the nodes
with a fixed body, each with a ball for every sphere and capsule that has a radius. Missing: nodes of the same name, see
`same_name_false`. -/
theorem colliders_partial (nodes : List (Str × Option (NodeBody F))) (hd : (nodes.map (·.1)).Nodup)
    (g : ColliderGroup F) :
    g ∈ vrmColliders nodes ↔ ∃ name p, nodes[g.node]? = some (name, some p) ∧ p.static = true ∧ g.nodeName = name ∧
      g.colliders ≠ [] ∧ g.colliders = (p.shapes.filter fun s =>
        (s.shapeType = "SPHERE".toList ∨ s.shapeType = "CAPSULE".toList) ∧ s.offsetScale.x ≠ 0).map fun s =>
          ⟨s.offsetScale.x, s.offsetTranslation⟩ := by
  have hc : ∀ ss : List (NodeShape F), collidersOf ss = (ss.filter fun s =>
      (s.shapeType = "SPHERE".toList ∨ s.shapeType = "CAPSULE".toList) ∧ s.offsetScale.x ≠ 0).map fun s =>
        ⟨s.offsetScale.x, s.offsetTranslation⟩ := by
    intro ss
    unfold collidersOf
    generalize "SPHERE".toList = a
    generalize "CAPSULE".toList = b
    induction ss with
    | nil => rfl
    | cons s ss ih =>
      by_cases hs : (s.shapeType = a ∨ s.shapeType = b) ∧ s.offsetScale.x ≠ 0
      · rw [List.filterMap_cons_some (by rw [if_pos hs]), List.filter_cons_of_pos (by simpa using hs), List.map_cons, ih]
      · rw [List.filterMap_cons_none (by rw [if_neg hs]), List.filter_cons_of_neg (by simpa using hs), ih]
  have hname : ∀ (i : Nat) (name : Str) (p : Option (NodeBody F)), nodes[i]? = some (name, p) →
      lastNamed (nodes.map (·.1)) name = some i := by
    intro i name p h
    exact lastNamed_unique _ hd i name (by simp [h])
  unfold vrmColliders applyColliders
  rw [List.mem_filterMap]
  constructor
  · rintro ⟨g', h1, h2⟩
    obtain ⟨i, name, p, h3, h4, h5, rfl⟩ := (mem_convertColliders nodes g' 0).mp h1
    rw [hname i name _ h3] at h2
    simp only [Option.map_some, Option.some.injEq] at h2
    subst h2
    exact ⟨name, p, h3, h4, rfl, h5, hc _⟩
  · rintro ⟨name, p, h1, h2, h3, h4, h5⟩
    rw [← hc] at h5
    refine ⟨⟨g.node, g.colliders, g.nodeName⟩, ?_, ?_⟩
    · rw [mem_convertColliders]
      exact ⟨g.node, name, p, h1, h2, by rw [← h5]; exact h4, by rw [Nat.zero_add, ← h5, ← h3]⟩
    · simp only [h3, hname g.node name _ h1, Option.map_some]
      rw [← h3]

/-- C162: in any case a collider group is put at a node of the name. -/
theorem collider_node (nodes : List (Str × Option (NodeBody F))) (g : ColliderGroup F) (hg : g ∈ vrmColliders nodes) :
    (nodes.map (·.1))[g.node]? = some g.nodeName := by
  unfold vrmColliders applyColliders at hg
  rw [List.mem_filterMap] at hg
  obtain ⟨g', _, h2⟩ := hg
  rw [Option.map_eq_some_iff] at h2
  obtain ⟨i, h3, rfl⟩ := h2
  exact lastNamed_some _ _ _ h3

/-- C162 does not hold for nodes of the same name: the group of the first is put at the last one. -/
theorem same_name_false (name : Str) (p : NodeBody F) (hp : p.static = true) (hc : collidersOf p.shapes ≠ []) :
    vrmColliders [(name, some p), (name, none)] = [⟨1, collidersOf p.shapes, name⟩] := by
  have h1 : lastNamed [name, name] name = some 1 := by simp [lastNamed]
  unfold vrmColliders applyColliders
  simp only [convertColliders, nodeColliders, hp, if_true, List.length_pos_iff.mpr hc, List.map_cons, List.map_nil,
    List.append_nil, List.filterMap_cons, h1, Option.map_some, List.filterMap_nil]

/-- C162 does not hold for boxes: they never give a collider. -/
theorem box_false (name : Str) (p : NodeBody F) (hp : ∀ s ∈ p.shapes, s.shapeType = "BOX".toList) :
    vrmColliders [(name, some p)] = [] := by
  have h : collidersOf p.shapes = [] := by
    unfold collidersOf
    rw [List.filterMap_eq_nil_iff]
    intro s hs
    rw [hp s hs, if_neg]
    rintro ⟨h | h, _⟩
    · exact absurd h (by decide)
    · exact absurd h (by decide)
  unfold vrmColliders applyColliders
  simp [convertColliders, nodeColliders, h]

end

/-- C162 does not hold for the spring bones made from physics: there is a group with all of them, but it names no
collider group, so nothing that was converted here stops them. -/
theorem springs_pass_false (roots : List Str) :
    (∀ r ∈ roots, ∃ g ∈ autoSpringGroup roots, r ∈ g.1) ∧ ∀ g ∈ autoSpringGroup roots, g.1 = roots ∧ g.2 = [] := by
  unfold autoSpringGroup
  split
  · simp
  · rename_i h
    rw [List.length_pos_iff, not_not] at h
    simp [h]

/-- C161 and C162 together: a fixed sphere of an MMD model becomes a ball of its radius, at the place of the body
(mirrored, and in the scale of the file), fixed to the node of its bone. -/
theorem mmd_sphere [Field F] [DecidableEq F] (scale : F) (bones : List (Bone F)) (bodies : List (MmdBody F)) (n : Nat)
    (b : Bone F) (hb : bones[n]? = some b) (names : List Str) (hd : names.Nodup) (hn : n < names.length)
    (x : MmdBody F) (hx : x ∈ bodies) (h0 : x.bone + 1 ≠ 0) (hbn : findBone bones (x.bone + 1) = some n)
    (hm : x.mode = 0) (hs : x.shape = 0) (hr : x.size.x * scale ≠ 0) :
    ∃ g c, g ∈ vrmColliders (names.mapIdx fun i name => (name, boneBodies scale bones (bodies.map mqoBody) i)) ∧
      c ∈ g.colliders ∧ g.node = n ∧ c.radius = x.size.x * scale ∧
      (b.pos.scale scale).add c.offset = (⟨x.position.x, x.position.y, -x.position.z⟩ : Vec3 F).scale scale := by
  have hs1 : (mqoBody x).shapes = [⟨"SPHERE".toList, mmdToMqoVec x.size, mmdToMqoVec x.position, x.rotation⟩] := by
    unfold mqoBody
    rw [hs]
    rfl
  obtain ⟨p, t, h1, h2, h3, h4, _, h6, h7⟩ := shape_place scale bones (bodies.map mqoBody) n b hb (mqoBody x)
    (List.mem_map.mpr ⟨x, hx, rfl⟩) h0 hbn
    ⟨"SPHERE".toList, mmdToMqoVec x.size, mmdToMqoVec x.position, x.rotation⟩ (by rw [hs1]; exact List.mem_singleton_self _)
  have hst : p.static = true := h7 (by unfold mqoBody; simp [hm])
  have hrx : t.offsetScale.x = x.size.x * scale := by rw [h4]; rfl
  let cs := (p.shapes.filter fun s =>
        (s.shapeType = "SPHERE".toList ∨ s.shapeType = "CAPSULE".toList) ∧ s.offsetScale.x ≠ 0).map fun s =>
          (⟨s.offsetScale.x, s.offsetTranslation⟩ : Collider F)
  have hmem : (⟨t.offsetScale.x, t.offsetTranslation⟩ : Collider F) ∈ cs := by
    refine List.mem_map.mpr ⟨t, List.mem_filter.mpr ⟨h2, ?_⟩, rfl⟩
    rw [decide_eq_true_eq]
    exact ⟨.inl h3, by rw [hrx]; exact hr⟩
  refine ⟨⟨n, cs, names[n]⟩, _, ?_, hmem, rfl, hrx, ?_⟩
  · rw [colliders_partial _ (by
      have : (names.mapIdx fun i name => (name, boneBodies scale bones (bodies.map mqoBody) i)).map (·.1) = names := by
        apply List.ext_getElem <;> simp
      rw [this]
      exact hd)]
    refine ⟨names[n], p, ?_, hst, rfl, List.ne_nil_of_mem hmem, rfl⟩
    rw [List.getElem?_mapIdx, List.getElem?_eq_getElem hn]
    simp [h1]
  · simp only
    rw [h6]
    unfold mmdToMqoVec
    simp only [Vec3.scale, mul_neg, mul_one, neg_mul]

/-! Examples for C161 and C162. -/

/-- A bone at (0, 10, 0) with number 1. -/
def physBone : Bone ℚ := ⟨1, "a".toList, 0, 0, ⟨0, 10, 0⟩, 0, 0, 0, [], none, none, none, [], [], ⟨0, 0, 0⟩⟩

/-- A fixed ball of radius 2 at (1, 11, 3) for the bone. -/
def physBall : MmdBody ℚ := ⟨"b".toList, 0, 3, 1, 0, ⟨2, 0, 0⟩, ⟨1, 11, 3⟩, ⟨0, 0, 0⟩, 5, 0, 0, 0, 0, 0⟩

/-- A loose box at the same bone. -/
def physBox : MmdBody ℚ := ⟨"c".toList, 0, 4, 1, 1, ⟨1, 2, 3⟩, ⟨0, 12, 0⟩, ⟨1, 0, 0⟩, 7, 0, 0, 0, 0, 1⟩

/-- Hypotheses of `bone_bodies`, `shape_place` and `groups_false`: two bodies at one bone. -/
example : [physBone][0]? = some physBone ∧ findBone [physBone] (mqoBody physBall).targetBoneID = some 0 ∧
    (mqoBody physBall).targetBoneID ≠ 0 ∧ (mqoBody physBall).shapes ≠ [] ∧
    (mqoBody physBox).targetBoneID = (mqoBody physBall).targetBoneID ∧
    (mqoBody physBall).collisionGroup ≠ (mqoBody physBox).collisionGroup := by
  refine ⟨rfl, ?_, ?_, ?_, ?_, ?_⟩ <;> decide +kernel

/-- What `bone_bodies` says about them: two shapes, mass 12, fixed. -/
example : boneBodies (1 / 10) [physBone] [mqoBody physBall, mqoBody physBox] 0 = some
    ⟨[⟨⟨1 / 5, 0, 0⟩, "SPHERE".toList, ⟨1 / 10, 1 / 10, -3 / 10⟩, ⟨1 / 5, 0, 0⟩⟩,
      ⟨⟨1 / 10, 1 / 5, -3 / 10⟩, "BOX".toList, ⟨0, 1 / 5, 0⟩, ⟨1 / 10, 1 / 5, -3 / 10⟩⟩], 12, true, 3, 1⟩ := by
  decide +kernel

/-- Hypothesis of `object_bodies`: the body of an object. -/
example : objectBody (1 / 10) 5 [{ mqoBody physBall with targetObjID := 5, targetBoneID := 0 }] = some
    ⟨[⟨⟨1 / 5, 0, 0⟩, "SPHERE".toList, ⟨1 / 10, 11 / 10, -3 / 10⟩, ⟨1 / 5, 0, 0⟩⟩], 5, true, 3, 1⟩ := by
  decide +kernel

/-- Hypotheses of `loose_body_false`: an MMD body without a bone (-1). -/
example : (mqoBody { physBall with bone := -1 }).targetBoneID = 0 ∧
    (mqoBody { physBall with bone := -1 }).targetObjID = 0 := by decide +kernel

/-- Hypotheses of `shape_turn_false`: the box is turned. -/
example : (mqoBody physBox).shapes.map (·.rotation) ≠ [⟨0, 0, 0⟩] := by decide +kernel

/-- Hypotheses of `colliders_partial`, `collider_node` and `mmd_sphere`: the ball of the bone. -/
example : ["a".toList].Nodup ∧ physBall.mode = 0 ∧ physBall.shape = 0 ∧ physBall.size.x * (1 / 10) ≠ 0 ∧
    physBall.bone + 1 ≠ 0 ∧ findBone [physBone] (physBall.bone + 1) = some 0 := by decide +kernel

example : vrmColliders [("a".toList, boneBodies (1 / 10) [physBone] [mqoBody physBall, mqoBody physBox] 0)] =
    [⟨0, [⟨1 / 5, ⟨1 / 10, 1 / 10, -3 / 10⟩⟩], "a".toList⟩] := by decide +kernel

/-- Hypotheses of `same_name_false` and `box_false`. -/
example : collidersOf [(⟨⟨1, 0, 0⟩, "SPHERE".toList, ⟨0, 0, 0⟩, ⟨1, 0, 0⟩⟩ : NodeShape ℚ)] ≠ [] ∧
    ∀ s ∈ [(⟨⟨1, 2, 3⟩, "BOX".toList, ⟨0, 0, 0⟩, ⟨1, 2, 3⟩⟩ : NodeShape ℚ)], s.shapeType = "BOX".toList := by
  decide +kernel

/-- Hypothesis of `springs_pass_false`: there is such a group. -/
example : (autoSpringGroup ["hair".toList]).length = 1 := by decide +kernel

end Verif.Conv
