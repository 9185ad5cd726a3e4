import Verif.Fbx.Geometry

/-!
C29: a face list survives being stored as an FBX index list. C34: what the setters of layer
elements store.
-/

namespace Verif.Fbx

open Verif.Mmd (Bytes toSigned V3)
open Verif.Geom

theorem toSigned_int32Bits (i : Int) (h0 : 0 ≤ i) (h1 : i < 2147483648) :
    toSigned 4 (int32Bits i) = i := by
  have : i % 4294967296 = i := Int.emod_eq_of_lt h0 (by omega)
  simp only [toSigned, int32Bits, this]
  rw [if_pos (by omega)]; omega

theorem toSigned_compl (i : Int) (h0 : 0 ≤ i) (h1 : i < 2147483648) :
    toSigned 4 (4294967295 - int32Bits i) = -1 - i := by
  have : i % 4294967296 = i := Int.emod_eq_of_lt h0 (by omega)
  simp only [toSigned, int32Bits, this]
  rw [if_neg (by omega)]; omega

theorem int32Bits_lt (i : Int) : int32Bits i < 4294967296 := by
  unfold int32Bits; omega

theorem decode_face (f : List Int) (hne : f ≠ []) (h : ∀ i ∈ f, 0 ≤ i ∧ i < 2147483648)
    (acc : List Int) (rest : List Nat) :
    decodePolygons acc (faceIndices f ++ rest) = (acc ++ f) :: decodePolygons [] rest := by
  induction f generalizing acc with
  | nil => exact absurd rfl hne
  | cons i l ih =>
    have hi := h i (by simp)
    cases l with
    | nil =>
      have hlt := int32Bits_lt i
      simp only [faceIndices, List.cons_append, List.nil_append, decodePolygons]
      rw [if_pos (by rw [toSigned_compl i hi.1 hi.2]; omega)]
      have : 4294967295 - (4294967295 - int32Bits i) = int32Bits i := by omega
      rw [this, toSigned_int32Bits i hi.1 hi.2]
    | cons j l =>
      simp only [faceIndices, List.cons_append, decodePolygons]
      rw [if_neg (by rw [toSigned_int32Bits i hi.1 hi.2]; omega), toSigned_int32Bits i hi.1 hi.2,
        ih (by simp) (fun k hk => h k (by simp [hk]))]
      simp

theorem decode_faces (faces : List (List Int)) (h : ∀ f ∈ faces, ∀ i ∈ f, 0 ≤ i ∧ i < 2147483648) :
    decodePolygons [] (faces.flatMap faceIndices) = faces.filter (fun f => f ≠ []) := by
  induction faces with
  | nil => rfl
  | cons f fs ih =>
    have ih := ih fun g hg => h g (by simp [hg])
    by_cases hf : f = []
    · simp [hf, faceIndices, ih]
    · rw [List.flatMap_cons, decode_face f hf (h f (by simp)), ih]
      simp [hf]

theorem getInt32Array_slice (name : Bytes) (l : List Nat) :
    getInt32Array (some (.leaf name [slice .i32 l])) = if l = [] then [0] else l := by
  by_cases h : l = []
  · simp [h, slice, getInt32Array, attr, Node.leaf, toInt32Array, toInt64, int32Bits]
  · simp [h, slice, getInt32Array, attr, Node.leaf, toInt32Array]

theorem vec3s_flatMap (verts : List V3) : vec3s (verts.flatMap vec3Floats) = verts := by
  induction verts with
  | nil => rfl
  | cons v vs ih => simp [vec3Floats, vec3s, ih]

theorem getFloat32Array_slice (cv : Conv) (name : Bytes) (l : List Nat) :
    getFloat32Array cv (some (.leaf name [slice .f32 l])) = if l = [] then [0] else l := by
  by_cases h : l = []
  · simp [h, slice, getFloat32Array, attr, Node.leaf, toFloat32Array, toFloat32]
  · simp [h, slice, getFloat32Array, attr, Node.leaf, toFloat32Array]

/-- C29. The geometry node built from a face list decodes to exactly these vertices and faces, in
order and with every index in its place. -/
theorem polygons_roundtrip (cv : Conv) (name : Bytes) (verts : List V3) (faces : List (List Int))
    (h : ∀ f ∈ faces, f ≠ [] ∧ ∀ i ∈ f, 0 ≤ i ∧ i < 2 ^ 31) :
    (geometryInit cv (newGeometry name verts faces)).polygons = faces ∧
    (geometryInit cv (newGeometry name verts faces)).vertices = verts := by
  have hp : findChild (some (newGeometry name verts faces)) b! "PolygonVertexIndex" =
      some (.leaf b! "PolygonVertexIndex" [slice .i32 (faces.flatMap faceIndices)]) := rfl
  have hv : findChild (some (newGeometry name verts faces)) b! "Vertices" =
      some (.leaf b! "Vertices" [slice .f32 (verts.flatMap vec3Floats)]) := rfl
  simp only [geometryInit, hp, hv, getInt32Array_slice, getFloat32Array_slice]
  constructor
  · have hd := decode_faces faces fun f hf i hi => by have := (h f hf).2 i hi; omega
    have hfl : faces.filter (fun f => f ≠ []) = faces := by
      rw [List.filter_eq_self]; intro f hf; simp [(h f hf).1]
    rw [hfl] at hd
    split
    · rename_i he
      rw [he] at hd
      rw [← hd]; rfl
    · exact hd
  · split
    · rename_i he
      have := vec3s_flatMap verts
      rw [he] at this
      rw [← this]; rfl
    · exact vec3s_flatMap verts

/-- A mesh with a triangle and a quad meets the hypotheses. -/
example : ∀ f ∈ [[(0 : Int), 1, 2], [2, 1, 3, 0]], f ≠ [] ∧ ∀ i ∈ f, 0 ≤ i ∧ i < 2 ^ 31 := by
  decide

/-- C29, faces without vertices: they are dropped, all other faces are kept. -/
theorem polygons_empty_dropped (cv : Conv) (name : Bytes) (verts : List V3)
    (faces : List (List Int)) (h : ∀ f ∈ faces, ∀ i ∈ f, 0 ≤ i ∧ i < 2 ^ 31) :
    (geometryInit cv (newGeometry name verts faces)).polygons = faces.filter (fun f => f ≠ []) := by
  have hp : findChild (some (newGeometry name verts faces)) b! "PolygonVertexIndex" =
      some (.leaf b! "PolygonVertexIndex" [slice .i32 (faces.flatMap faceIndices)]) := rfl
  simp only [geometryInit, hp, getInt32Array_slice]
  have hd := decode_faces faces fun f hf i hi => by have := h f hf i hi; omega
  split
  · rename_i he
    rw [he] at hd
    rw [← hd]; rfl
  · exact hd

example : (geometryInit ⟨id, fun _ => 0⟩ (newGeometry [] [] [[0, 1], [], [2]])).polygons =
    [[0, 1], [2]] := by
  rw [polygons_empty_dropped _ _ _ _ (by decide)]; decide

/-- C29: the vertex count stored beside the polygons is the number of their indices — provided
there is at least one index. -/
theorem polygonVertexCount_correct (cv : Conv) (name : Bytes) (verts : List V3)
    (faces : List (List Int)) (h : ∃ f ∈ faces, f ≠ []) :
    (geometryInit cv (newGeometry name verts faces)).polygonVertexCount =
      (faces.map List.length).sum := by
  have hp : findChild (some (newGeometry name verts faces)) b! "PolygonVertexIndex" =
      some (.leaf b! "PolygonVertexIndex" [slice .i32 (faces.flatMap faceIndices)]) := rfl
  have hlen : ∀ f, (faceIndices f).length = f.length := by
    intro f
    induction f with
    | nil => rfl
    | cons i l ih => cases l <;> simp_all [faceIndices]
  have hl : (faces.flatMap faceIndices).length = (faces.map List.length).sum := by
    rw [List.length_flatMap]
    congr 1
    exact List.map_congr_left fun f _ => hlen f
  obtain ⟨f, hf, hne⟩ := h
  have : faces.flatMap faceIndices ≠ [] := by
    intro he
    rw [List.flatMap_eq_nil_iff] at he
    have := congrArg List.length (he f hf)
    rw [hlen] at this
    exact hne (List.eq_nil_of_length_eq_zero (by simpa using this))
  simp only [geometryInit, hp, getInt32Array_slice, if_neg this, hl]

example : ∃ f ∈ [[(0 : Int), 1, 2]], f ≠ [] := by decide

/-- A geometry built from no faces is decoded with one polygon vertex, although it has none. -/
theorem polygonVertexCount_empty_false (cv : Conv) (name : Bytes) (verts : List V3) :
    (geometryInit cv (newGeometry name verts [])).polygonVertexCount = 1 := rfl

/-! ## Layer elements -/

theorem addOrReplaceChild_find (g c : Node) :
    findChild (some (addOrReplaceChild g c).1) c.name = some c := by
  have key : ∀ l : List Node,
      (∀ l', addOrReplaceChild.go c l = some l' → l'.find? (fun x => x.name == c.name) = some c) ∧
      (addOrReplaceChild.go c l = none → ∀ x ∈ l, x.name ≠ c.name) := by
    intro l
    induction l with
    | nil => simp [addOrReplaceChild.go]
    | cons x xs ih =>
      constructor
      · intro l' h
        simp only [addOrReplaceChild.go] at h
        split at h
        · simp only [Option.some.injEq] at h; subst h; simp
        · rename_i hx
          cases hg : addOrReplaceChild.go c xs with
          | none => simp [hg] at h
          | some r =>
            simp only [hg, Option.map_some, Option.some.injEq] at h
            subst h
            simp [List.find?_cons, hx, ih.1 r hg]
      · intro h y hy
        simp only [addOrReplaceChild.go] at h
        split at h
        · simp at h
        · rename_i hx
          rcases List.mem_cons.mp hy with rfl | hy
          · exact hx
          · exact ih.2 (by simpa using h) y hy
  unfold addOrReplaceChild
  split
  · rename_i l h
    simp only [findChild, Node.children_mk]
    exact (key _).1 l h
  · rename_i h
    have := (key _).2 h
    simp only [findChild, Node.children_mk, List.find?_append]
    rw [List.find?_eq_none.mpr (by intro x hx; simpa using this x hx)]
    simp

theorem updateChild_find (g g' : Node) (name m : Bytes) (f : Node → Node)
    (h : updateChild g name f = some g') (hm : m ≠ name) (hf : ∀ x, (f x).name = x.name) :
    findChild (some g') m = findChild (some g) m := by
  have key : ∀ l l' : List Node, updateChild.go name f l = some l' →
      l'.find? (fun x => x.name == m) = l.find? (fun x => x.name == m) := by
    intro l
    induction l with
    | nil => intro l' h; simp [updateChild.go] at h
    | cons x xs ih =>
      intro l' h
      simp only [updateChild.go] at h
      split at h
      · rename_i hx
        simp only [Option.some.injEq] at h; subst h
        have h1 : (name == m) = false := by simpa using fun e => hm e.symm
        simp [List.find?_cons, hf, hx, h1]
      · cases hg : updateChild.go name f xs with
        | none => simp [hg] at h
        | some r =>
          simp only [hg, Option.map_some, Option.some.injEq] at h
          subst h
          simp [List.find?_cons, ih r hg]
  unfold updateChild at h
  cases hg : updateChild.go name f g.children with
  | none => simp [hg] at h
  | some l =>
    simp only [hg, Option.map_some, Option.some.injEq] at h
    subst h
    exact key _ _ hg

theorem setLayerElementNode_find (g g' : Node) (name : Bytes) (t : Int) (vs : List Node)
    (h : setLayerElementNode g name t vs = some g') (hn : name ≠ b! "Layer") :
    findChild (some g') name = some (.leaf name [.int 0]) := by
  have hf := addOrReplaceChild_find g (.leaf name [.int 0])
  unfold setLayerElementNode at h
  split at h
  · rename_i heq
    simp only [Option.some.injEq] at h; subst h
    rw [heq] at hf; exact hf
  · rename_i heq
    rw [heq] at hf
    rw [updateChild_find _ _ _ name _ h hn (fun x => by cases x; rfl)]
    exact hf

/-- C34 is false: after setting normals on any geometry, the geometry holds no normals. -/
theorem setLayerElementNormal_stores_false (cv : Conv) (g g' : Node) (normals : List V3)
    (mapping : Bytes) (h : setLayerElementNormal g normals mapping = some g') :
    layerArray g' b! "LayerElementNormal" b! "Normals" = none ∧ normalsOf cv g' = [] := by
  have := setLayerElementNode_find g g' _ _ _ h (by decide)
  have hl : layerArray g' b! "LayerElementNormal" b! "Normals" = none := by
    simp only [layerArray, this]; rfl
  exact ⟨hl, by simp [normalsOf, hl, getFloat32Array, toFloat32Array, attr, vec3s]⟩

/-- C34 is false: the same for material indices. -/
theorem setLayerElementMaterialIndex_stores_false (g g' : Node) (mat : List Nat)
    (mapping : Bytes) (h : setLayerElementMaterialIndex g mat mapping = some g') :
    layerArray g' b! "LayerElementMaterial" b! "Materials" = none ∧ materialsOf g' = [] := by
  have := setLayerElementNode_find g g' _ _ _ h (by decide)
  have hl : layerArray g' b! "LayerElementMaterial" b! "Materials" = none := by
    simp only [layerArray, this]; rfl
  exact ⟨hl, by simp [materialsOf, hl, getInt32Array, toInt32Array, attr]⟩

theorem addOrReplaceChild_find_ne (g c : Node) (m : Bytes) (hm : m ≠ c.name) :
    findChild (some (addOrReplaceChild g c).1) m = findChild (some g) m := by
  have hb : (c.name == m) = false := by simpa using fun e => hm e.symm
  have key : ∀ l l' : List Node, addOrReplaceChild.go c l = some l' →
      l'.find? (fun x => x.name == m) = l.find? (fun x => x.name == m) := by
    intro l
    induction l with
    | nil => intro l' h; simp [addOrReplaceChild.go] at h
    | cons x xs ih =>
      intro l' h
      simp only [addOrReplaceChild.go] at h
      split at h
      · rename_i hx
        simp only [Option.some.injEq] at h; subst h
        simp [List.find?_cons, hx, hb]
      · cases hg : addOrReplaceChild.go c xs with
        | none => simp [hg] at h
        | some r =>
          simp only [hg, Option.map_some, Option.some.injEq] at h
          subst h
          simp [List.find?_cons, ih r hg]
  unfold addOrReplaceChild
  split
  · rename_i l h
    exact key _ _ h
  · simp [findChild, List.find?_append, List.find?_cons, hb]

/-- C34 is false: setting UVs changes no UV of the geometry; it replaces the *normal* element. -/
theorem setLayerElementUVIndexed_stores_false (cv : Conv) (g g' : Node) (uv : List (Vec2 UInt32))
    (indices : List Nat) (mapping : Bytes)
    (h : setLayerElementUVIndexed g uv indices mapping = some g') :
    uvsOf cv g' = uvsOf cv g ∧ normalsOf cv g' = [] := by
  constructor
  · have : findChild (some g') b! "LayerElementUV" = findChild (some g) b! "LayerElementUV" := by
      unfold setLayerElementUVIndexed setLayerElementNode at h
      have hne := addOrReplaceChild_find_ne g (.leaf b! "LayerElementNormal" [.int 0])
        b! "LayerElementUV" (by simp [Node.leaf])
      split at h
      · rename_i heq
        simp only [Option.some.injEq] at h; subst h
        rw [heq] at hne; exact hne
      · rename_i heq
        rw [heq] at hne
        rw [updateChild_find _ _ _ _ _ h (by decide) (fun x => by cases x; rfl)]
        exact hne
    simp only [uvsOf, layerArray, this]
  · have := setLayerElementNode_find g g' _ _ _ h (by decide)
    have hl : layerArray g' b! "LayerElementNormal" b! "Normals" = none := by
      simp only [layerArray, this]; rfl
    simp [normalsOf, hl, getFloat32Array, toFloat32Array, attr, vec3s]

/-- The setters do return on every geometry made by `NewGeometry`, so the theorems above apply. -/
example (verts normals : List V3) (faces : List (List Int)) (name mapping : Bytes) :
    (setLayerElementNormal (newGeometry name verts faces) normals mapping).isSome := rfl

/-- C34, the part that holds: the element is registered in the geometry's `Layer`, exactly once
however often it is set, and the mesh itself is untouched. What is missing is that the values are
stored. -/
theorem setLayerElementNormal_partial (cv : Conv) (name mapping mapping' : Bytes) (verts : List V3)
    (faces : List (List Int)) (n n' : List V3) :
    ∃ g', setLayerElementNormal (newGeometry name verts faces) n mapping = some g' ∧
      setLayerElementNormal g' n' mapping' = some g' ∧
      (getChildren (findChild (some g') b! "Layer")).map
        (fun e => toStr (attr (findChild (some e) b! "Type") 0)) = [b! "LayerElementNormal"] ∧
      (geometryInit cv g').polygons = (geometryInit cv (newGeometry name verts faces)).polygons ∧
      (geometryInit cv g').vertices = (geometryInit cv (newGeometry name verts faces)).vertices :=
  ⟨_, rfl, rfl, rfl, rfl, rfl⟩

end Verif.Fbx
