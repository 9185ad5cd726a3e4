import Verif.Gltf.ImportDoc
import Verif.Gltf.ImportProps

/-! C171: objects and bones of an imported glTF document. -/

namespace Verif.Gltf

open Verif.Geom
open Verif.Mqo (Face)

variable {F : Type}

/-- The numbers of a list in the order in which they first appear. -/
def firsts : List Nat → List Nat → List Nat
  | _, [] => []
  | seen, s :: ss => if s ∈ seen then firsts seen ss else s :: firsts (s :: seen) ss

theorem firsts_spec (ss : List Nat) : ∀ seen, (firsts seen ss).Nodup ∧ ∀ s, s ∈ firsts seen ss ↔ s ∈ ss ∧ s ∉ seen := by
  induction ss with
  | nil => intro seen; simp [firsts]
  | cons a ss ih =>
    intro seen
    unfold firsts
    split
    · rename_i h
      refine ⟨(ih seen).1, fun s => ?_⟩
      rw [(ih seen).2 s, List.mem_cons]
      constructor
      · rintro ⟨h1, h2⟩; exact ⟨Or.inr h1, h2⟩
      · rintro ⟨rfl | h1, h2⟩
        · exact absurd h h2
        · exact ⟨h1, h2⟩
    · rename_i h
      refine ⟨List.nodup_cons.2 ⟨fun hm => ?_, (ih _).1⟩, fun s => ?_⟩
      · exact ((ih _).2 a |>.1 hm).2 (by simp)
      · rw [List.mem_cons, (ih _).2 s, List.mem_cons, List.mem_cons]
        constructor
        · rintro (rfl | ⟨h1, h2⟩)
          · exact ⟨Or.inl rfl, h⟩
          · exact ⟨Or.inr h1, fun h3 => h2 (Or.inr h3)⟩
        · rintro ⟨rfl | h1, h2⟩
          · exact Or.inl rfl
          · by_cases e : s = a
            · exact Or.inl e
            · exact Or.inr ⟨h1, fun h3 => h3.elim e h2⟩

theorem importObjects_spec (doc : GltfIn F) (ns : List (INode F)) : ∀ os, importObjects doc ns = some os →
    List.Forall₂ (fun (n : INode F) o => ∃ (i : Nat) (m : Mqo.Str × List (Prim F)), n.mesh = some i ∧ doc.meshes[i]? = some m ∧
      o.name = m.1 ∧ importMesh m.2 ([], []) = some (o.vertexes, o.faces)) (ns.filter fun n => n.mesh.isSome) os := by
  induction ns with
  | nil => intro os h; simp only [importObjects, Option.some.injEq] at h; subst h; exact .nil
  | cons n ns ih =>
    intro os h
    unfold importObjects at h
    cases h1 : importNode doc n with
    | none => simp [h1] at h
    | some o =>
      cases h2 : importObjects doc ns with
      | none => simp [h1, h2] at h
      | some os' =>
        simp only [h1, h2, Option.some.injEq] at h
        subst h
        unfold importNode at h1
        cases hm : n.mesh with
        | none =>
          simp only [hm, Option.some.injEq] at h1
          subst h1
          rw [List.filter_cons_of_neg (by simp [hm])]
          exact ih os' h2
        | some i =>
          simp only [hm] at h1
          cases hi : doc.meshes[i]? with
          | none => simp [hi] at h1
          | some m =>
            simp only [hi, Option.map_eq_some_iff] at h1
            obtain ⟨p, hp, rfl⟩ := h1
            rw [List.filter_cons_of_pos (by simp [hm])]
            exact .cons ⟨i, m, hm, hi, rfl, hp⟩ (ih os' h2)

theorem importSkins_grown [Add F] (nodes : List (BNode F)) (fuel : Nat) (ss : List (Option Nat)) :
    ∀ (seen : List Nat) (old r : List (IBone F)), importSkins nodes fuel seen ss old = some r →
    ∃ new, r = old ++ new.map (·.2) ∧ Grown nodes old 0 (firsts seen (ss.filterMap id)) new := by
  induction ss with
  | nil =>
    intro seen old r h
    simp only [importSkins, Option.some.injEq] at h
    subst h
    exact ⟨[], by simp, by simp, by simp, by simp, by simp [firsts]⟩
  | cons s ss ih =>
    intro seen old r h
    cases s with
    | none =>
      rw [importSkins] at h
      obtain ⟨new, h1, h2⟩ := ih seen old r h
      exact ⟨new, h1, by simpa using h2⟩
    | some s =>
      rw [importSkins] at h
      by_cases hs : s ∈ seen
      · rw [if_pos hs] at h
        obtain ⟨new, h1, h2⟩ := ih seen old r h
        refine ⟨new, h1, ?_⟩
        have : firsts seen (List.filterMap id (some s :: ss)) = firsts seen (ss.filterMap id) := by
          simp [firsts, hs]
        rw [this]
        exact h2
      · rw [if_neg hs] at h
        cases hb : importBones nodes fuel s 0 old with
        | none => simp [hb] at h
        | some b =>
          simp only [hb] at h
          obtain ⟨new1, e1, g1⟩ := importBones_grown nodes fuel s 0 old b (by simp) hb
          obtain ⟨new2, e2, g2⟩ := ih _ b r h
          rw [e1] at g2
          refine ⟨new1 ++ new2, by rw [e2, e1]; simp, ?_⟩
          have : firsts seen (List.filterMap id (some s :: ss)) = [s] ++ firsts (s :: seen) (ss.filterMap id) := by
            simp [firsts, hs]
          rw [this]
          exact Grown.append (by simp) g1 g2

/-- C171: an imported document has one object for every node with a mesh, in the order of the nodes, with the name, vertices
and faces of the mesh. -/
theorem import_objects [Add F] (fuel : Nat) (doc : GltfIn F) (os : List (IObject F)) (bs : List (IBone F))
    (h : importDocument fuel doc = some (os, bs)) :
    List.Forall₂ (fun (n : INode F) o => ∃ (i : Nat) (m : Mqo.Str × List (Prim F)), n.mesh = some i ∧ doc.meshes[i]? = some m ∧
      o.name = m.1 ∧ importMesh m.2 ([], []) = some (o.vertexes, o.faces)) (doc.nodes.filter fun n => n.mesh.isSome) os := by
  unfold importDocument at h
  cases h1 : importObjects doc doc.nodes with
  | none => simp [h1] at h
  | some os' =>
    cases h2 : importSkins doc.bnodes fuel [] doc.skins [] with
    | none => simp [h1, h2] at h
    | some bs' =>
      simp only [h1, h2, Option.some.injEq, Prod.mk.injEq] at h
      obtain ⟨rfl, rfl⟩ := h
      exact importObjects_spec doc doc.nodes _ h1

/-- C171: the bones are the trees below the skeletons of the skins, every skeleton once, however many skins share it. The
bones are numbered from 1, parents first; `node` gives the node of each bone, and the children of a bone are those of its node. -/
theorem import_bones_partial [Add F] (fuel : Nat) (doc : GltfIn F) (os : List (IObject F)) (bs : List (IBone F))
    (h : importDocument fuel doc = some (os, bs)) :
    ∃ node : List Nat, node.length = bs.length ∧
      (∃ roots : List Nat, ((node.zip bs).filter (fun y => y.2.parent = 0)).map (·.1) = roots ∧ roots.Nodup ∧
        ∀ s, s ∈ roots ↔ some s ∈ doc.skins) ∧
      (∀ (k : Nat) (b : IBone F), bs[k]? = some b → b.id = k + 1 ∧ b.parent < b.id) ∧
      ∀ x ∈ node.zip bs, ∃ n, doc.nodes[x.1]? = some n ∧ x.2.name = n.name ∧
        (x.2.parent = 0 → x.2.pos = n.translation) ∧
        (0 < x.2.parent → ∃ q, bs[x.2.parent - 1]? = some q ∧ q.id = x.2.parent ∧ x.2.pos = n.translation.add q.pos) ∧
        ((node.zip bs).filter (fun y => y.2.parent = x.2.id)).map (·.1) = n.children := by
  unfold importDocument at h
  cases h1 : importObjects doc doc.nodes with
  | none => simp [h1] at h
  | some os' =>
    cases h2 : importSkins doc.bnodes fuel [] doc.skins [] with
    | none => simp [h1, h2] at h
    | some bs' =>
      simp only [h1, h2, Option.some.injEq, Prod.mk.injEq] at h
      obtain ⟨rfl, rfl⟩ := h
      obtain ⟨new, h3, g⟩ := importSkins_grown doc.bnodes fuel doc.skins [] [] bs' h2
      simp only [List.nil_append] at h3
      have hz : (new.map (·.1)).zip bs' = new := by
        rw [h3, List.zip_map']
        simp
      have hid : ∀ (k : Nat) (b : IBone F), bs'[k]? = some b → b.id = k + 1 ∧ b.parent < b.id := by
        intro k b hb
        rw [h3, List.getElem?_map, Option.map_eq_some_iff] at hb
        obtain ⟨x, hx, rfl⟩ := hb
        have h4 := g.ids k x hx
        simp only [List.length_nil] at h4
        refine ⟨by omega, ?_⟩
        rcases g.parents x (List.mem_of_getElem? hx) with h | h
        · omega
        · exact h.2
      refine ⟨new.map (·.1), by simp [h3], ⟨_, by rw [hz]; exact g.roots, (firsts_spec _ _).1, fun s => ?_⟩, hid, ?_⟩
      · rw [(firsts_spec _ _).2 s]
        simp
      · intro x hx
        rw [hz] at hx ⊢
        obtain ⟨n, e1, e2, e3, e4, e5⟩ := g.names x hx
        rw [GltfIn.bnodes, List.getElem?_map, Option.map_eq_some_iff] at e1
        obtain ⟨n', e1, rfl⟩ := e1
        refine ⟨n', e1, e2, e3, ?_, e5⟩
        intro h0
        obtain ⟨q, hq, hqp⟩ := e4 h0
        simp only [List.nil_append, ← h3] at hq
        refine ⟨q, hq, ?_, hqp⟩
        have := (hid _ q hq).1
        omega

/-- The document with its nodes placed elsewhere. -/
def GltfIn.moved (doc : GltfIn F) (t : INode F → Vec3 F) (r : INode F → Vec4 F) : GltfIn F :=
  { doc with nodes := doc.nodes.map fun n => { n with translation := t n, rotation := r n } }

theorem importObjects_moved (doc doc' : GltfIn F) (t : INode F → Vec3 F) (r : INode F → Vec4 F) (hm : doc'.meshes = doc.meshes)
    (ns : List (INode F)) :
    importObjects doc' (ns.map fun n => { n with translation := t n, rotation := r n }) = importObjects doc ns := by
  induction ns with
  | nil => rfl
  | cons n ns ih =>
    rw [List.map_cons, importObjects, importObjects, ih]
    have : importNode doc' { n with translation := t n, rotation := r n } = importNode doc n := by
      unfold importNode
      rw [hm]
    rw [this]

/-- C171, false: where a node is placed does not matter for its object: moving or turning the nodes changes no object (so two
nodes with the same mesh give two objects at the same place). -/
theorem object_placement_false (doc : GltfIn F) (t : INode F → Vec3 F) (r : INode F → Vec4 F) :
    importObjects (doc.moved t r) (doc.moved t r).nodes = importObjects doc doc.nodes :=
  importObjects_moved doc (doc.moved t r) t r rfl doc.nodes

/-- C171, false: the rotations of joints do not matter for the positions of the bones. -/
theorem bone_rotation_false [Add F] (fuel : Nat) (doc : GltfIn F) (r : INode F → Vec4 F) :
    importSkins (doc.moved INode.translation r).bnodes fuel [] doc.skins [] = importSkins doc.bnodes fuel [] doc.skins [] := by
  have : (doc.moved INode.translation r).bnodes = doc.bnodes := by
    unfold GltfIn.bnodes GltfIn.moved
    simp only [List.map_map]
    rfl
  rw [this]

/-- C171, false: a document whose skins do not name a skeleton, which glTF allows, has no bones, whatever its joints. -/
theorem no_skeleton_false [Add F] (fuel : Nat) (doc : GltfIn F) (os : List (IObject F)) (bs : List (IBone F))
    (hs : ∀ s ∈ doc.skins, s = none) (h : importDocument fuel doc = some (os, bs)) : bs = [] := by
  obtain ⟨node, h1, ⟨roots, h2, -, h3⟩, h4, -⟩ := import_bones_partial fuel doc os bs h
  have hr : roots = [] := by
    rw [List.eq_nil_iff_forall_not_mem]
    intro s hm
    exact absurd (hs _ ((h3 s).1 hm)) (by simp)
  cases bs with
  | nil => rfl
  | cons b bs =>
    exfalso
    cases node with
    | nil => simp at h1
    | cons k node =>
      have hb := h4 0 b rfl
      have : b.parent = 0 := by omega
      rw [hr, List.zip_cons_cons, List.filter_cons_of_pos (by simpa using this)] at h2
      simp at h2

/-- Two skins; the skeleton of the second is a joint of the first. -/
def nestedDoc : GltfIn Int where
  nodes := [⟨"hip".toList, none, ⟨0, 1, 0⟩, ⟨0, 0, 0, 1⟩, [1]⟩, ⟨"head".toList, none, ⟨0, 2, 0⟩, ⟨0, 0, 0, 1⟩, []⟩]
  meshes := []
  skins := [some 0, some 1]

/-- C171, false: when the skeleton of one skin is a joint of another, its bones are there twice, and the second time at
another place. -/
theorem nested_skeleton_false : (importDocument 5 nestedDoc).map (fun r => r.2.map fun b => (b.id, b.name, b.pos, b.parent)) =
    some [(1, "hip".toList, ⟨0, 1, 0⟩, 0), (2, "head".toList, ⟨0, 3, 0⟩, 1), (3, "head".toList, ⟨0, 2, 0⟩, 0)] := by
  simp [importDocument, importObjects, importNode, importSkins, importBones, importChildren, nestedDoc, GltfIn.bnodes, Vec3.add]

/-- Two nodes with one mesh, at different places, and two skins with the same skeleton. -/
def importSample : GltfIn Int where
  nodes := [⟨"a".toList, some 0, ⟨5, 0, 0⟩, ⟨0, 0, 0, 1⟩, []⟩, ⟨"b".toList, some 0, ⟨9, 0, 0⟩, ⟨0, 0, 0, 1⟩, []⟩,
    ⟨"hip".toList, none, ⟨0, 1, 0⟩, ⟨0, 0, 0, 1⟩, [3]⟩, ⟨"head".toList, none, ⟨0, 2, 0⟩, ⟨0, 0, 0, 1⟩, []⟩]
  meshes := [("m".toList, [⟨some [0, 1, 2], some [⟨0, 0, 0⟩, ⟨1, 0, 0⟩, ⟨0, 1, 0⟩], none, some 1⟩])]
  skins := [some 2, none, some 2]

/-- Hypotheses of `import_objects` and `import_bones_partial`; both objects are at the same place. -/
example : (importDocument 5 importSample).map (fun r => (r.1.map fun o => (o.name, o.vertexes, o.faces.map fun f => f.verts),
      r.2.map fun b => (b.id, b.name, b.pos, b.parent))) =
    some ([("m".toList, [⟨0, 0, 0⟩, ⟨1, 0, 0⟩, ⟨0, 1, 0⟩], [[0, 2, 1]]), ("m".toList, [⟨0, 0, 0⟩, ⟨1, 0, 0⟩, ⟨0, 1, 0⟩], [[0, 2, 1]])],
      [(1, "hip".toList, ⟨0, 1, 0⟩, 0), (2, "head".toList, ⟨0, 3, 0⟩, 1)]) := by
  simp [importDocument, importObjects, importNode, importSkins, importBones, importChildren, importSample, GltfIn.bnodes,
    Vec3.add, importMesh, importPrim, importFaces, importFace]

/-- Hypotheses of `no_skeleton_false`: a skin without a skeleton. -/
example : (importDocument 5 { importSample with skins := [none] }).map (fun r => r.2.map IBone.id) = some [] ∧
    ∀ s ∈ ({ importSample with skins := [none] } : GltfIn Int).skins, s = none := by
  simp [importDocument, importObjects, importNode, importSkins, importSample, importMesh, importPrim, importFaces,
    importFace]

end Verif.Gltf
