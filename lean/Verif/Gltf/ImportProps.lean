import Verif.Gltf.Import
import Verif.Conv.GltfMeshProps

/-!
C45: importing glTF meshes; C87: what the exporter writes comes back; C88: bones of glTF nodes
(converter/gltf2mqo.go).
-/

namespace Verif.Gltf

open Verif.Geom
open Verif.Mqo (Face)

variable {F : Type}

/-! ### Meshes -/

/-- A primitive with triangles over its own vertices, and UVs for all vertices or none. -/
structure Prim.Ok (p : Prim F) (is : List Nat) (vs : List (Vec3 F)) : Prop where
  indices : p.indices = some is
  pos : p.pos = some vs
  triangles : 3 ∣ is.length
  range : ∀ i ∈ is, i < vs.length
  uv : p.uv = none ∨ ∃ uv, p.uv = some uv ∧ uv.length = vs.length

/-- The triples of a list of indices. -/
def triples : List Nat → List (Nat × Nat × Nat)
  | a :: b :: c :: rest => (a, b, c) :: triples rest
  | _ => []

/-- `f` is the triangle `t` of primitive `p`: same vertices in opposite order, and their UVs. -/
structure FaceOf (p : Prim F) (t : Nat × Nat × Nat) (f : Face F) : Prop where
  verts : f.verts = [t.1, t.2.2, t.2.1]
  material : f.material = p.material.getD 0
  uvs : (p.uv = none ∧ f.uvs = []) ∨ ∃ uv a b c, p.uv = some uv ∧ uv[t.1]? = some a ∧ uv[t.2.1]? = some b ∧
    uv[t.2.2]? = some c ∧ f.uvs = [a, c, b]

theorem importFaces_spec (p : Prim F) (pos : List (Vec3 F)) (huv : p.uv = none ∨ ∃ uv, p.uv = some uv ∧ uv.length = pos.length) :
    ∀ is : List Nat, (∀ i ∈ is, i < pos.length) →
      ∃ fs, importFaces (p.material.getD 0) (p.uv.getD []) is = some fs ∧ List.Forall₂ (FaceOf p) (triples is) fs
  | [], _ => ⟨[], rfl, .nil⟩
  | [a], _ => ⟨[], rfl, .nil⟩
  | [a, b], _ => ⟨[], rfl, .nil⟩
  | a :: b :: c :: rest, h => by
    obtain ⟨fs, h1, h2⟩ := importFaces_spec p pos huv rest (fun i hi => h i (by simp [hi]))
    have ha := h a (by simp)
    have hb := h b (by simp)
    have hc := h c (by simp)
    rcases huv with hn | ⟨uv, hu, hl⟩
    · rw [hn] at h1 ⊢
      refine ⟨⟨0, [a, c, b], p.material.getD 0, [], []⟩ :: fs, ?_, .cons ⟨rfl, rfl, .inl ⟨hn, rfl⟩⟩ h2⟩
      rw [importFaces, importFace, if_neg (by simp), h1]
      rfl
    · rw [hu] at h1 ⊢
      have e1 : uv[a]? = some uv[a] := List.getElem?_eq_getElem (by omega)
      have e2 : uv[b]? = some uv[b] := List.getElem?_eq_getElem (by omega)
      have e3 : uv[c]? = some uv[c] := List.getElem?_eq_getElem (by omega)
      refine ⟨⟨0, [a, c, b], p.material.getD 0, [uv[a], uv[c], uv[b]], []⟩ :: fs, ?_,
        .cons ⟨rfl, rfl, .inr ⟨uv, _, _, _, hu, e1, e2, e3, rfl⟩⟩ h2⟩
      rw [importFaces, importFace, if_pos (by simpa using (by omega : a < uv.length)), h1]
      simp [e1, e2, e3]

/-- C45: all vertices of all primitives are imported in order, and each triangle of each primitive becomes
a face with the numbers of its corners. The numbers are valid, but they are those of the primitive. -/
theorem importMesh_spec (ps : List (Prim F × List Nat × List (Vec3 F))) : ∀ o : List (Vec3 F) × List (Face F),
    (∀ x ∈ ps, x.1.Ok x.2.1 x.2.2) →
    ∃ fss, importMesh (ps.map (·.1)) o = some (o.1 ++ ps.flatMap (·.2.2), o.2 ++ fss.flatten) ∧
      List.Forall₂ (fun x fs => List.Forall₂ (FaceOf x.1) (triples x.2.1) fs) ps fss := by
  induction ps with
  | nil => intro o _; exact ⟨[], by simp [importMesh], .nil⟩
  | cons x ps ih =>
    intro o h
    have hx := h x (by simp)
    obtain ⟨fs, e1, h1⟩ := importFaces_spec x.1 x.2.2 hx.uv x.2.1 hx.range
    obtain ⟨fss, e2, h2⟩ := ih (o.1 ++ x.1.pos.getD [], o.2 ++ fs) (fun y hy => h y (by simp [hy]))
    refine ⟨fs :: fss, ?_, .cons h1 h2⟩
    rw [List.map_cons, importMesh, importPrim, hx.indices]
    simp only [e1, Option.bind_eq_bind, Option.bind_some]
    rw [e2, hx.pos]
    simp

/-- The positions of the corners of a face. -/
def facePoints (vs : List (Vec3 F)) (f : Face F) : List (Option (Vec3 F)) := f.verts.map (vs[·]?)

/-- C45, part: the faces of a primitive are at the right place if the imported vertices start with the
vertices of the primitive. That is so for the first primitive, and for all if they share their vertices.
Missing: other primitives, see `importMesh_false`. -/
theorem importMesh_partial (ps : List (Prim F × List Nat × List (Vec3 F))) (h : ∀ x ∈ ps, x.1.Ok x.2.1 x.2.2)
    (k : Nat) (x : Prim F × List Nat × List (Vec3 F)) (hk : ps[k]? = some x)
    (hp : x.2.2 <+: ps.flatMap (·.2.2)) :
    ∃ (vs : List (Vec3 F)) (fss : List (List (Face F))) (fs : List (Face F)), importMesh (ps.map (·.1)) ([], []) = some (vs, fss.flatten) ∧ fss[k]? = some fs ∧
      List.Forall₂ (fun t f => facePoints vs f = [x.2.2[t.1]?, x.2.2[t.2.2]?, x.2.2[t.2.1]?] ∧
        ∀ q ∈ facePoints vs f, q ≠ none) (triples x.2.1) fs := by
  obtain ⟨fss, e, h2⟩ := importMesh_spec ps ([], []) h
  simp only [List.nil_append] at e
  have hkl : k < ps.length := (List.getElem?_eq_some_iff.mp hk).1
  have hkf : k < fss.length := by rw [← h2.length_eq]; exact hkl
  have hrel := (List.forall₂_iff_get.mp h2).2 k hkl hkf
  have hx : ps.get ⟨k, hkl⟩ = x := by
    have := (List.getElem?_eq_some_iff.mp hk).2
    simpa using this
  rw [hx] at hrel
  refine ⟨_, fss, fss.get ⟨k, hkf⟩, e, by simp, ?_⟩
  obtain ⟨rest, hrest⟩ := hp
  have hget : ∀ i, i < x.2.2.length → (ps.flatMap (·.2.2))[i]? = x.2.2[i]? := by
    intro i hi
    rw [← hrest, List.getElem?_append_left hi]
  have hran : ∀ is : List Nat, (∀ i ∈ is, i < x.2.2.length) → ∀ t ∈ triples is,
      t.1 < x.2.2.length ∧ t.2.1 < x.2.2.length ∧ t.2.2 < x.2.2.length := by
    intro is
    induction is using triples.induct with
    | case1 a b c rest ih =>
      intro hi t ht
      rw [triples, List.mem_cons] at ht
      rcases ht with rfl | ht
      · exact ⟨hi _ (by simp), hi _ (by simp), hi _ (by simp)⟩
      · exact ih (fun i h => hi i (by simp [h])) t ht
    | case2 is hn =>
      intro _ t ht
      rw [triples] at ht
      · simp at ht
      · exact hn
  have hr := hran x.2.1 (h x (List.mem_of_getElem? hk)).range
  generalize triples x.2.1 = ts at hrel hr
  generalize fss.get ⟨k, hkf⟩ = fs at hrel
  induction hrel with
  | nil => exact .nil
  | cons hf _ ih =>
    refine .cons ?_ (ih fun t ht => hr t (by simp [ht]))
    obtain ⟨r1, r2, r3⟩ := hr _ (List.mem_cons_self ..)
    constructor
    · simp only [facePoints, hf.verts, List.map_cons, List.map_nil, hget _ r1, hget _ r2, hget _ r3]
    · simp only [facePoints, hf.verts, List.map_cons, List.map_nil, hget _ r1, hget _ r2, hget _ r3,
        List.getElem?_eq_getElem r1, List.getElem?_eq_getElem r2, List.getElem?_eq_getElem r3]
      simp

/-- C45 is false of the code: whatever the first primitive is, the corners of the second one are taken
from the vertices of the first one, as long as it has enough of them. -/
theorem importMesh_false (p q : Prim F) (is js : List Nat) (ps qs : List (Vec3 F)) (hp : p.Ok is ps)
    (hq : q.Ok js qs) (hl : qs.length ≤ ps.length) :
    ∃ vs fs gs, importMesh [p, q] ([], []) = some (vs, fs ++ gs) ∧
      List.Forall₂ (fun t f => facePoints vs f = [ps[t.1]?, ps[t.2.2]?, ps[t.2.1]?]) (triples js) gs := by
  have hr : ∀ is : List Nat, (∀ i ∈ is, i < qs.length) → ∀ t ∈ triples is,
      t.1 < ps.length ∧ t.2.1 < ps.length ∧ t.2.2 < ps.length := by
    intro is
    induction is using triples.induct with
    | case1 a b c rest ih =>
      intro hi t ht
      rw [triples, List.mem_cons] at ht
      rcases ht with rfl | ht
      · exact ⟨(hi _ (by simp)).trans_le hl, (hi _ (by simp)).trans_le hl, (hi _ (by simp)).trans_le hl⟩
      · exact ih (fun i h => hi i (by simp [h])) t ht
    | case2 is hn =>
      intro _ t ht
      rw [triples] at ht
      · simp at ht
      · exact hn
  have hr := hr js hq.range
  obtain ⟨fss, e, h2⟩ := importMesh_spec [(p, is, ps), (q, js, qs)] ([], []) (by
    intro x hx
    simp only [List.mem_cons, List.not_mem_nil, or_false] at hx
    rcases hx with rfl | rfl
    · exact hp
    · exact hq)
  cases h2 with
  | cons h1 h2 =>
    cases h2 with
    | cons h2 h3 =>
      cases h3
      rename_i fs gs
      refine ⟨ps ++ qs, fs, gs, by simpa using e, ?_⟩
      clear e
      have hget : ∀ i, i < ps.length → (ps ++ qs)[i]? = ps[i]? := fun i hi => List.getElem?_append_left hi
      simp only at h2
      generalize triples js = ts at h2 hr
      induction h2 with
      | nil => exact .nil
      | cons hf _ ih =>
        refine .cons ?_ (ih fun t ht => hr t (by simp [ht]))
        obtain ⟨r1, r2, r3⟩ := hr _ (List.mem_cons_self ..)
        simp only [facePoints, hf.verts, List.map_cons, List.map_nil, hget _ r1, hget _ r2, hget _ r3]

/-- Two triangles in two primitives: both faces are at the place of the first one. -/
example : importMesh (F := Int)
    [⟨some [0, 1, 2], some [⟨0, 0, 0⟩, ⟨1, 0, 0⟩, ⟨0, 1, 0⟩], none, none⟩,
     ⟨some [0, 1, 2], some [⟨5, 5, 5⟩, ⟨6, 5, 5⟩, ⟨5, 6, 5⟩], none, some 1⟩] ([], []) =
    some ([⟨0, 0, 0⟩, ⟨1, 0, 0⟩, ⟨0, 1, 0⟩, ⟨5, 5, 5⟩, ⟨6, 5, 5⟩, ⟨5, 6, 5⟩],
      [⟨0, [0, 2, 1], 0, [], []⟩, ⟨0, [0, 2, 1], 1, [], []⟩]) := by decide

example : Prim.Ok (F := Int) ⟨some [0, 1, 2], some [⟨0, 0, 0⟩, ⟨1, 0, 0⟩, ⟨0, 1, 0⟩],
    some [⟨0, 0⟩, ⟨1, 0⟩, ⟨0, 1⟩], none⟩ [0, 1, 2] [⟨0, 0, 0⟩, ⟨1, 0, 0⟩, ⟨0, 1, 0⟩] :=
  ⟨rfl, rfl, by decide, by decide, .inr ⟨_, rfl, rfl⟩⟩

/-! ### Export and import -/

/-- The primitives of an exported mesh, converter/mqo2gltf.go:664-683, 722-731: all share the same
attributes. (Objects that share geometry with others are not modelled.) -/
def exportPrims (m : Conv.GMesh F) : List (Prim F) :=
  m.prims.map fun p => ⟨some p.2, some m.pos, if m.useUV then some m.uv else none, some p.1⟩

theorem triples_reversed (ts : List (Nat × Nat × Nat)) :
    triples (ts.flatMap fun t => [t.2.2, t.2.1, t.1]) = ts.map fun t => (t.2.2, t.2.1, t.1) := by
  induction ts with
  | nil => rfl
  | cons t ts ih => simp [triples, ih]

/-- C87: importing an exported mesh gives, per material, the triangles of the object with their scaled
positions and the same orientation (the first corner becomes the second). -/
theorem export_import [Add F] [Sub F] [Mul F] [FloatOps F] (scale eps : F) (hasJoints : Bool)
    (skin : List (Conv.VSkin F)) (materials : List (Int × Nat)) (o : Mqo.Object F) (m : Conv.GMesh F)
    (hm : Conv.IsMeshOf scale eps hasJoints skin materials o m) :
    ∃ (vs : List (Vec3 F)) (fss : List (List (Face F))),
      importMesh (exportPrims m) ([], []) = some (vs, fss.flatten) ∧
      List.Forall₂ (fun p fs => List.Forall₂ (fun f g => g.material = p.1 ∧
          ∃ a b c pa pb pc, f.verts = [a, b, c] ∧
            o.vertexes[a]? = some pa ∧ o.vertexes[b]? = some pb ∧ o.vertexes[c]? = some pc ∧
            facePoints vs g = [some (pc.scale scale), some (pa.scale scale), some (pb.scale scale)])
        (o.faces.filter fun f => materials.lookup f.material = some p.1) fs) m.prims fss := by
  let ps : List (Prim F × List Nat × List (Vec3 F)) := m.prims.map fun p =>
    (⟨some p.2, some m.pos, if m.useUV then some m.uv else none, some p.1⟩, p.2, m.pos)
  have hps : ps.map (·.1) = exportPrims m := by simp [ps, exportPrims, Function.comp_def]
  have hidx : ∀ p ∈ m.prims, ∃ ts : List (Nat × Nat × Nat), p.2 = ts.flatMap (fun t => [t.2.2, t.2.1, t.1]) ∧
      List.Forall₂ (fun (f : Face F) t => ∃ a b c, f.verts = [a, b, c] ∧ m.src[t.1]? = some a ∧
        m.src[t.2.1]? = some b ∧ m.src[t.2.2]? = some c)
        (o.faces.filter fun f => materials.lookup f.material = some p.1) ts := by
    intro p hp
    obtain ⟨ts, h1, h2⟩ := hm.triangles p.1
    rw [Conv.lookup_of_mem_nodup _ hm.materialsOnce p hp] at h1
    exact ⟨ts, by simpa using h1, h2.imp fun f t h => h.1⟩
  have hok : ∀ x ∈ ps, x.1.Ok x.2.1 x.2.2 := by
    intro x hx
    obtain ⟨p, hp, rfl⟩ := List.mem_map.mp hx
    obtain ⟨ts, ht, _⟩ := hidx p hp
    refine ⟨rfl, rfl, ?_, hm.range p hp, ?_⟩
    · simp only [ht, List.length_flatMap, List.length_cons, List.length_nil]
      exact ⟨ts.length, by simp [Nat.mul_comm]⟩
    · simp only
      split
      · exact .inr ⟨_, rfl, hm.lengths.2.1⟩
      · exact .inl rfl
  obtain ⟨fss, e, h2⟩ := importMesh_spec ps ([], []) hok
  rw [hps] at e
  simp only [List.nil_append] at e
  refine ⟨_, fss, e, ?_⟩
  -- the imported vertices start with those of the mesh
  have hget : ∀ p ∈ m.prims, ∀ (i : Nat) (q : Vec3 F), m.pos[i]? = some q → (ps.flatMap (·.2.2))[i]? = some q := by
    intro p hp i q hq
    have : ps ≠ [] := by
      intro h0
      simp only [ps, List.map_eq_nil_iff] at h0
      rw [h0] at hp
      simp at hp
    obtain ⟨x, xs, hxs⟩ := List.exists_cons_of_ne_nil this
    have hx : x.2.2 = m.pos := by
      have : x ∈ ps := by rw [hxs]; simp
      obtain ⟨p', _, rfl⟩ := List.mem_map.mp this
      rfl
    rw [hxs, List.flatMap_cons, hx, List.getElem?_append_left (List.getElem?_eq_some_iff.mp hq).1]
    exact hq
  generalize ps.flatMap (·.2.2) = vs at hget
  clear e hok hps
  have hmem : ∀ p ∈ m.prims, p ∈ m.prims := fun _ h => h
  revert h2
  simp only [ps]
  clear ps
  have key : ∀ (prims : List (Nat × List Nat)) (fss : List (List (Face F))), (∀ p ∈ prims, p ∈ m.prims) →
      List.Forall₂ (fun (x : Prim F × List Nat × List (Vec3 F)) fs => List.Forall₂ (FaceOf x.1) (triples x.2.1) fs)
        (prims.map fun p =>
          ((⟨some p.2, some m.pos, if m.useUV then some m.uv else none, some p.1⟩, p.2, m.pos) :
            Prim F × List Nat × List (Vec3 F))) fss →
      List.Forall₂ (fun p fs => List.Forall₂ (fun f g => g.material = p.1 ∧
          ∃ a b c pa pb pc, f.verts = [a, b, c] ∧
            o.vertexes[a]? = some pa ∧ o.vertexes[b]? = some pb ∧ o.vertexes[c]? = some pc ∧
            facePoints vs g = [some (pc.scale scale), some (pa.scale scale), some (pb.scale scale)])
        (o.faces.filter fun f => materials.lookup f.material = some p.1) fs) prims fss := by
    intro prims
    induction prims with
    | nil => intro fss _ h; cases h; exact .nil
    | cons p prims ih =>
      intro fss hin h
      rw [List.map_cons] at h
      cases h with
      | cons h1 h2 =>
        refine .cons ?_ (ih _ (fun q hq => hin q (by simp [hq])) h2)
        have hp := hin p (by simp)
        obtain ⟨ts, ht, hrel⟩ := hidx p hp
        simp only at h1
        have ht2 : triples p.2 = ts.map fun t => (t.2.2, t.2.1, t.1) := by rw [ht, triples_reversed]
        rw [ht2] at h1
        rename_i fs _
        clear h2 ht ht2
        generalize (o.faces.filter fun f => materials.lookup f.material = some p.1) = faces at hrel
        induction hrel generalizing fs with
        | nil => cases h1; exact .nil
        | cons hx _ ih2 =>
          rw [List.map_cons] at h1
          cases h1 with
          | cons hg hgs =>
            refine .cons ⟨?_, ?_⟩ (ih2 hgs)
            · simpa using hg.material
            · obtain ⟨a, b, c, hv, s1, s2, s3⟩ := hx
              obtain ⟨pa, a1, a2, _⟩ := hm.stems _ _ s1
              obtain ⟨pb, b1, b2, _⟩ := hm.stems _ _ s2
              obtain ⟨pc, c1, c2, _⟩ := hm.stems _ _ s3
              refine ⟨a, b, c, pa, pb, pc, hv, a1, b1, c1, ?_⟩
              simp only [facePoints, hg.verts, List.map_cons, List.map_nil, hget p hp _ _ a2,
                hget p hp _ _ b2, hget p hp _ _ c2]
  intro h2
  exact key m.prims fss (fun _ h => h) h2

/-! ### Bones -/

/-- What a run of the recursion adds: `x.1` is the node of the bone `x.2`. `old` are the bones before. -/
structure Grown [Add F] (nodes : List (BNode F)) (old : List (IBone F)) (parent : Nat) (roots : List Nat)
    (new : List (Nat × IBone F)) : Prop where
  ids : ∀ (k : Nat) (x : Nat × IBone F), new[k]? = some x → x.2.id = old.length + k + 1
  names : ∀ x ∈ new, ∃ n, nodes[x.1]? = some n ∧ x.2.name = n.name ∧
    (x.2.parent = 0 → x.2.pos = n.translation) ∧
    (0 < x.2.parent → ∃ q, (old ++ new.map (·.2))[x.2.parent - 1]? = some q ∧ x.2.pos = n.translation.add q.pos) ∧
    (new.filter (fun y => y.2.parent = x.2.id)).map (·.1) = n.children
  parents : ∀ x ∈ new, x.2.parent = parent ∨ old.length < x.2.parent ∧ x.2.parent < x.2.id
  roots : (new.filter (fun y => y.2.parent = parent)).map (·.1) = roots

theorem Grown.append [Add F] {nodes : List (BNode F)} {old : List (IBone F)} {parent : Nat} {r1 r2 : List Nat}
    {new1 new2 : List (Nat × IBone F)} (hp : parent ≤ old.length) (h1 : Grown nodes old parent r1 new1)
    (h2 : Grown nodes (old ++ new1.map (·.2)) parent r2 new2) :
    Grown nodes old parent (r1 ++ r2) (new1 ++ new2) := by
  have hl : (old ++ new1.map (·.2)).length = old.length + new1.length := by simp
  have hid1 : ∀ x ∈ new1, old.length < x.2.id ∧ x.2.id ≤ old.length + new1.length := by
    intro x hx
    obtain ⟨k, hk⟩ := List.mem_iff_getElem?.mp hx
    have := h1.ids k x hk
    have hkl := (List.getElem?_eq_some_iff.mp hk).1
    omega
  refine ⟨?_, ?_, ?_, ?_⟩
  · intro k x hx
    by_cases hk : k < new1.length
    · rw [List.getElem?_append_left hk] at hx
      exact h1.ids k x hx
    · rw [List.getElem?_append_right (by omega)] at hx
      have := h2.ids _ x hx
      rw [hl] at this
      omega
  · intro x hx
    rw [List.mem_append] at hx
    rcases hx with hx | hx
    · obtain ⟨n, e1, e2, e3, e4, e5⟩ := h1.names x hx
      refine ⟨n, e1, e2, e3, ?_, ?_⟩
      · intro h
        obtain ⟨q, hq, hqp⟩ := e4 h
        refine ⟨q, ?_, hqp⟩
        rw [List.map_append, ← List.append_assoc, List.getElem?_append_left (List.getElem?_eq_some_iff.mp hq).1]
        exact hq
      · rw [List.filter_append, List.map_append, e5]
        have : new2.filter (fun y => y.2.parent = x.2.id) = [] := by
          rw [List.filter_eq_nil_iff]
          intro y hy
          have := hid1 x hx
          rcases h2.parents y hy with h | h
          · simp; omega
          · rw [hl] at h; simp; omega
        rw [this]
        simp
    · obtain ⟨n, e1, e2, e3, e4, e5⟩ := h2.names x hx
      refine ⟨n, e1, e2, e3, ?_, ?_⟩
      · intro h
        obtain ⟨q, hq, hqp⟩ := e4 h
        exact ⟨q, by rw [List.map_append, ← List.append_assoc]; exact hq, hqp⟩
      · rw [List.filter_append, List.map_append, e5]
        have : new1.filter (fun y => y.2.parent = x.2.id) = [] := by
          rw [List.filter_eq_nil_iff]
          intro y hy
          have hy1 := hid1 y hy
          obtain ⟨k, hk⟩ := List.mem_iff_getElem?.mp hx
          have hx1 := h2.ids k x hk
          rw [hl] at hx1
          rcases h1.parents y hy with h | h
          · simp; omega
          · simp; omega
        rw [this]
        simp
  · intro x hx
    rw [List.mem_append] at hx
    rcases hx with hx | hx
    · exact h1.parents x hx
    · rcases h2.parents x hx with h | h
      · exact .inl h
      · rw [hl] at h
        exact .inr ⟨by omega, h.2⟩
  · rw [List.filter_append, List.map_append, h1.roots, h2.roots]

/-- The bone of a node, before the bones of its children. -/
theorem Grown.cons [Add F] {nodes : List (BNode F)} {old : List (IBone F)} {parent node : Nat} {n : BNode F}
    (hn : nodes[node]? = some n) (hp : parent ≤ old.length) (pos : Vec3 F)
    (hpos : (parent = 0 → pos = n.translation) ∧
      (0 < parent → ∃ q, old[parent - 1]? = some q ∧ pos = n.translation.add q.pos))
    {new : List (Nat × IBone F)}
    (h : Grown nodes (old ++ [⟨old.length + 1, n.name, pos, parent⟩]) (old.length + 1) n.children new) :
    Grown nodes old parent [node] ((node, ⟨old.length + 1, n.name, pos, parent⟩) :: new) := by
  have hl : (old ++ [(⟨old.length + 1, n.name, pos, parent⟩ : IBone F)]).length = old.length + 1 := by simp
  have hpar : ∀ x ∈ new, old.length < x.2.parent ∧ x.2.parent < x.2.id := by
    intro x hx
    obtain ⟨k, hk⟩ := List.mem_iff_getElem?.mp hx
    have hx1 := h.ids k x hk
    rw [hl] at hx1
    rcases h.parents x hx with h | h
    · omega
    · rw [hl] at h; omega
  refine ⟨?_, ?_, ?_, ?_⟩
  · intro k x hx
    cases k with
    | zero =>
      simp only [List.getElem?_cons_zero, Option.some.injEq] at hx
      subst hx
      rfl
    | succ k =>
      have := h.ids k x (by simpa using hx)
      rw [hl] at this
      omega
  · intro x hx
    rcases List.mem_cons.mp hx with rfl | hx
    · refine ⟨n, hn, rfl, hpos.1, ?_, ?_⟩
      · intro h0
        obtain ⟨q, hq, hqp⟩ := hpos.2 h0
        exact ⟨q, by rw [List.getElem?_append_left (List.getElem?_eq_some_iff.mp hq).1]; exact hq, hqp⟩
      · rw [List.filter_cons_of_neg (by simp; omega)]
        exact h.roots
    · obtain ⟨n', e1, e2, e3, e4, e5⟩ := h.names x hx
      refine ⟨n', e1, e2, e3, ?_, ?_⟩
      · intro h0
        obtain ⟨q, hq, hqp⟩ := e4 h0
        refine ⟨q, ?_, hqp⟩
        rw [List.map_cons]
        simpa using hq
      · have := hpar x hx
        rw [List.filter_cons_of_neg (by simp; omega)]
        exact e5
  · intro x hx
    rcases List.mem_cons.mp hx with rfl | hx
    · exact .inl rfl
    · exact .inr (hpar x hx)
  · rw [List.filter_cons_of_pos (by simp)]
    have : new.filter (fun y => y.2.parent = parent) = [] := by
      rw [List.filter_eq_nil_iff]
      intro y hy
      have := hpar y hy
      simp
      omega
    rw [this]
    simp

mutual
theorem importBones_grown [Add F] (nodes : List (BNode F)) : ∀ (fuel node parent : Nat) (old r : List (IBone F)),
    parent ≤ old.length → importBones nodes fuel node parent old = some r →
    ∃ new, r = old ++ new.map (·.2) ∧ Grown nodes old parent [node] new
  | 0, _, _, _, _, _, e => by simp [importBones] at e
  | fuel + 1, node, parent, old, r, hp, e => by
    rw [importBones] at e
    split at e
    · simp at e
    · rename_i n hn
      split at e
      · rename_i h0
        split at e
        · simp at e
        · rename_i q hq
          obtain ⟨new, h1, h2⟩ := importChildren_grown nodes fuel n.children (old.length + 1) _ r (by simp) e
          exact ⟨(node, ⟨old.length + 1, n.name, n.translation.add q.pos, parent⟩) :: new, by simp [h1],
            Grown.cons hn hp _ ⟨fun h => by omega, fun _ => ⟨q, hq, rfl⟩⟩ h2⟩
      · rename_i h0
        obtain ⟨new, h1, h2⟩ := importChildren_grown nodes fuel n.children (old.length + 1) _ r (by simp) e
        exact ⟨(node, ⟨old.length + 1, n.name, n.translation, parent⟩) :: new, by simp [h1],
          Grown.cons hn hp _ ⟨fun _ => rfl, fun h => by omega⟩ h2⟩
theorem importChildren_grown [Add F] (nodes : List (BNode F)) : ∀ (fuel : Nat) (cs : List Nat) (parent : Nat)
    (old r : List (IBone F)), parent ≤ old.length → importChildren nodes fuel cs parent old = some r →
    ∃ new, r = old ++ new.map (·.2) ∧ Grown nodes old parent cs new
  | _, [], parent, old, r, _, e => by
    rw [importChildren] at e
    have := Option.some.inj e
    subst this
    exact ⟨[], by simp, by simp, by simp, by simp, by simp⟩
  | fuel, c :: cs, parent, old, r, hp, e => by
    rw [importChildren] at e
    split at e
    · simp at e
    · rename_i r1 he
      obtain ⟨new1, h1, g1⟩ := importBones_grown nodes fuel c parent old r1 hp he
      subst h1
      obtain ⟨new2, h2, g2⟩ := importChildren_grown nodes fuel cs parent _ r (by simp; omega) e
      exact ⟨new1 ++ new2, by simp [h2], Grown.append hp g1 g2⟩
end

/-- C88: the bones made from the nodes below a skeleton node: numbered from 1 in order, parents first; each
bone is at its node's translation plus the position of its parent; the children of each bone are, in order,
the children of its node. -/
theorem importBones_spec [Add F] (nodes : List (BNode F)) (fuel root : Nat) (r : List (IBone F))
    (e : importBones nodes fuel root 0 [] = some r) :
    ∃ node : List Nat, node.length = r.length ∧
      (((node.zip r).filter (fun y => y.2.parent = 0)).map (·.1) = [root]) ∧
      (∀ (k : Nat) (b : IBone F), r[k]? = some b → b.id = k + 1 ∧ b.parent < b.id) ∧
      ∀ x ∈ node.zip r, ∃ n, nodes[x.1]? = some n ∧ x.2.name = n.name ∧
        (x.2.parent = 0 → x.2.pos = n.translation) ∧
        (0 < x.2.parent → ∃ q, r[x.2.parent - 1]? = some q ∧ q.id = x.2.parent ∧ x.2.pos = n.translation.add q.pos) ∧
        ((node.zip r).filter (fun y => y.2.parent = x.2.id)).map (·.1) = n.children := by
  obtain ⟨new, h1, h2⟩ := importBones_grown nodes fuel root 0 [] r (by simp) e
  simp only [List.nil_append] at h1
  have hz : (new.map (·.1)).zip r = new := by
    rw [h1, List.zip_map']
    simp
  have hid : ∀ (k : Nat) (b : IBone F), r[k]? = some b → b.id = k + 1 ∧ b.parent < b.id := by
    intro k b hb
    rw [h1, List.getElem?_map, Option.map_eq_some_iff] at hb
    obtain ⟨x, hx, rfl⟩ := hb
    have h3 := h2.ids k x hx
    simp only [List.length_nil] at h3
    refine ⟨by omega, ?_⟩
    rcases h2.parents x (List.mem_of_getElem? hx) with h | h
    · omega
    · exact h.2
  refine ⟨new.map (·.1), by simp [h1], by rw [hz]; exact h2.roots, hid, ?_⟩
  intro x hx
  rw [hz] at hx ⊢
  obtain ⟨n, e1, e2, e3, e4, e5⟩ := h2.names x hx
  refine ⟨n, e1, e2, e3, ?_, e5⟩
  intro h0
  obtain ⟨q, hq, hqp⟩ := e4 h0
  simp only [List.nil_append, ← h1] at hq
  refine ⟨q, hq, ?_, hqp⟩
  have := (hid _ q hq).1
  omega

mutual
theorem importBones_some [Add F] (nodes : List (BNode F)) (rank : Nat → Nat)
    (hr : ∀ (i : Nat) (n : BNode F), nodes[i]? = some n → ∀ c ∈ n.children, c < nodes.length ∧ rank c < rank i) :
    ∀ (fuel node parent : Nat) (old : List (IBone F)), node < nodes.length → rank node < fuel → parent ≤ old.length →
    ∃ r, importBones nodes fuel node parent old = some r
  | 0, _, _, _, _, h, _ => by omega
  | fuel + 1, node, parent, old, hn, hf, hp => by
    rw [importBones, List.getElem?_eq_getElem hn]
    have hc : ∀ c ∈ (nodes[node]).children, c < nodes.length ∧ rank c < fuel := by
      intro c hc
      have := hr node _ (List.getElem?_eq_getElem hn) c hc
      omega
    simp only
    split
    · rw [List.getElem?_eq_getElem (show parent - 1 < old.length by omega)]
      exact importChildren_some nodes rank hr fuel _ _ _ hc (by simp)
    · exact importChildren_some nodes rank hr fuel _ _ _ hc (by simp)
theorem importChildren_some [Add F] (nodes : List (BNode F)) (rank : Nat → Nat)
    (hr : ∀ (i : Nat) (n : BNode F), nodes[i]? = some n → ∀ c ∈ n.children, c < nodes.length ∧ rank c < rank i) :
    ∀ (fuel : Nat) (cs : List Nat) (parent : Nat) (old : List (IBone F)),
    (∀ c ∈ cs, c < nodes.length ∧ rank c < fuel) → parent ≤ old.length →
    ∃ r, importChildren nodes fuel cs parent old = some r
  | _, [], _, old, _, _ => ⟨old, by rw [importChildren]⟩
  | fuel, c :: cs, parent, old, h, hp => by
    obtain ⟨hc1, hc2⟩ := h c (by simp)
    obtain ⟨r1, h1⟩ := importBones_some nodes rank hr fuel c parent old hc1 hc2 hp
    rw [importChildren, h1]
    obtain ⟨new, hn, _⟩ := importBones_grown nodes fuel c parent old r1 hp h1
    exact importChildren_some nodes rank hr fuel cs parent r1 (fun c' hc' => h c' (by simp [hc']))
      (by rw [hn]; simp; omega)
end

/-- C88: the recursion ends, without a panic, on every tree of nodes (its height bounds the depth). -/
theorem importBones_total [Add F] (nodes : List (BNode F)) (rank : Nat → Nat)
    (hr : ∀ (i : Nat) (n : BNode F), nodes[i]? = some n → ∀ c ∈ n.children, c < nodes.length ∧ rank c < rank i)
    (root : Nat) (hroot : root < nodes.length) : ∃ r, importBones nodes (rank root + 1) root 0 [] = some r :=
  importBones_some nodes rank hr _ root 0 [] hroot (by omega) (by simp)

example : (importBones (F := Int) [⟨['a'], ⟨1, 0, 0⟩, [2, 1]⟩, ⟨['b'], ⟨0, 1, 0⟩, []⟩, ⟨['c'], ⟨0, 0, 1⟩, []⟩] 2 0 0 []).map
    (·.map fun b => (b.id, b.name, b.pos, b.parent)) =
    some [(1, ['a'], ⟨1, 0, 0⟩, 0), (2, ['c'], ⟨1, 0, 1⟩, 1), (3, ['b'], ⟨1, 1, 0⟩, 1)] := by
  simp [importBones, importChildren, Vec3.add]

end Verif.Gltf
