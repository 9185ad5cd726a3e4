import Verif.Conv.MqoToMmd
import Verif.Mqo.TransformProps
import Mathlib.Data.List.Forall2

/-! Lemmas about converter/mqo2mmd.go for C38, C79 and C80. -/

namespace Verif.Conv

open Verif.Geom
open Verif.Mqo (Str Object Face Material Bone MorphTargetList)

variable {F : Type}

/-- The triangles of a convex polygon: all contain the first corner, in order. -/
def triangles {α : Type} : List α → List (List α)
  | a :: b :: c :: l => [a, b, c] :: triangles (a :: c :: l)
  | _ => []
termination_by l => l.length

theorem fan_eq {α : Type} (d : α) (l : List α) : fan d l = triangles l := by
  induction l using triangles.induct with
  | case1 a b c l ih =>
    rw [triangles, ← ih]
    simp only [fan, List.length_cons]
    rw [show l.length + 1 + 1 + 1 - 2 = l.length + 1 by omega, List.range_succ_eq_map,
      show l.length + 1 + 1 - 2 = l.length by omega]
    simp
  | case2 l h =>
    have : l.length - 2 = 0 := by
      match l, h with
      | [], _ => rfl
      | [_], _ => rfl
      | [_, _], _ => rfl
      | a :: b :: c :: l, h => exact absurd rfl (h a b c l)
    rw [fan, this]
    unfold triangles
    split
    · rename_i a b c l; exact absurd rfl (h a b c l)
    · rfl

theorem triangles_length {α : Type} (l : List α) : (triangles l).length = l.length - 2 := by
  rw [← List.length_map (as := triangles l) (f := id)]
  cases l with
  | nil => simp [triangles]
  | cons a l => rw [← fan_eq a]; simp [fan]

theorem triangles_forall₂ {α β : Type} (R : α → β → Prop) (l : List α) : ∀ r : List β,
    List.Forall₂ R l r → List.Forall₂ (List.Forall₂ R) (triangles l) (triangles r) := by
  induction l using triangles.induct with
  | case1 a b c l ih =>
    intro r h
    cases h with
    | cons h1 h =>
      cases h with
      | cons h2 h =>
        cases h with
        | cons h3 h =>
          rw [triangles, triangles]
          exact .cons (.cons h1 (.cons h2 (.cons h3 .nil))) (ih _ (.cons h1 (.cons h3 h)))
  | case2 l h =>
    intro r hr
    have hl : triangles l = [] := by
      unfold triangles
      split
      · rename_i a b c l; exact absurd rfl (h a b c l)
      · rfl
    have hr' : triangles r = [] := by
      have h1 := triangles_length l
      have h2 := triangles_length r
      rw [hl] at h1
      rw [← hr.length_eq, ← h1] at h2
      exact List.length_eq_zero_iff.mp h2
    rw [hl, hr']
    exact .nil

theorem mem_of_lookup {α β : Type} [BEq α] [LawfulBEq α] (l : List (α × β)) (a : α) (b : β)
    (h : l.lookup a = some b) : (a, b) ∈ l := by
  induction l with
  | nil => simp at h
  | cons e l ih =>
    obtain ⟨x, y⟩ := e
    rw [List.lookup_cons] at h
    cases hx : a == x
    · rw [hx] at h
      exact List.mem_cons_of_mem _ (ih h)
    · rw [hx] at h
      rw [eq_of_beq hx]
      simp at h
      simp [h]

/-! ### Weights -/

/-- All influences on vertex `v` of an object: bone number and weight, in the order of the bones. -/
def influences [Mul F] (hundredth : F) (o : Object F) (bones : List (Bone F)) (v : Nat) :
    List (Nat × F) :=
  bones.zipIdx.flatMap fun (b, bi) =>
    (b.weights.filter fun g => g.objectID = o.uid).flatMap fun g =>
      (g.vertexes.filter fun w => o.getVertexIndexByID w.vertexID = (v : Int)).map fun w =>
        (bi, w.weight * hundredth)

/-- A vertex with one more influence, up to four. -/
def pushWeight (v : MmdVertex F) (e : Nat × F) : MmdVertex F :=
  if 4 ≤ v.boneWeights.length then v
  else { v with bones := v.bones ++ [e.1], boneWeights := v.boneWeights ++ [e.2] }

theorem pushWeights_take (es : List (Nat × F)) : ∀ (v : MmdVertex F) (done : List (Nat × F)),
    v.bones = (done.take 4).map (·.1) → v.boneWeights = (done.take 4).map (·.2) →
    es.foldl pushWeight v = { v with
      bones := ((done ++ es).take 4).map (·.1), boneWeights := ((done ++ es).take 4).map (·.2) } := by
  induction es with
  | nil => intro v done h1 h2; simp [← h1, ← h2]
  | cons e es ih =>
    intro v done h1 h2
    rw [List.foldl_cons]
    have hl : v.boneWeights.length = min 4 done.length := by rw [h2]; simp
    by_cases h4 : 4 ≤ v.boneWeights.length
    · have hd : 4 ≤ done.length := by omega
      have ht : ∀ l : List (Nat × F), (done ++ l).take 4 = done.take 4 := by
        intro l
        rw [List.take_append_of_le_length hd]
      rw [pushWeight, if_pos h4, ih v (done ++ [e]) (by rw [ht]; exact h1) (by rw [ht]; exact h2)]
      simp only [List.append_assoc, ht]
    · have hd : done.length < 4 := by omega
      have ht : (done ++ [e]).take 4 = done ++ [e] := List.take_of_length_le (by simp; omega)
      have ht2 : done.take 4 = done := List.take_of_length_le (by omega)
      rw [ht2] at h1 h2
      rw [pushWeight, if_neg h4, ih _ (done ++ [e]) (by rw [ht]; simp [h1]) (by rw [ht]; simp [h2])]
      simp

/-- Adding influences from empty lists leaves the first four. -/
theorem pushWeights (es : List (Nat × F)) (v : MmdVertex F) (h1 : v.bones = [])
    (h2 : v.boneWeights = []) :
    es.foldl pushWeight v = { v with bones := (es.take 4).map (·.1),
                                     boneWeights := (es.take 4).map (·.2) } := by
  simpa using pushWeights_take es v [] (by simpa using h1) (by simpa using h2)

theorem addWeight_getElem? [Mul F] (h : F) (bi : Nat) (w : F) (ids : List Nat) (hn : ids.Nodup) :
    ∀ (vs : List (MmdVertex F)) (k : Nat), (addWeight h bi w vs ids)[k]? =
      if k ∈ ids then vs[k]?.map fun v => pushWeight v (bi, w * h) else vs[k]? := by
  induction ids with
  | nil => intro vs k; simp [addWeight]
  | cons id ids ih =>
    intro vs k
    rw [List.nodup_cons] at hn
    have := ih hn.2 (vs.modify id fun v => pushWeight v (bi, w * h)) k
    simp only [addWeight, List.foldl_cons, pushWeight] at this ⊢
    rw [this]
    by_cases hk : k = id
    · subst hk
      simp [hn.1, List.getElem?_modify]
    · have hk' : ¬ id = k := fun e => hk e.symm
      simp [hk, hk', List.getElem?_modify]

/-- The ids made from vertex `v`. -/
def idsOf (vmap : List (Nat × Nat)) (v : Int) : List Nat :=
  (vmap.filter fun p => (p.1 : Int) = v).map Prod.snd

theorem idsOf_nodup (vmap : List (Nat × Nat)) (h : (vmap.map (·.2)).Nodup) (v : Int) :
    (idsOf vmap v).Nodup :=
  h.sublist (List.Sublist.map _ List.filter_sublist)

theorem mem_idsOf (vmap : List (Nat × Nat)) (v : Int) (k : Nat) :
    k ∈ idsOf vmap v ↔ ∃ a : Nat, (a : Int) = v ∧ (a, k) ∈ vmap := by
  simp only [idsOf, List.mem_map, List.mem_filter, decide_eq_true_eq]
  constructor
  · rintro ⟨⟨a, b⟩, ⟨h1, h2⟩, rfl⟩; exact ⟨a, h2, h1⟩
  · rintro ⟨a, h1, h2⟩; exact ⟨(a, k), ⟨h2, h1⟩, rfl⟩

/-- The influences of an id: those of the vertices it was made from. -/
def idInfluences [Mul F] (h : F) (o : Object F) (vmap : List (Nat × Nat)) (bi : Nat)
    (ws : List (Mqo.VertexWeight F)) (k : Nat) : List (Nat × F) :=
  (ws.filter fun w => k ∈ idsOf vmap (o.getVertexIndexByID w.vertexID)).map fun w =>
    (bi, w.weight * h)

theorem group_getElem? [Mul F] (h : F) (o : Object F) (vmap : List (Nat × Nat))
    (hn : (vmap.map (·.2)).Nodup) (bi : Nat) (ws : List (Mqo.VertexWeight F)) :
    ∀ (vs : List (MmdVertex F)) (k : Nat),
      (ws.foldl (fun vs vw => addWeight h bi vw.weight vs
        ((vmap.filter fun p => (p.1 : Int) = o.getVertexIndexByID vw.vertexID).map Prod.snd)) vs)[k]? =
      vs[k]?.map fun v => (idInfluences h o vmap bi ws k).foldl pushWeight v := by
  induction ws with
  | nil => intro vs k; simp [idInfluences]
  | cons w ws ih =>
    intro vs k
    rw [List.foldl_cons, ih]
    have := addWeight_getElem? h bi w.weight (idsOf vmap (o.getVertexIndexByID w.vertexID))
      (idsOf_nodup vmap hn _) vs k
    rw [show (vmap.filter fun p => (p.1 : Int) = o.getVertexIndexByID w.vertexID).map Prod.snd =
      idsOf vmap (o.getVertexIndexByID w.vertexID) from rfl, this]
    by_cases hk : k ∈ idsOf vmap (o.getVertexIndexByID w.vertexID)
    · simp [idInfluences, hk, Option.map_map, Function.comp_def]
    · simp [idInfluences, hk]

theorem setBoneWeights_getElem? [Mul F] (h : F) (o : Object F) (vmap : List (Nat × Nat))
    (hn : (vmap.map (·.2)).Nodup) (bi : Nat) (gs : List (Mqo.WeightGroup F)) :
    ∀ (vs : List (MmdVertex F)) (k : Nat),
      (gs.foldl (fun vs g =>
        if g.objectID = o.uid then
          g.vertexes.foldl (fun vs vw => addWeight h bi vw.weight vs
            ((vmap.filter fun p => (p.1 : Int) = o.getVertexIndexByID vw.vertexID).map Prod.snd)) vs
        else vs) vs)[k]? =
      vs[k]?.map fun v => ((gs.filter fun g => g.objectID = o.uid).flatMap fun g =>
        idInfluences h o vmap bi g.vertexes k).foldl pushWeight v := by
  induction gs with
  | nil => intro vs k; simp
  | cons g gs ih =>
    intro vs k
    rw [List.foldl_cons, ih]
    by_cases hg : g.objectID = o.uid
    · simp only [hg, if_true, decide_true, List.filter_cons_of_pos, List.flatMap_cons,
        List.foldl_append]
      rw [group_getElem? h o vmap hn bi g.vertexes vs k]
      simp [Option.map_map, Function.comp_def]
    · simp [hg]

theorem setWeights_getElem? [Mul F] (h : F) (o : Object F) (vmap : List (Nat × Nat))
    (hn : (vmap.map (·.2)).Nodup) (bs : List (Bone F × Nat)) :
    ∀ (vs : List (MmdVertex F)) (k : Nat),
      (bs.foldl (fun vs (b, bi) => setBoneWeights h o vmap bi b vs) vs)[k]? =
      vs[k]?.map fun v => (bs.flatMap fun (b, bi) =>
        (b.weights.filter fun g => g.objectID = o.uid).flatMap fun g =>
          idInfluences h o vmap bi g.vertexes k).foldl pushWeight v := by
  induction bs with
  | nil => intro vs k; simp
  | cons b bs ih =>
    intro vs k
    obtain ⟨b, bi⟩ := b
    rw [List.foldl_cons, ih, List.flatMap_cons]
    simp only [List.foldl_append]
    rw [setBoneWeights, setBoneWeights_getElem? h o vmap hn bi b.weights vs k]
    simp [Option.map_map, Function.comp_def]

/-- A vertex that was made from vertex `a` of the object gets the first four influences of `a`. -/
theorem setWeights_new [Mul F] (h : F) (o : Object F) (bones : List (Bone F))
    (vmap : List (Nat × Nat)) (hn : (vmap.map (·.2)).Nodup) (vs : List (MmdVertex F)) (a k : Nat)
    (hm : (a, k) ∈ vmap) (v : MmdVertex F) (hv : vs[k]? = some v) (h1 : v.bones = [])
    (h2 : v.boneWeights = []) :
    (setWeights h o vmap bones vs)[k]? = some { v with
      bones := ((influences h o bones a).take 4).map (·.1)
      boneWeights := ((influences h o bones a).take 4).map (·.2) } := by
  rw [setWeights, setWeights_getElem? h o vmap hn, hv, Option.map_some, pushWeights _ v h1 h2]
  have : (bones.zipIdx.flatMap fun (b, bi) =>
        (b.weights.filter fun g => g.objectID = o.uid).flatMap fun g =>
          idInfluences h o vmap bi g.vertexes k) = influences h o bones a := by
    unfold influences
    congr 1
    funext ⟨b, bi⟩
    simp only
    congr 1
    funext g
    unfold idInfluences
    congr 1
    apply List.filter_congr
    intro w _
    have : k ∈ idsOf vmap (o.getVertexIndexByID w.vertexID) ↔
        o.getVertexIndexByID w.vertexID = (a : Int) := by
      rw [mem_idsOf]
      constructor
      · rintro ⟨b, h3, h4⟩
        have : b = a := by
          obtain ⟨i, hi, ei⟩ := List.mem_iff_getElem.mp h4
          obtain ⟨j, hj, ej⟩ := List.mem_iff_getElem.mp hm
          have h5 := List.nodup_iff_injective_getElem.mp hn
          have h6 := @h5 ⟨i, by simpa using hi⟩ ⟨j, by simpa using hj⟩ (by simp [ei, ej])
          have : i = j := by simpa using h6
          subst this
          rw [ei] at ej
          exact congrArg Prod.fst ej
        rw [← h3, this]
      · intro e; exact ⟨a, e.symm, hm⟩
    simp [this]
  rw [this]

/-- Other vertices keep their influences. -/
theorem setWeights_old [Mul F] (h : F) (o : Object F) (bones : List (Bone F))
    (vmap : List (Nat × Nat)) (hn : (vmap.map (·.2)).Nodup) (vs : List (MmdVertex F)) (k : Nat)
    (hm : k ∉ vmap.map (·.2)) : (setWeights h o vmap bones vs)[k]? = vs[k]? := by
  rw [setWeights, setWeights_getElem? h o vmap hn]
  have : (bones.zipIdx.flatMap fun (b, bi) =>
        (b.weights.filter fun g => g.objectID = o.uid).flatMap fun g =>
          idInfluences h o vmap bi g.vertexes k) = [] := by
    rw [List.flatMap_eq_nil_iff]
    rintro ⟨b, bi⟩ _
    simp only
    rw [List.flatMap_eq_nil_iff]
    intro g _
    unfold idInfluences
    rw [List.map_eq_nil_iff, List.filter_eq_nil_iff]
    intro w _
    simp only [decide_eq_true_eq, mem_idsOf]
    rintro ⟨a, _, ha⟩
    exact hm (List.mem_map.mpr ⟨_, ha, rfl⟩)
  rw [this]
  simp

theorem setWeights_length [Mul F] (h : F) (o : Object F) (bones : List (Bone F))
    (vmap : List (Nat × Nat)) (hn : (vmap.map (·.2)).Nodup) (vs : List (MmdVertex F)) :
    (setWeights h o vmap bones vs).length = vs.length := by
  have key : ∀ k : Nat, (setWeights h o vmap bones vs)[k]? = none ↔ vs[k]? = none := by
    intro k
    rw [setWeights, setWeights_getElem? h o vmap hn]
    simp
  have h1 := (key vs.length).mpr (by simp)
  have h2 := (key (setWeights h o vmap bones vs).length).mp (by simp)
  simp at h1 h2
  omega

/-! ### Corners and faces -/

/-- The vertex that corner `(v, uv)` should become, before weights. -/
def bareVertex [Mul F] [One F] [Neg F] (s : F) (o : Object F) (normals : List (Vec3 F))
    (c : Nat × Vec2 F) : Option (MmdVertex F) :=
  match o.vertexes[c.1]?, normals[c.1]? with
  | some p, some n => some ⟨mqoToMmdVec s p, n, c.2, [], []⟩
  | _, _ => none

/-- `id` is a correct number for corner `c`. -/
def Made [Mul F] [One F] [Neg F] (s : F) (o : Object F) (normals : List (Vec3 F))
    (vs : List (MmdVertex F)) (vmap : List (Nat × Nat)) (c : Nat × Vec2 F) (id : Nat) : Prop :=
  ∃ w, bareVertex s o normals c = some w ∧ vs[id]? = some w ∧ (c.1, id) ∈ vmap

structure CornerInv [Mul F] [One F] [Neg F] (s : F) (o : Object F) (normals : List (Vec3 F))
    (base : Nat) (vs : List (MmdVertex F)) (maps : CornerMaps F) : Prop where
  base_le : base ≤ vs.length
  ids : maps.vmap.map (·.2) = List.range' base (vs.length - base)
  made : ∀ e ∈ maps.indices, Made s o normals vs maps.vmap e.1 e.2

theorem Made.mono [Mul F] [One F] [Neg F] {s : F} {o : Object F} {normals : List (Vec3 F)}
    {vs vs' : List (MmdVertex F)} {vmap vmap' : List (Nat × Nat)} {c : Nat × Vec2 F} {id : Nat}
    (h : Made s o normals vs vmap c id) (h1 : vs <+: vs') (h2 : vmap <+: vmap') :
    Made s o normals vs' vmap' c id := by
  obtain ⟨w, a, b, d⟩ := h
  refine ⟨w, a, ?_, h2.subset d⟩
  obtain ⟨t, rfl⟩ := h1
  rw [List.getElem?_append_left (List.getElem?_eq_some_iff.mp b).1]
  exact b

variable [Add F] [Sub F] [Mul F] [Div F] [One F] [Neg F] [Zero F] [DecidableEq F]

theorem mmdCorner_spec (s : F) (objects : List (Object F)) (targets : List Mqo.MorphTarget)
    (o : Object F) (normals : List (Vec3 F)) (hn : normals.length = o.vertexes.length) (base : Nat)
    (uv : Vec2 F) (v : Nat) (hv : v < o.vertexes.length) (out : MmdOut F) (maps : CornerMaps F)
    (hi : CornerInv s o normals base out.vertexes maps) :
    ∃ id out' maps', mmdCorner s objects targets o normals uv v out maps = some (id, out', maps') ∧
      CornerInv s o normals base out'.vertexes maps' ∧ out.vertexes <+: out'.vertexes ∧
      maps.vmap <+: maps'.vmap ∧ out'.faces = out.faces ∧
      Made s o normals out'.vertexes maps'.vmap (v, uv) id := by
  unfold mmdCorner
  cases hl : maps.indices.lookup (v, uv) with
  | some id =>
    exact ⟨id, out, maps, rfl, hi, List.prefix_refl _, List.prefix_refl _, rfl,
      hi.made _ (mem_of_lookup _ _ _ hl)⟩
  | none =>
    have hvn : v < normals.length := by omega
    simp only [List.getElem?_eq_getElem hv, List.getElem?_eq_getElem hvn]
    refine ⟨_, _, _, rfl, ⟨?_, ?_, ?_⟩, ⟨_, rfl⟩, ⟨_, rfl⟩, rfl, ?_⟩
    · simp only [List.length_append]; have := hi.base_le; omega
    · simp only [List.map_append, hi.ids, List.map_cons, List.map_nil, List.length_append,
        List.length_cons, List.length_nil]
      have := hi.base_le
      rw [show out.vertexes.length + (0 + 1) - base = out.vertexes.length - base + 1 by omega,
        List.range'_concat]
      simp
      omega
    · intro e he
      rcases List.mem_cons.mp he with rfl | he
      · refine ⟨⟨mqoToMmdVec s o.vertexes[v], normals[v], uv, [], []⟩, ?_, by simp, by simp⟩
        simp [bareVertex, List.getElem?_eq_getElem hv, List.getElem?_eq_getElem hvn]
      · exact (hi.made e he).mono ⟨_, rfl⟩ ⟨_, rfl⟩
    · refine ⟨⟨mqoToMmdVec s o.vertexes[v], normals[v], uv, [], []⟩, ?_, by simp, by simp⟩
      simp [bareVertex, List.getElem?_eq_getElem hv, List.getElem?_eq_getElem hvn]

/-- The corners of a face: vertex and UV. -/
def cornerKeys (uvs : List (Vec2 F)) (i : Nat) (vs : List Nat) : List (Nat × Vec2 F) :=
  (vs.zipIdx i).map fun (v, i) => (v, cornerUV uvs i)

theorem mmdCorners_spec (s : F) (objects : List (Object F)) (targets : List Mqo.MorphTarget)
    (o : Object F) (normals : List (Vec3 F)) (hn : normals.length = o.vertexes.length) (base : Nat)
    (uvs : List (Vec2 F)) (vs : List Nat) : ∀ (i : Nat) (out : MmdOut F) (maps : CornerMaps F),
    (∀ v ∈ vs, v < o.vertexes.length) → CornerInv s o normals base out.vertexes maps →
    ∃ ids out' maps', mmdCorners s objects targets o normals uvs i vs out maps =
        some (ids, out', maps') ∧
      CornerInv s o normals base out'.vertexes maps' ∧ out.vertexes <+: out'.vertexes ∧
      maps.vmap <+: maps'.vmap ∧ out'.faces = out.faces ∧
      List.Forall₂ (Made s o normals out'.vertexes maps'.vmap) (cornerKeys uvs i vs) ids := by
  induction vs with
  | nil => intro i out maps _ hi; exact ⟨[], out, maps, rfl, hi, List.prefix_refl _,
      List.prefix_refl _, rfl, .nil⟩
  | cons v vs ih =>
    intro i out maps hv hi
    obtain ⟨id, out1, maps1, e1, i1, p1, q1, f1, m1⟩ := mmdCorner_spec s objects targets o normals hn
      base (cornerUV uvs i) v (hv v (by simp)) out maps hi
    obtain ⟨ids, out2, maps2, e2, i2, p2, q2, f2, m2⟩ := ih (i + 1) out1 maps1
      (fun v h => hv v (by simp [h])) i1
    refine ⟨id :: ids, out2, maps2, ?_, i2, p1.trans p2, q1.trans q2, f2.trans f1,
      .cons (m1.mono p2 q2) m2⟩
    unfold mmdCorners
    simp only [e1, e2]

/-- The faces of an object that are exported with material `mi`. -/
def facesOf (mi : Nat) (fs : List (Face F)) : List (Face F) :=
  fs.filter fun f => 3 ≤ f.verts.length ∧ f.material = (mi : Int)

theorem mmdFaces_spec (s : F) (objects : List (Object F)) (targets : List Mqo.MorphTarget)
    (o : Object F) (normals : List (Vec3 F)) (hn : normals.length = o.vertexes.length) (base mi : Nat)
    (fs : List (Face F)) : ∀ (out : MmdOut F) (maps : CornerMaps F),
    (∀ f ∈ fs, ∀ v ∈ f.verts, v < o.vertexes.length) →
    CornerInv s o normals base out.vertexes maps →
    ∃ out' maps' new, mmdFaces s objects targets o normals mi fs out maps = some (out', maps') ∧
      CornerInv s o normals base out'.vertexes maps' ∧ out.vertexes <+: out'.vertexes ∧
      maps.vmap <+: maps'.vmap ∧ out'.faces = out.faces ++ new ∧
      List.Forall₂ (List.Forall₂ (Made s o normals out'.vertexes maps'.vmap))
        ((facesOf mi fs).flatMap fun f => triangles (cornerKeys f.uvs 0 f.verts)) new := by
  induction fs with
  | nil => intro out maps _ hi; exact ⟨out, maps, [], rfl, hi, List.prefix_refl _,
      List.prefix_refl _, by simp, by simp [facesOf]⟩
  | cons f fs ih =>
    intro out maps hv hi
    unfold mmdFaces
    by_cases hf : f.verts.length < 3 ∨ f.material ≠ (mi : Int)
    · rw [if_pos hf]
      have : facesOf mi (f :: fs) = facesOf mi fs := by
        unfold facesOf
        rw [List.filter_cons_of_neg]
        simp
        intro h
        rcases hf with h' | h'
        · omega
        · exact h'
      rw [this]
      exact ih out maps (fun g hg => hv g (by simp [hg])) hi
    · rw [if_neg hf]
      have : facesOf mi (f :: fs) = f :: facesOf mi fs := by
        unfold facesOf
        rw [List.filter_cons_of_pos]
        simp only [not_or, not_lt, ne_eq, not_not] at hf
        simpa using hf
      rw [this]
      obtain ⟨ids, out1, maps1, e1, i1, p1, q1, f1, m1⟩ := mmdCorners_spec s objects targets o normals
        hn base f.uvs f.verts 0 out maps (hv f (by simp)) hi
      simp only [e1]
      obtain ⟨out2, maps2, new, e2, i2, p2, q2, f2, m2⟩ := ih { out1 with
        faces := out1.faces ++ fan 0 ids } maps1 (fun g hg => hv g (by simp [hg])) i1
      refine ⟨out2, maps2, triangles ids ++ new, e2, i2, p1.trans p2, q1.trans q2, ?_, ?_⟩
      · rw [f2, fan_eq]
        simp only [f1, List.append_assoc]
      · rw [List.flatMap_cons]
        refine List.rel_append ?_ m2
        refine (triangles_forall₂ _ _ _ m1).imp fun a b h => h.imp fun c d h => h.mono p2 q2

/-! ### Objects and materials -/

variable [FloatOps F]

theorem smoothNormals_length (o : Object F)
    (h : ∀ f ∈ o.faces, ∀ v ∈ f.verts, v < o.vertexes.length) :
    ∃ ns, o.smoothNormals = some ns ∧ ns.length = o.vertexes.length := by
  obtain ⟨r, h1, h2⟩ := Mqo.smoothFaces_spec o o.faces (o.vertexes.map fun _ => ⟨0, 0, 0⟩) h (by simp)
  exact ⟨r.map Vec3.normalize, by rw [Object.smoothNormals, h1]; rfl, by simpa using h2⟩

/-- The vertex that corner `c` of an object should become: mirrored and scaled position, smooth
normal, UV, and the first four influences. -/
def sourceVertex (s h : F) (bones : List (Bone F)) (o : Object F) (c : Nat × Vec2 F) :
    Option (MmdVertex F) := do
  let ns ← o.smoothNormals
  let p ← o.vertexes[c.1]?
  let n ← ns[c.1]?
  return ⟨mqoToMmdVec s p, n, c.2, ((influences h o bones c.1).take 4).map (·.1),
    ((influences h o bones c.1).take 4).map (·.2)⟩

/-- The triangles an object should contribute to material `mi`. -/
def sourceFaces (s h : F) (bones : List (Bone F)) (mi : Nat) (o : Object F) :
    List (List (Option (MmdVertex F))) :=
  (facesOf mi o.faces).flatMap fun f =>
    (triangles (cornerKeys f.uvs 0 f.verts)).map (·.map (sourceVertex s h bones o))

theorem mmdObjects_spec (c : MmdCtx F) (mi : Nat) (os : List (Object F)) : ∀ (out : MmdOut F),
    (∀ o ∈ os, ∀ f ∈ o.faces, ∀ v ∈ f.verts, v < o.vertexes.length) →
    ∃ out' new, mmdObjects c mi os out = some out' ∧ out.vertexes <+: out'.vertexes ∧
      out'.faces = out.faces ++ new ∧
      (∀ t ∈ new, ∀ id ∈ t, id < out'.vertexes.length) ∧
      new.map (·.map (out'.vertexes[·]?)) = (os.filter (exported c.morphLists)).flatMap
        (sourceFaces c.scale c.hundredth c.bones mi) := by
  induction os with
  | nil => intro out _; exact ⟨out, [], rfl, List.prefix_refl _, by simp, by simp, rfl⟩
  | cons o os ih =>
    intro out hv
    unfold mmdObjects
    by_cases he : exported c.morphLists o
    · rw [if_pos he, List.filter_cons_of_pos he, List.flatMap_cons]
      obtain ⟨ns, hns, hnl⟩ := smoothNormals_length o (hv o (by simp))
      simp only [hns]
      obtain ⟨out1, maps, new1, e1, i1, p1, _, f1, m1⟩ := mmdFaces_spec c.scale c.objects
        (targetsFor c.morphLists o.name) o ns hnl out.vertexes.length mi o.faces out ⟨[], []⟩
        (hv o (by simp)) ⟨le_refl _, by simp, by simp⟩
      simp only [e1]
      have hnd : (maps.vmap.map (·.2)).Nodup := by rw [i1.ids]; exact List.nodup_range'
      have hlen := setWeights_length c.hundredth o c.bones maps.vmap hnd out1.vertexes
      obtain ⟨out2, new2, e2, p2, f2, r2, m2⟩ := ih { out1 with
        vertexes := setWeights c.hundredth o maps.vmap c.bones out1.vertexes }
        (fun o' h => hv o' (by simp [h]))
      simp only at p2 f2
      -- old vertices are unchanged
      have hold : out.vertexes <+: setWeights c.hundredth o maps.vmap c.bones out1.vertexes := by
        rw [List.prefix_iff_eq_take]
        apply List.ext_getElem?
        intro k
        rw [List.getElem?_take]
        split
        · rename_i hk
          rw [setWeights_old c.hundredth o c.bones maps.vmap hnd _ k (by
            rw [i1.ids, List.mem_range']; rintro ⟨i, _, hi⟩; omega)]
          obtain ⟨t, ht⟩ := p1
          rw [← ht, List.getElem?_append_left hk]
        · rename_i hk
          exact List.getElem?_eq_none (by omega)
      have hids : ∀ t ∈ new1, ∀ id ∈ t, id < out1.vertexes.length := by
        clear f1 e1
        generalize (facesOf mi o.faces).flatMap (fun f => triangles (cornerKeys f.uvs 0 f.verts)) = ks
          at m1
        induction m1 with
        | nil => simp
        | cons h _ ih =>
          intro t ht
          rcases List.mem_cons.mp ht with rfl | ht
          · clear ih ht
            induction h with
            | nil => simp
            | cons h _ ih =>
              intro id hid
              rcases List.mem_cons.mp hid with rfl | hid
              · obtain ⟨w, _, hw, _⟩ := h
                exact (List.getElem?_eq_some_iff.mp hw).1
              · exact ih id hid
          · exact ih t ht
      refine ⟨out2, new1 ++ new2, e2, hold.trans p2, by rw [f2, f1, List.append_assoc], ?_, ?_⟩
      · intro t ht id hid
        rcases List.mem_append.mp ht with h | h
        · have h1 := hids t h id hid
          have h2 := p2.length_le
          omega
        · exact r2 t h id hid
      · rw [List.map_append, m2]
        congr 1
        unfold sourceFaces
        rw [← List.map_flatMap]
        clear e1 f1 hids
        generalize (facesOf mi o.faces).flatMap (fun f => triangles (cornerKeys f.uvs 0 f.verts)) = ks
          at m1
        induction m1 with
        | nil => rfl
        | cons h _ ih =>
          rw [List.map_cons, List.map_cons, ih]
          congr 1
          clear ih
          induction h with
          | nil => rfl
          | @cons k id _ _ h _ ih =>
            rw [List.map_cons, List.map_cons, ih]
            congr 1
            obtain ⟨w, hw1, hw2, hw3⟩ := h
            unfold bareVertex at hw1
            split at hw1
            · rename_i p n hp hn'
              cases hw1
              have := setWeights_new c.hundredth o c.bones maps.vmap hnd out1.vertexes k.1 id hw3 _
                hw2 rfl rfl
              obtain ⟨t, ht⟩ := p2
              rw [← ht, List.getElem?_append_left (by
                rw [hlen]; exact (List.getElem?_eq_some_iff.mp hw2).1), this]
              simp [sourceVertex, hns, hp, hn']
            · cases hw1
    · rw [if_neg he, List.filter_cons_of_neg he]
      exact ih out fun o' h => hv o' (by simp [h])

theorem mmdMaterials_spec (c : MmdCtx F)
    (hv : ∀ o ∈ c.objects, ∀ f ∈ o.faces, ∀ v ∈ f.verts, v < o.vertexes.length)
    (ms : List (Material F)) : ∀ (mi : Nat) (out : MmdOut F),
    ∃ out' mats new, mmdMaterials c mi ms out = some (out', mats) ∧
      out.vertexes <+: out'.vertexes ∧ out'.faces = out.faces ++ new ∧
      (∀ t ∈ new, ∀ id ∈ t, id < out'.vertexes.length) ∧
      (new.map (·.map (out'.vertexes[·]?)) = (List.range' mi ms.length).flatMap fun mi =>
        (c.objects.filter (exported c.morphLists)).flatMap
          (sourceFaces c.scale c.hundredth c.bones mi)) ∧
      mats.map (·.name) = ms.map (·.name) ∧
      mats.map (·.count) = (List.range' mi ms.length).map fun mi =>
        3 * ((c.objects.filter (exported c.morphLists)).flatMap
          (sourceFaces c.scale c.hundredth c.bones mi)).length := by
  induction ms with
  | nil => intro mi out; exact ⟨out, [], [], rfl, List.prefix_refl _, by simp, by simp, rfl, rfl, rfl⟩
  | cons m ms ih =>
    intro mi out
    obtain ⟨out1, new1, e1, p1, f1, r1, m1⟩ := mmdObjects_spec c mi c.objects out hv
    obtain ⟨out2, mats, new2, e2, p2, f2, r2, m2, n2, c2⟩ := ih (mi + 1) out1
    refine ⟨out2, ⟨m.name, (out1.faces.length - out.faces.length) * 3⟩ :: mats, new1 ++ new2, ?_,
      p1.trans p2, by rw [f2, f1, List.append_assoc], ?_, ?_, ?_, ?_⟩
    · unfold mmdMaterials
      simp only [e1, e2]
    · intro t ht id hid
      rcases List.mem_append.mp ht with h | h
      · have h1 := r1 t h id hid
        have h2 := p2.length_le
        omega
      · exact r2 t h id hid
    · rw [List.map_append, m2, List.length_cons, List.range'_succ, List.flatMap_cons, ← m1]
      congr 1
      apply List.map_congr_left
      intro t ht
      apply List.map_congr_left
      intro id hid
      obtain ⟨r, hr⟩ := p2
      rw [← hr, List.getElem?_append_left (r1 t ht id hid)]
    · simp [n2]
    · rw [List.map_cons, c2, List.length_cons, List.range'_succ, List.map_cons, ← m1, List.length_map]
      congr 1
      rw [f1]
      simp
      omega

end Verif.Conv
